import Verif.Lemmas.Names
import Verif.Lemmas.LineForm
/-
  C36 — splitting a full name.
-/
namespace KC
open KC.Spec

theorem unquoteName_of {s t : QString} (h : Unquoted s t) : unquoteName s = t := by
  unfold unquoteName
  rcases h with rfl | ⟨h, rfl⟩
  · rw [if_pos ⟨by simp, rfl, List.getLast?_concat⟩]
    simp [mid]
  · rw [if_neg]
    rintro ⟨h1, h2, h3⟩
    cases t with
    | nil => simp at h1
    | cons x t =>
      simp only [List.head?_cons, Option.some.injEq] at h2
      have ht : t ≠ [] := by rintro rfl; simp at h1
      rw [List.getLast?_cons_of_ne_nil ht] at h3
      apply h t.dropLast
      rw [List.getLast?_eq_some_iff] at h3
      obtain ⟨ys, rfl⟩ := h3
      rw [h2]
      simp

private theorem noComma_spec (h : NameHelper) (hf : h.treatAsFamilyName = true) (c : Contact) (str : QString)
    (h1 : c.prefix_ = []) (h2 : c.givenName = []) (h3 : c.additionalName = []) (h4 : c.familyName = []) :
    PartsOnly c (setNameNoComma h c str) ∧
    words isBlankChar (setNameNoComma h c str).prefix_ ++ words isBlankChar (setNameNoComma h c str).givenName ++
      words isBlankChar (setNameNoComma h c str).additionalName ++ words isBlankChar (setNameNoComma h c str).familyName ++
      words isBlankChar (setNameNoComma h c str).suffix = words isBlankChar str := by
  have hb : ∀ w ∈ (splitOn (32 : UInt16) str).reverse, (32 : UInt16) ∉ w := fun w hw => sep_not_mem_splitOn 32 str w (List.mem_reverse.1 hw)
  obtain ⟨taken, e1, -, -, e4⟩ := suffixLoop_spec h _ hb []
  unfold setNameNoComma
  rw [words_split str]
  have e : splitOn (32 : UInt16) str = (suffixLoop h (splitOn (32 : UInt16) str).reverse []).2.reverse ++ taken.reverse := by
    rw [← List.reverse_append, ← e1, List.reverse_reverse]
  rw [e] 
  have hb' : ∀ w ∈ (suffixLoop h (splitOn (32 : UInt16) str).reverse []).2, (32 : UInt16) ∉ w := by
    intro w hw
    apply hb
    rw [e1]
    simp [hw]
  rw [← e]
  generalize suffixLoop h (splitOn (32 : UInt16) str).reverse [] = s at e4 hb' e
  obtain ⟨suf, rest⟩ := s
  simp only at e4 hb' e
  cases rest with
  | nil =>
    simp only [setSuffix_eq, h1, h2, h3, h4]
    refine ⟨rfl, ?_⟩
    rw [e, e4]
    simp [words]
  | cons w r =>
    obtain ⟨fam, f1, f2, -⟩ := familyPart_spec h w r hb'
    have hl : ∀ v ∈ (familyPart h w r).2.1.reverse, (32 : UInt16) ∉ v := by
      intro v hv
      apply hb'
      rw [← f1]
      simp [List.mem_reverse.1 hv]
    obtain ⟨l1, l2, l3, l4⟩ := leftParts_spec h ((c.setSuffix suf).setFamilyName (familyPart h w r).1) (familyPart h w r).2.1.reverse hl
    simp only [hf, Bool.or_true, if_true]
    refine ⟨.trans (by simp only [setFamilyName_eq, setSuffix_eq]) l1, ?_⟩
    rw [l2, l3, l4 (by simp [setFamilyName_eq, setSuffix_eq, h2])]
    simp only [setFamilyName_eq, setSuffix_eq]
    rw [f2, e4, e, ← f1]
    simp [words, List.filter_append]

/-- The contact before the parts are set. -/
private def cleared (c : Contact) (t : QString) : Contact :=
  { c with formattedName := t, name := t, prefix_ := [], givenName := [], additionalName := [], familyName := [], suffix := []
           empty := c.empty && decide (t = c.formattedName) && decide (t = c.name) && decide ([] = c.prefix_) && decide ([] = c.givenName) &&
      decide ([] = c.additionalName) && decide ([] = c.familyName) && decide ([] = c.suffix) }

private theorem fromString_eq (h : NameHelper) (c : Contact) {s t : QString} (ht : Unquoted s t) : c.setNameFromString h s =
    if t.isEmpty then some (cleared c t)
    else match indexOf? (qc! ',') t with
      | none => some (setNameNoComma h (cleared c t) t)
      | some i => setNameComma h (cleared c t) t i := by
  unfold Contact.setNameFromString
  rw [unquoteName_of ht]
  have e : (((((((c.setFormattedName t).setName t).setPrefix []).setGivenName []).setAdditionalName []).setFamilyName []).setSuffix []) = cleared c t := by
    simp only [setFormattedName_eq, setName_eq, setPrefix_eq, setGivenName_eq, setAdditionalName_eq, setFamilyName_eq, setSuffix_eq, cleared]
  simp only [e]
  split
  · rfl
  · cases indexOf? (qc! ',') t <;> rfl

private theorem parts_frame {c c' : Contact} {t : QString} (h : PartsOnly (cleared c t) c') : c'.formattedName = t ∧ c'.name = t ∧ SameButName c c' := by
  refine ⟨(congrArg Contact.formattedName h :).symm, (congrArg Contact.name h :).symm, ?_⟩
  exact (congrArg (fun x : Contact => ({ x with formattedName := [], name := [] } : Contact)) h :)

/-- A name without a comma: the words of the five parts, one part after the other, are the words of the text, whatever the sets of titles, prefixes
    and suffixes. Nothing else changes but the formatted name and the name, which are the text without quotes. The setting that the last word is
    the family name must be on. Missing: names with a comma (see below). -/
theorem C36_noComma_partial (h : NameHelper) (hf : h.treatAsFamilyName = true) (c : Contact) (s t : QString) (ht : Unquoted s t) (hc : qc! ',' ∉ t) :
    ∃ c', c.setNameFromString h s = some c' ∧ c'.formattedName = t ∧ c'.name = t ∧ SameButName c c' ∧
      ∃ ws, Words isBlankChar t ws ∧ PartWords c' ws := by
  rw [fromString_eq h c ht, indexOf?_none _ _ hc]
  cases ht' : t.isEmpty with
  | true =>
    rw [List.isEmpty_iff] at ht'
    simp only [if_true]
    obtain ⟨p1, p2, p3⟩ := parts_frame (c := c) (c' := cleared c t) rfl
    exact ⟨cleared c t, rfl, p1, p2, p3, [], ht' ▸ .nil, [], [], [], [], [], .nil, .nil, .nil, .nil, .nil, rfl⟩
  | false =>
    simp only [Bool.false_eq_true, if_false]
    obtain ⟨p1, p2⟩ := noComma_spec h hf (cleared c t) t rfl rfl rfl rfl
    obtain ⟨q1, q2, q3⟩ := parts_frame p1
    exact ⟨_, rfl, q1, q2, q3, _, words_spec _ _, _, _, _, _, _, words_spec _ _, words_spec _ _, words_spec _ _, words_spec _ _, words_spec _ _, p2.symm⟩

private theorem comma_parts {ps : List QString} (hps : ps ≠ []) (hb : ∀ p ∈ ps, qc! ' ' ∉ p ∧ qc! ',' ∉ p) (b : QString) :
    indexOf? (qc! ',') (join (q! " ") ps ++ qc! ',' :: b) = some (join (q! " ") ps).length ∧ splitOn (qc! ' ') (join (q! " ") ps) = ps := by
  refine ⟨indexOf?_append _ _ _ ?_, splitOn_join hps fun p hp => (hb p hp).1⟩
  clear hps
  induction ps with
  | nil => simp [join]
  | cons p ps ih =>
    cases ps with
    | nil => exact (hb p (by simp)).2
    | cons q ps =>
      show qc! ',' ∉ p ++ q! " " ++ join (q! " ") (q :: ps)
      rw [List.mem_append, List.mem_append]
      rintro ((hp | hp) | hp)
      · exact (hb p (by simp)).2 hp
      · exact absurd hp (by decide)
      · exact ih (fun v hv => hb v (by simp [hv])) hp

private theorem comma_empty (ps : List QString) (b : QString) : (join (q! " ") ps ++ qc! ',' :: b).isEmpty = false := by
  cases h : (join (q! " ") ps ++ qc! ',' :: b).isEmpty with
  | false => rfl
  | true => rw [List.isEmpty_iff] at h; simp at h

private theorem comma_take (x b : QString) : (x ++ qc! ',' :: b).take x.length = x ∧ (x ++ qc! ',' :: b).drop (x.length + 1) = b := by
  simp

/-- A name with a comma, taken apart: before the comma there are words that are lost, then the words of the family name, then the suffixes; the words
    after the comma are those of prefix, given name and additional name. The pieces `ps` are what stands before, between and after the spaces. -/
theorem C36_comma_partial (h : NameHelper) (c : Contact) (s : QString) (ps : List QString) (b : QString) (hps : ps ≠ [])
    (hb : ∀ p ∈ ps, qc! ' ' ∉ p ∧ qc! ',' ∉ p) (ht : Unquoted s (join (q! " ") ps ++ qc! ',' :: b)) (hn : ∃ p ∈ ps, h.suffix p = false) :
    ∃ c' lost fam suf, c.setNameFromString h s = some c' ∧ c'.formattedName = join (q! " ") ps ++ qc! ',' :: b ∧
      c'.name = join (q! " ") ps ++ qc! ',' :: b ∧ SameButName c c' ∧
      ps = lost ++ fam ++ suf ∧ (∀ p ∈ suf, h.suffix p = true) ∧
      ((∃ w, fam = [w] ∧ h.suffix w = false ∧ ∀ p ∈ lost.getLast?, h.prefix_ (h.lower p) = false) ∨
       (∃ p w, fam = [p, w] ∧ h.suffix w = false ∧ h.prefix_ (h.lower p) = true)) ∧
      Words isBlankChar c'.familyName (fam.filter (!·.isEmpty)) ∧ Words isBlankChar c'.suffix (suf.filter (!·.isEmpty)) ∧
      ∃ w1 w2 w3, Words isBlankChar c'.prefix_ w1 ∧ Words isBlankChar c'.givenName w2 ∧ Words isBlankChar c'.additionalName w3 ∧
        Words isBlankChar b (w1 ++ w2 ++ w3) := by
  rw [fromString_eq h c ht, comma_empty ps b, (comma_parts hps hb b).1]
  simp only [Bool.false_eq_true, if_false]
  have hs := (comma_parts hps hb b).2
  have hr : ∀ w ∈ ps.reverse, (32 : UInt16) ∉ w := fun w hw => (hb w (List.mem_reverse.1 hw)).1
  obtain ⟨taken, e1, e2, e3, e4⟩ := suffixLoop_spec h _ hr []
  unfold setNameComma
  rw [(comma_take _ _).1, (comma_take _ _).2, hs]
  have hb' : ∀ w ∈ (suffixLoop h ps.reverse []).2, (32 : UInt16) ∉ w := fun w hw => hr w (by rw [e1]; simp [hw])
  generalize suffixLoop h ps.reverse [] = r at e1 e3 e4 hb'
  obtain ⟨suf, rest⟩ := r
  simp only at e1 e3 e4 hb' ⊢
  cases rest with
  | nil =>
    obtain ⟨p, hp, hp'⟩ := hn
    have := e2 p (by rw [List.append_nil] at e1; rw [← e1]; simpa using hp)
    rw [this] at hp'
    cases hp'
  | cons w r =>
    simp only
    obtain ⟨fam, f1, f2, f3⟩ := familyPart_spec h w r hb'
    have hw : h.suffix w = false := e3 w (by simp)
    have hps' : ps = (familyPart h w r).2.1.reverse ++ fam.reverse ++ taken.reverse := by
      rw [← List.reverse_append, f1, ← List.reverse_append, ← e1, List.reverse_reverse]
    obtain ⟨l1, l2, l3, l4⟩ := leftParts_spec h (((cleared c (join (q! " ") ps ++ qc! ',' :: b)).setSuffix suf).setFamilyName (familyPart h w r).1)
      (splitOn (qc! ' ') b) (sep_not_mem_splitOn _ b)
    generalize hc' : setLeftParts h (((cleared c (join (q! " ") ps ++ qc! ',' :: b)).setSuffix suf).setFamilyName (familyPart h w r).1) (splitOn (qc! ' ') b) = c' at l1 l2 l3 l4
    obtain ⟨q1, q2, q3⟩ := parts_frame (c := c) (c' := c') (.trans (by simp only [setFamilyName_eq, setSuffix_eq]; rfl) l1)
    refine ⟨c', (familyPart h w r).2.1.reverse, fam.reverse, taken.reverse, rfl, q1, q2, q3, hps', fun p hp => e2 p (List.mem_reverse.1 hp), ?_, ?_, ?_,
      _, _, _, words_spec _ _, words_spec _ _, words_spec _ _, ?_⟩
    · rcases f3 with ⟨g1, g2, -⟩ | ⟨p, g1, g2, -⟩
      · subst g1
        simp only [List.singleton_append, List.cons.injEq, true_and] at f1
        rw [f1]
        exact .inl ⟨w, rfl, hw, by simpa using g2⟩
      · subst g1
        exact .inr ⟨p, w, rfl, hw, g2⟩
    · rw [l2]
      simp only [setFamilyName_eq]
      rw [← f2]
      exact words_spec _ _
    · rw [l3]
      simp only [setFamilyName_eq, setSuffix_eq]
      have : words isBlankChar suf = taken.reverse.filter (!·.isEmpty) := by simpa [words] using e4
      rw [← this]
      exact words_spec _ _
    · have e := l4 (by simp only [setFamilyName_eq, setSuffix_eq]; rfl)
      rw [e]
      have := words_spec isBlankChar b
      rwa [words_split] at this

/-- "Family, Given More": if only the family name (with its prefix, or not) and suffixes stand before the comma, no word is lost. -/
theorem C36_comma_words_partial (h : NameHelper) (c : Contact) (s : QString) (fam suf : List QString) (b : QString)
    (hf : (∃ w, fam = [w] ∧ h.suffix w = false) ∨ (∃ p w, fam = [p, w] ∧ h.suffix w = false ∧ h.prefix_ (h.lower p) = true))
    (hsuf : ∀ p ∈ suf, h.suffix p = true) (hb : ∀ p ∈ fam ++ suf, qc! ' ' ∉ p ∧ qc! ',' ∉ p)
    (ht : Unquoted s (join (q! " ") (fam ++ suf) ++ qc! ',' :: b)) :
    ∃ c' w1 w2 w3 w4 w5, c.setNameFromString h s = some c' ∧ Words isBlankChar c'.prefix_ w1 ∧ Words isBlankChar c'.givenName w2 ∧
      Words isBlankChar c'.additionalName w3 ∧ Words isBlankChar c'.familyName w4 ∧ Words isBlankChar c'.suffix w5 ∧
      Words isBlankChar (join (q! " ") (fam ++ suf)) (w4 ++ w5) ∧ Words isBlankChar b (w1 ++ w2 ++ w3) := by
  have hne : fam ++ suf ≠ [] := by rcases hf with ⟨w, rfl, _⟩ | ⟨p, w, rfl, _⟩ <;> simp
  have hn : ∃ p ∈ fam ++ suf, h.suffix p = false := by
    rcases hf with ⟨w, rfl, hw⟩ | ⟨p, w, rfl, hw, _⟩
    · exact ⟨w, by simp, hw⟩
    · exact ⟨w, by simp, hw⟩
  obtain ⟨c', lost, fam', suf', h1, -, -, -, h5, h6, h7, h8, h9, w1, w2, w3, h10, h11, h12, h13⟩ := C36_comma_partial h c s (fam ++ suf) b hne hb ht hn
  refine ⟨c', w1, w2, w3, _, _, h1, h10, h11, h12, h8, h9, ?_, h13⟩
  have hlen : ∀ (x x' : List QString) (a b : QString), x ++ [a] ++ suf = x' ++ [b] ++ suf' → h.suffix a = false → h.suffix b = false → x = x' ∧ a = b ∧ suf = suf' := by
    intro x x' a b e ha hb
    have e' := congrArg List.reverse e
    simp only [List.reverse_append, List.reverse_cons, List.reverse_nil, List.nil_append] at e'
    have key : ∀ (u v : List QString), (∀ p ∈ u, h.suffix p = true) → (∀ p ∈ v, h.suffix p = true) → ∀ x x' : List QString, u ++ (a :: x) = v ++ (b :: x') →
        u = v ∧ a = b ∧ x = x' := by
      intro u
      induction u with
      | nil =>
        intro v _ hv x x' e
        cases v with
        | nil => simpa using e
        | cons y v =>
          simp only [List.nil_append, List.cons_append, List.cons.injEq] at e
          have := hv y (by simp)
          rw [← e.1, ha] at this
          cases this
      | cons y u ih =>
        intro v hu hv x x' e
        cases v with
        | nil =>
          simp only [List.nil_append, List.cons_append, List.cons.injEq] at e
          have := hu y (by simp)
          rw [e.1, hb] at this
          cases this
        | cons z v =>
          simp only [List.cons_append, List.cons.injEq] at e
          obtain ⟨r1, r2, r3⟩ := ih v (fun p hp => hu p (by simp [hp])) (fun p hp => hv p (by simp [hp])) x x' e.2
          exact ⟨by rw [e.1, r1], r2, r3⟩
    obtain ⟨r1, r2, r3⟩ := key suf.reverse suf'.reverse (fun p hp => hsuf p (List.mem_reverse.1 hp)) (fun p hp => h6 p (List.mem_reverse.1 hp)) x.reverse x'.reverse
      (by simpa using e')
    exact ⟨List.reverse_injective r3, r2, List.reverse_injective r1⟩
  have hfin : fam = fam' ∧ suf = suf' := by
    rcases hf with ⟨w, rfl, hw⟩ | ⟨p, w, rfl, hw, hp⟩
    · rcases h7 with ⟨w', rfl, hw', _⟩ | ⟨p', w', rfl, hw', _⟩
      · obtain ⟨-, r2, r3⟩ := hlen [] lost w w' (by simpa using h5) hw hw'
        exact ⟨by rw [r2], r3⟩
      · obtain ⟨r1, -, -⟩ := hlen [] (lost ++ [p']) w w' (by simpa using h5) hw hw'
        simp at r1
    · rcases h7 with ⟨w', rfl, hw', hl⟩ | ⟨p', w', rfl, hw', _⟩
      · obtain ⟨r1, -, -⟩ := hlen [p] lost w w' (by simpa using h5) hw hw'
        have := hl p (by rw [← r1]; rfl)
        rw [hp] at this
        cases this
      · obtain ⟨r1, r2, r3⟩ := hlen [p] (lost ++ [p']) w w' (by simpa using h5) hw hw'
        have : lost = [] ∧ p = p' := by
          cases lost with
          | nil => simpa using r1
          | cons a l => simp at r1
        exact ⟨by rw [r2, this.2], r3⟩
  rw [← hfin.1, ← hfin.2, ← List.filter_append, ← words_blank_join _ fun p hp => (hb p hp).1]
  exact words_spec _ _

private theorem mem_joined {sep : QString} {ps : List QString} {p : QString} {x : UInt16} (hp : p ∈ ps) (hx : x ∈ p) : x ∈ join sep ps := by
  induction ps with
  | nil => cases hp
  | cons q ps ih =>
    cases ps with
    | nil => rw [List.mem_singleton.1 hp] at hx; exact hx
    | cons r ps =>
      show x ∈ q ++ sep ++ join sep (r :: ps)
      rcases List.mem_cons.1 hp with rfl | hp
      · simp [hx]
      · simp [ih hp]

/-- The behaviour is undefined exactly when there is a comma and everything before it, between spaces, is a suffix. -/
theorem C36_crash (h : NameHelper) (c : Contact) (s t : QString) (ht : Unquoted s t) :
    c.setNameFromString h s = none ↔
      ∃ ps b, ps ≠ [] ∧ (∀ p ∈ ps, qc! ' ' ∉ p ∧ qc! ',' ∉ p) ∧ t = join (q! " ") ps ++ qc! ',' :: b ∧ ∀ p ∈ ps, h.suffix p = true := by
  constructor
  · intro hn
    by_cases hc : qc! ',' ∈ t
    · obtain ⟨x, b, rfl, hx⟩ := List.eq_append_cons_of_mem hc
      have hj : join (q! " ") (splitOn (qc! ' ') x) = x := join_splitOn _ x
      have hb : ∀ p ∈ splitOn (qc! ' ') x, qc! ' ' ∉ p ∧ qc! ',' ∉ p := by
        intro p hp
        refine ⟨sep_not_mem_splitOn _ x p hp, fun hp' => hx ?_⟩
        rw [← hj]
        exact mem_joined hp hp'
      by_cases hall : ∀ p ∈ splitOn (qc! ' ') x, h.suffix p = true
      · exact ⟨_, b, splitOn_ne_nil _ _, hb, by rw [hj], hall⟩
      · have hn' : ∃ p ∈ splitOn (qc! ' ') x, h.suffix p = false := by simpa using hall
        obtain ⟨c', _, _, _, e, -⟩ := C36_comma_partial h c s _ b (splitOn_ne_nil _ _) hb (by rw [hj]; exact ht) hn'
        rw [e] at hn
        cases hn
    · rw [fromString_eq h c ht, indexOf?_none _ _ hc] at hn
      split at hn <;> cases hn
  · rintro ⟨ps, b, hps, hb, rfl, hsuf⟩
    rw [fromString_eq h c ht, comma_empty ps b, (comma_parts hps hb b).1]
    simp only [Bool.false_eq_true, if_false]
    unfold setNameComma
    rw [(comma_take _ _).1, (comma_parts hps hb b).2]
    obtain ⟨taken, e1, e2, e3, e4⟩ := suffixLoop_spec h ps.reverse (fun w hw => (hb w (List.mem_reverse.1 hw)).1) []
    generalize suffixLoop h ps.reverse [] = r at e1 e3 e4
    obtain ⟨suf, rest⟩ := r
    cases rest with
    | nil => rfl
    | cons w r =>
      have h1 : h.suffix w = false := e3 w (by simp)
      have h2 : h.suffix w = true := hsuf w (by rw [← List.mem_reverse, e1]; simp)
      rw [h1] at h2
      cases h2

/-! ### examples -/

private theorem plain_unquoted {s : QString} (h : s.head? ≠ some (qc! '"')) : Unquoted s s :=
  .inr ⟨by rintro x rfl; exact h rfl, rfl⟩

-- a name without a comma, and what it gives
example : ∃ c', Contact.setNameFromString plainHelper { uid := [] } (q! "\"Dr. Ann B.  von Lee Jr.\"") = some c' ∧
    c'.prefix_ = q! "Dr." ∧ c'.givenName = q! "Ann" ∧ c'.additionalName = q! "B. " ∧ c'.familyName = q! "von Lee" ∧ c'.suffix = q! "Jr." := by
  refine ⟨_, rfl, ?_⟩
  decide

example : Unquoted (q! "\"Dr. Ann B.  von Lee Jr.\"") (q! "Dr. Ann B.  von Lee Jr.") ∧ qc! ',' ∉ q! "Dr. Ann B.  von Lee Jr." := ⟨.inl rfl, by decide⟩

-- a name with a comma that loses nothing, and one that loses words
example : ∃ c' w1 w2 w3 w4 w5, Contact.setNameFromString plainHelper { uid := [] } (q! "van Lee Sr.,Prof. Ann B.") = some c' ∧
    Words isBlankChar c'.prefix_ w1 ∧ Words isBlankChar c'.givenName w2 ∧ Words isBlankChar c'.additionalName w3 ∧ Words isBlankChar c'.familyName w4 ∧
    Words isBlankChar c'.suffix w5 ∧ Words isBlankChar (q! "van Lee Sr.") (w4 ++ w5) ∧ Words isBlankChar (q! "Prof. Ann B.") (w1 ++ w2 ++ w3) :=
  C36_comma_words_partial plainHelper { uid := [] } _ [q! "van", q! "Lee"] [q! "Sr."] (q! "Prof. Ann B.") (.inr ⟨_, _, rfl, by decide, by decide⟩)
    (by decide) (by decide) (plain_unquoted (by decide))

/-! ### what is false -/

/-- C36 as stated is false of the code: "Jr., Ann" is undefined behaviour (a list is read at index -1). -/
theorem C36_false : ¬ ∀ (h : NameHelper) (c : Contact) (s : QString), ∃ c', c.setNameFromString h s = some c' := by
  intro h
  obtain ⟨c', e⟩ := h plainHelper { uid := [] } (q! "Jr., Ann")
  rw [(C36_crash plainHelper { uid := [] } _ _ (plain_unquoted (s := q! "Jr., Ann") (by decide))).2
    ⟨[q! "Jr."], q! " Ann", by simp, by decide, rfl, by decide⟩] at e
  cases e

/-- Where there is no undefined behaviour, words can be lost: of "van der Berg, Jan" the words "van" and "der" are in none of the parts, with the
    words known without configuration. -/
theorem C36_lost_false : ¬ ∀ (c : Contact) (s : QString) (c' : Contact), c.setNameFromString plainHelper s = some c' → ∀ ws, Words isBlankChar s ws →
    ∀ w ∈ ws, qc! ',' ∉ w → ∃ ws', PartWords c' ws' ∧ w ∈ ws' := by
  intro h
  obtain ⟨ws', ⟨w1, w2, w3, w4, w5, h1, h2, h3, h4, h5, rfl⟩, hw⟩ := h { uid := [] } (q! "van der Berg, Jan") _ rfl (words isBlankChar (q! "van der Berg, Jan"))
    (words_spec _ _) (q! "der") (by decide) (by decide)
  rw [← h1.eq, ← h2.eq, ← h3.eq, ← h4.eq, ← h5.eq] at hw
  exact absurd hw (by decide)

/-- With the setting that the last word is not the family name, the last word is lost as soon as there is another one. -/
theorem C36_given_false : ¬ ∀ (h : NameHelper) (c : Contact) (s : QString) (c' : Contact), c.setNameFromString h s = some c' → qc! ',' ∉ s →
    ∀ ws, Words isBlankChar s ws → ∀ w ∈ ws, ∃ ws', PartWords c' ws' ∧ w ∈ ws' := by
  intro h
  obtain ⟨ws', ⟨w1, w2, w3, w4, w5, h1, h2, h3, h4, h5, rfl⟩, hw⟩ := h { plainHelper with treatAsFamilyName := false } { uid := [] } (q! "Ann Lee") _ rfl (by decide)
    (words isBlankChar (q! "Ann Lee")) (words_spec _ _) (q! "Lee") (by decide)
  rw [← h1.eq, ← h2.eq, ← h3.eq, ← h4.eq, ← h5.eq] at hw
  exact absurd hw (by decide)

private theorem suffixLoop_rest (h : NameHelper) (a : List QString) (w : QString) (r : List QString) (ha : ∀ p ∈ a, h.suffix p = true)
    (hw : h.suffix w = false) (s : QString) : (suffixLoop h (a ++ w :: r) s).2 = w :: r := by
  induction a generalizing s with
  | nil => simp [suffixLoop, hw]
  | cons p a ih =>
    rw [List.cons_append, suffixLoop, if_pos (ha p (by simp))]
    exact ih (fun q hq => ha q (by simp [hq])) _

private theorem leftParts_given (h : NameHelper) (c : Contact) (ws : List QString) (hb : ∀ w ∈ ws, (32 : UInt16) ∉ w) :
    ((∀ p ∈ ws, h.title p = true) → (setLeftParts h c ws).givenName = c.givenName ∧
      words isBlankChar (setLeftParts h c ws).prefix_ = ws.filter (!·.isEmpty) ∧ (setLeftParts h c ws).additionalName = []) ∧
    ((∃ p ∈ ws, h.title p = false) → words isBlankChar (setLeftParts h c ws).prefix_ ++ words isBlankChar (setLeftParts h c ws).givenName ++
      words isBlankChar (setLeftParts h c ws).additionalName = ws.filter (!·.isEmpty)) := by
  obtain ⟨taken, h1, h2, h3, h4⟩ := titleLoop_spec h ws hb []
  unfold setLeftParts
  generalize titleLoop h ws [] = t at h1 h3 h4
  obtain ⟨pre, rest⟩ := t
  simp only at h1 h3 h4 ⊢
  cases rest with
  | nil =>
    rw [List.append_nil] at h1
    refine ⟨fun _ => ?_, fun ⟨p, hp, hp'⟩ => ?_⟩
    · simp only [setPrefix_eq, setAdditionalName_eq]
      exact ⟨trivial, by rw [h4, h1]; simp [words], trivial⟩
    · rw [h1] at hp
      rw [h2 p hp] at hp'; cases hp'
  | cons g r =>
    refine ⟨fun ha => ?_, fun _ => ?_⟩
    · have := ha g (by rw [h1]; simp)
      rw [h3 g (by simp)] at this; cases this
    · simp only [setPrefix_eq, setAdditionalName_eq, setGivenName_eq]
      rw [h4, additionalLoop_words r (fun v hv => hb v (by rw [h1]; simp [hv])), words_noBlank (hb g (by rw [h1]; simp)), h1]
      simp [words, List.filter_cons, List.filter_append]
      split <;> simp

/-- Without the setting that the last word is the family name, and without a comma. The pieces of the text are `left`, the last word
    `w` that is not a suffix, and the suffixes `suf`. If the word before `w` is a family name prefix, every word goes to exactly one part. Otherwise
    the family name is empty, and `w` is the given name if only titles stand before it; if another word stands before it, `w` is in
    none of the parts and all other words are. -/
theorem C36_given_partial (h : NameHelper) (hf : h.treatAsFamilyName = false) (c : Contact) (s : QString) (left suf : List QString) (w : QString)
    (hb : ∀ p ∈ left ++ [w] ++ suf, qc! ' ' ∉ p ∧ qc! ',' ∉ p) (hne : join (q! " ") (left ++ [w] ++ suf) ≠ [])
    (ht : Unquoted s (join (q! " ") (left ++ [w] ++ suf))) (hsuf : ∀ p ∈ suf, h.suffix p = true) (hw : h.suffix w = false) :
    ∃ c', c.setNameFromString h s = some c' ∧ SameButName c c' ∧
      ((∃ l p, left = l ++ [p] ∧ h.prefix_ (h.lower p) = true) → PartWords c' ((left ++ [w] ++ suf).filter (!·.isEmpty))) ∧
      ((∀ p ∈ left.getLast?, h.prefix_ (h.lower p) = false) → c'.familyName = [] ∧
        ((∀ p ∈ left, h.title p = true) → c'.givenName = w ∧ PartWords c' ((left ++ [w] ++ suf).filter (!·.isEmpty))) ∧
        ((∃ p ∈ left, h.title p = false) → PartWords c' ((left ++ suf).filter (!·.isEmpty)))) := by
  have hps : left ++ [w] ++ suf ≠ [] := by simp
  have hsplit : splitOn (qc! ' ') (join (q! " ") (left ++ [w] ++ suf)) = left ++ [w] ++ suf := splitOn_join hps fun p hp => (hb p hp).1
  have hc : qc! ',' ∉ join (q! " ") (left ++ [w] ++ suf) := by
    intro hm
    have h1 := (comma_parts hps hb []).1
    obtain ⟨x, y, e, hx⟩ := List.eq_append_cons_of_mem hm
    rw [e, List.append_assoc, List.cons_append, indexOf?_append _ _ _ hx] at h1
    simp at h1
  rw [fromString_eq h c ht, indexOf?_none _ _ hc]
  generalize hT : join (q! " ") (left ++ [w] ++ suf) = T at *
  have : T.isEmpty = false := by cases T with | nil => exact absurd rfl hne | cons => rfl
  simp only [this, Bool.false_eq_true, if_false]
  refine ⟨_, rfl, ?_⟩
  unfold setNameNoComma
  rw [hsplit]
  have hrev : (left ++ [w] ++ suf).reverse = suf.reverse ++ w :: left.reverse := by simp
  rw [hrev]
  have hb1 : ∀ v ∈ suf.reverse ++ w :: left.reverse, (32 : UInt16) ∉ v := by
    intro v hv; rw [← hrev] at hv; exact (hb v (List.mem_reverse.1 hv)).1
  obtain ⟨taken, e1, -, -, e4⟩ := suffixLoop_spec h _ hb1 []
  have e2 := suffixLoop_rest h suf.reverse w left.reverse (fun p hp => hsuf p (List.mem_reverse.1 hp)) hw []
  rw [e2] at e1
  have et : taken = suf.reverse := (List.append_cancel_right e1).symm
  subst et
  rw [List.reverse_reverse] at e4
  generalize suffixLoop h (suf.reverse ++ w :: left.reverse) [] = r at e2 e4
  obtain ⟨S, rest⟩ := r
  simp only at e2 e4 ⊢
  subst e2
  have hS : words isBlankChar S = suf.filter (!·.isEmpty) := by rw [e4]; simp [words]
  have hbw : (32 : UInt16) ∉ w := (hb w (by simp)).1
  simp only [hf, Bool.or_false]
  by_cases hp : ∃ l p, left = l ++ [p] ∧ h.prefix_ (h.lower p) = true
  · obtain ⟨l, p, rfl, hp'⟩ := hp
    have ef : familyPart h w (l ++ [p]).reverse = (p ++ [qc! ' '] ++ w, l.reverse, true) := by simp [familyPart, hp']
    simp only [ef, if_true, List.reverse_reverse]
    have hl : ∀ v ∈ l, (32 : UInt16) ∉ v := fun v hv => (hb v (by simp [hv])).1
    obtain ⟨l1, l2, l3, l4⟩ := leftParts_spec h (((cleared c T).setSuffix S).setFamilyName (p ++ [qc! ' '] ++ w)) l hl
    refine ⟨(parts_frame (.trans (by simp only [setFamilyName_eq, setSuffix_eq]; rfl) l1)).2.2, fun _ => ?_, fun hn => ?_⟩
    · refine ⟨_, _, _, _, _, words_spec _ _, words_spec _ _, words_spec _ _, words_spec _ _, words_spec _ _, ?_⟩
      rw [l2, l3, l4 (by simp [setFamilyName_eq, setSuffix_eq, cleared])]
      simp only [setFamilyName_eq, setSuffix_eq]
      rw [hS, List.append_assoc p, List.singleton_append, words_append_space isBlankChar _ _ (by decide), words_noBlank hbw,
        words_noBlank (hb p (by simp)).1]
      simp only [List.filter_append, List.append_assoc]
    · rw [hn p (by simp)] at hp'; cases hp'
  · have hn : ∀ p ∈ left.getLast?, h.prefix_ (h.lower p) = false := by
      intro p hpl
      cases hv : h.prefix_ (h.lower p) with
      | false => rfl
      | true =>
        obtain ⟨l, e⟩ := List.getLast?_eq_some_iff.1 hpl
        exact absurd ⟨l, p, e, hv⟩ hp
    have ef : familyPart h w left.reverse = (w, left.reverse, false) := by
      cases hr : left.reverse with
      | nil => rfl
      | cons p r =>
        have : left.getLast? = some p := by rw [← List.head?_reverse, hr]; rfl
        simp [familyPart, hn p this]
    simp only [ef, Bool.false_eq_true, if_false, List.reverse_reverse]
    have hl : ∀ v ∈ left, (32 : UInt16) ∉ v := fun v hv => (hb v (by simp [hv])).1
    obtain ⟨l1, l2, l3, -⟩ := leftParts_spec h (((cleared c T).setSuffix S).setGivenName w) left hl
    obtain ⟨g1, g2⟩ := leftParts_given h (((cleared c T).setSuffix S).setGivenName w) left hl
    have hfam : (setLeftParts h (((cleared c T).setSuffix S).setGivenName w) left).familyName = [] := by
      rw [l2]; simp [setGivenName_eq, setSuffix_eq, cleared]
    have hsx : (setLeftParts h (((cleared c T).setSuffix S).setGivenName w) left).suffix = S := by
      rw [l3]; simp [setGivenName_eq, setSuffix_eq]
    refine ⟨(parts_frame (.trans (by simp only [setGivenName_eq, setSuffix_eq]; rfl) l1)).2.2, fun hh => absurd hh hp, fun _ => ⟨hfam, ?_, ?_⟩⟩
    · intro ha
      obtain ⟨a1, a2, a3⟩ := g1 ha
      have a1' : (setLeftParts h (((cleared c T).setSuffix S).setGivenName w) left).givenName = w := by rw [a1]; simp [setGivenName_eq]
      refine ⟨a1', _, _, _, _, _, words_spec _ _, words_spec _ _, words_spec _ _, words_spec _ _, words_spec _ _, ?_⟩
      rw [a2, a1', a3, hfam, hsx, hS, words_noBlank hbw]
      simp only [List.filter_append, List.append_assoc, show words isBlankChar ([] : QString) = [] from rfl, List.nil_append]
    · intro ha
      refine ⟨_, _, _, _, _, words_spec _ _, words_spec _ _, words_spec _ _, words_spec _ _, words_spec _ _, ?_⟩
      rw [g2 ha, hfam, hsx, hS]
      simp [List.filter_append, words]

/-- Non-vacuity: "Dr. Ann Lee Jr." has the pieces of the last case. -/
example : let h := { plainHelper with treatAsFamilyName := false }
    Unquoted (q! "Dr. Ann Lee Jr.") (join (q! " ") ([q! "Dr.", q! "Ann"] ++ [q! "Lee"] ++ [q! "Jr."])) ∧ (∀ p ∈ [q! "Jr."], h.suffix p = true) ∧
    h.suffix (q! "Lee") = false ∧ (∀ p ∈ [q! "Dr.", q! "Ann"].getLast?, h.prefix_ (h.lower p) = false) ∧
    (∃ p ∈ [q! "Dr.", q! "Ann"], h.title p = false) ∧ (∀ p ∈ [q! "Dr.", q! "Ann"] ++ [q! "Lee"] ++ [q! "Jr."], qc! ' ' ∉ p ∧ qc! ',' ∉ p) := by
  refine ⟨plain_unquoted (s := q! "Dr. Ann Lee Jr.") (by decide), by decide, by decide, by decide, ⟨q! "Ann", by simp, by decide⟩, by decide⟩

end KC
