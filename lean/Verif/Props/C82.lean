import Verif.Model.NameWords
import Verif.Props.C36
/-
  C82: how a full name is divided: titles, given name, additional names, family name and suffixes, by known and configured words.
-/
namespace KC
open KC.Spec

/-! ### which words are known -/

private theorem mem_addToSet (l : List QString) : ∀ (set : List QString) (w : QString), w ∈ addToSet l set ↔ w ∈ set ∨ (w ≠ [] ∧ w ∈ l) := by
  unfold addToSet
  induction l with
  | nil => intro set w; simp
  | cons x l ih =>
    intro set w
    rw [List.foldl_cons, ih]
    cases x with
    | nil =>
      simp only [List.isEmpty_nil, Bool.not_true, Bool.false_eq_true, if_false, List.mem_cons]
      constructor
      · rintro (h | ⟨h1, h2⟩)
        · exact .inl h
        · exact .inr ⟨h1, .inr h2⟩
      · rintro (h | ⟨h1, h2 | h2⟩)
        · exact .inl h
        · exact absurd h2 h1
        · exact .inr ⟨h1, h2⟩
    | cons y x =>
      simp only [List.isEmpty_cons, Bool.not_false, if_true]
      split
      · rename_i hm
        simp only [List.mem_cons]
        constructor
        · rintro (h | ⟨h1, h2⟩)
          · exact .inl h
          · exact .inr ⟨h1, .inr h2⟩
        · rintro (h | ⟨h1, h2 | h2⟩)
          · exact .inl h
          · exact .inl (h2 ▸ hm)
          · exact .inr ⟨h1, h2⟩
      · simp only [List.mem_cons]
        constructor
        · rintro ((h | h) | ⟨h1, h2⟩)
          · exact .inr ⟨by rw [h]; exact List.cons_ne_nil _ _, .inl h⟩
          · exact .inl h
          · exact .inr ⟨h1, .inr h2⟩
        · rintro (h | ⟨h1, h2 | h2⟩)
          · exact .inl (.inr h)
          · exact .inl (.inl h2)
          · exact .inr ⟨h1, h2⟩

/-- A word is a title, a suffix or a family name prefix exactly if it is one of the words known without configuration (titles and suffixes: translated)
    or a configured word that is not empty; configured words never take a known word away. The last word is the family name unless configured otherwise. -/
theorem C82_words (tr lower : QString → QString) (cfg : NameConfig) (w : QString) :
    ((helperOf tr lower cfg).title w = true ↔ w ∈ [q! "Dr.", q! "Miss", q! "Mr.", q! "Mrs.", q! "Ms.", q! "Prof."].map tr ∨ (w ≠ [] ∧ w ∈ cfg.prefixes)) ∧
    ((helperOf tr lower cfg).suffix w = true ↔ w ∈ [q! "I", q! "II", q! "III", q! "Jr.", q! "Sr."].map tr ∨ (w ≠ [] ∧ w ∈ cfg.suffixes)) ∧
    ((helperOf tr lower cfg).prefix_ w = true ↔ w ∈ [q! "van", q! "von", q! "de"] ∨ (w ≠ [] ∧ w ∈ cfg.inclusions)) ∧
    ((helperOf tr lower cfg).treatAsFamilyName = false ↔ cfg.treatAsFamilyName = some false) := by
  refine ⟨?_, ?_, ?_, ?_⟩
  · simp only [helperOf, decide_eq_true_eq, titleSet, mem_addToSet, List.map_cons, List.map_nil]
  · simp only [helperOf, decide_eq_true_eq, suffixSet, mem_addToSet, List.map_cons, List.map_nil]
  · simp only [helperOf, decide_eq_true_eq, prefixSet, mem_addToSet]
  · simp only [helperOf]
    cases cfg.treatAsFamilyName with
    | none => simp
    | some b => cases b <;> simp

/-! ### how a name is divided -/

private theorem join_snoc2 (L : List QString) (x s : QString) : join (q! " ") (L ++ [x ++ ([qc! ' '] ++ s)]) = join (q! " ") (L ++ [x, s]) := by
  induction L with
  | nil => simp [join]
  | cons a L ih =>
    cases L with
    | nil => simp [join]
    | cons b L =>
      simp only [List.cons_append, join] at ih ⊢
      rw [ih]

/-- The text so far, as a list: nothing if it is empty. -/
private def sofar (s : QString) : List QString := if s.isEmpty then [] else [s]

private theorem sofar_ne {s : QString} (h : s ≠ []) : sofar s = [s] := by
  unfold sofar
  rw [if_neg (by simpa using h)]

private theorem suffixLoop_words (h : NameHelper) (a : List QString) (ha : ∀ w ∈ a, w ≠ [] ∧ h.suffix w = true) (r : List QString)
    (hr : ∀ w ∈ r.head?, h.suffix w = false) (s : QString) :
    suffixLoop h (a ++ r) s = (join (q! " ") (a.reverse ++ sofar s), r) := by
  induction a generalizing s with
  | nil =>
    have e : join (q! " ") (sofar s) = s := by
      unfold sofar
      split
      · rename_i hs
        rw [List.isEmpty_iff.1 hs]
        rfl
      · rfl
    rw [List.nil_append, List.reverse_nil, List.nil_append, e]
    cases r with
    | nil => rfl
    | cons w r =>
      rw [suffixLoop, hr w (by simp)]
      simp
  | cons x a ih =>
    have hx := ha x List.mem_cons_self
    rw [List.cons_append, suffixLoop, hx.2]
    simp only [if_true]
    rw [ih (fun w hw => ha w (List.mem_cons_of_mem _ hw)), List.reverse_cons, List.append_assoc]
    congr 1
    cases s with
    | nil =>
      simp only [List.isEmpty_nil, if_true, List.append_nil]
      rw [sofar_ne hx.1]
      simp [sofar]
    | cons y s =>
      simp only [List.isEmpty_cons, Bool.false_eq_true, if_false]
      rw [sofar_ne (by simp), sofar_ne (by simp), join_snoc2]
      simp

private theorem join_cons2 (L : List QString) (x s : QString) : join (q! " ") ((s ++ ([qc! ' '] ++ x)) :: L) = join (q! " ") (s :: x :: L) := by
  cases L with
  | nil => simp [join]
  | cons a L => simp [join]

private theorem titleLoop_words (h : NameHelper) (a : List QString) (ha : ∀ w ∈ a, w ≠ [] ∧ h.title w = true) (r : List QString)
    (hr : ∀ w ∈ r.head?, h.title w = false) (s : QString) :
    titleLoop h (a ++ r) s = (join (q! " ") (sofar s ++ a), r) := by
  induction a generalizing s with
  | nil =>
    have e : join (q! " ") (sofar s ++ []) = s := by
      unfold sofar
      split
      · rename_i hs
        rw [List.isEmpty_iff.1 hs]
        rfl
      · rfl
    rw [List.nil_append, e]
    cases r with
    | nil => rfl
    | cons w r =>
      rw [titleLoop, hr w (by simp)]
      simp
  | cons x a ih =>
    have hx := ha x List.mem_cons_self
    rw [List.cons_append, titleLoop, hx.2]
    simp only [if_true]
    rw [ih (fun w hw => ha w (List.mem_cons_of_mem _ hw))]
    congr 1
    cases s with
    | nil =>
      simp only [List.isEmpty_nil, if_true, List.nil_append]
      rw [sofar_ne hx.1]
      simp [sofar]
    | cons y s =>
      simp only [List.isEmpty_cons, Bool.false_eq_true, if_false]
      rw [sofar_ne (by simp), sofar_ne (by simp), List.singleton_append, join_cons2]
      simp

private theorem additionalLoop_join (a : List QString) (ha : ∀ w ∈ a, w ≠ []) (s : QString) : additionalLoop a s = join (q! " ") (sofar s ++ a) := by
  induction a generalizing s with
  | nil =>
    unfold sofar additionalLoop
    split
    · rename_i hs
      rw [List.isEmpty_iff.1 hs]
      rfl
    · rfl
  | cons x a ih =>
    have hx := ha x List.mem_cons_self
    rw [additionalLoop, ih fun w hw => ha w (List.mem_cons_of_mem _ hw)]
    cases s with
    | nil =>
      simp only [List.isEmpty_nil, if_true, List.nil_append]
      rw [sofar_ne hx]
      simp [sofar]
    | cons y s =>
      simp only [List.isEmpty_cons, Bool.false_eq_true, if_false]
      rw [sofar_ne (by simp), sofar_ne (by simp), List.singleton_append, join_cons2]
      simp

/-- The family name at the end of words: the last word, with the word before it if that is a family name prefix. -/
def FamilyWords (h : NameHelper) (before fam : List QString) : Prop :=
  ∃ w, h.suffix w = false ∧
    ((fam = [w] ∧ ∀ p ∈ before.getLast?, h.prefix_ (h.lower p) = false) ∨ ∃ p, fam = [p, w] ∧ h.prefix_ (h.lower p) = true)

private theorem leftParts_exact (h : NameHelper) (c : Contact) (ts rest : List QString) (ht : ∀ w ∈ ts, w ≠ [] ∧ h.title w = true)
    (hr : ∀ w ∈ rest.head?, h.title w = false) (hn : ∀ w ∈ rest, w ≠ []) (hg : c.givenName = []) :
    (setLeftParts h c (ts ++ rest)).prefix_ = join (q! " ") ts ∧ (setLeftParts h c (ts ++ rest)).givenName = rest.headD [] ∧
    (setLeftParts h c (ts ++ rest)).additionalName = join (q! " ") rest.tail ∧ (setLeftParts h c (ts ++ rest)).familyName = c.familyName ∧
    (setLeftParts h c (ts ++ rest)).suffix = c.suffix := by
  unfold setLeftParts
  rw [titleLoop_words h ts ht rest hr]
  cases rest with
  | nil =>
    simp only [setAdditionalName_eq, setPrefix_eq, List.headD_nil, List.tail_nil, sofar, List.isEmpty_nil, if_true, List.nil_append]
    simp [hg, join]
  | cons g r =>
    simp only [setAdditionalName_eq, setPrefix_eq, setGivenName_eq, List.headD_cons, List.tail_cons, sofar, List.isEmpty_nil, if_true, List.nil_append]
    simp only [additionalLoop_join _ fun w hw => hn w (List.mem_cons_of_mem _ hw)]
    simp [sofar]

private theorem words_no {c : UInt16} (hc : c ≠ 32) {ws : List QString} (h : ∀ w ∈ ws, c ∉ w) : c ∉ join (q! " ") ws := by
  induction ws with
  | nil => exact List.not_mem_nil
  | cons x t ih =>
    cases t with
    | nil => exact h x List.mem_cons_self
    | cons y t =>
      rw [join]
      simp only [List.mem_append, not_or]
      exact ⟨⟨h x List.mem_cons_self, by simpa using hc⟩, ih fun w hw => h w (List.mem_cons_of_mem _ hw)⟩

/-- A name without a comma whose words are titles, other words, a family name and suffixes is divided just so: the titles are the prefix, the first
    of the other words is the given name, the rest of them the additional names. Every word keeps its text. -/
theorem C82_split (h : NameHelper) (hf : h.treatAsFamilyName = true) (c : Contact) (s : QString) (ts rest fam suf : List QString)
    (hw : ∀ w ∈ ts ++ rest ++ fam ++ suf, w ≠ [] ∧ qc! ' ' ∉ w ∧ qc! ',' ∉ w) (hs : Unquoted s (join (q! " ") (ts ++ rest ++ fam ++ suf)))
    (ht : ∀ w ∈ ts, h.title w = true) (hr : ∀ w ∈ rest.head?, h.title w = false) (hsuf : ∀ w ∈ suf, h.suffix w = true)
    (hfam : FamilyWords h (ts ++ rest) fam) :
    ∃ c', c.setNameFromString h s = some c' ∧ c'.prefix_ = join (q! " ") ts ∧ c'.givenName = rest.headD [] ∧
      c'.additionalName = join (q! " ") rest.tail ∧ c'.familyName = join (q! " ") fam ∧ c'.suffix = join (q! " ") suf := by
  have hcomma : qc! ',' ∉ join (q! " ") (ts ++ rest ++ fam ++ suf) := words_no (by decide) fun w hm => (hw w hm).2.2
  have hne : ts ++ rest ++ fam ++ suf ≠ [] := by
    obtain ⟨w, _, ⟨e, _⟩ | ⟨p, e, _⟩⟩ := hfam <;> simp [e]
  have hsplit : splitOn (qc! ' ') (join (q! " ") (ts ++ rest ++ fam ++ suf)) = ts ++ rest ++ fam ++ suf := splitOn_join hne fun w hm => (hw w hm).2.1
  have hmt : ∀ w ∈ ts, w ≠ [] := fun w hm => (hw w (by simp [hm])).1
  have hmr : ∀ w ∈ rest, w ≠ [] := fun w hm => (hw w (by simp [hm])).1
  have hms : ∀ w ∈ suf, w ≠ [] := fun w hm => (hw w (by simp [hm])).1
  have hjne : (join (q! " ") (ts ++ rest ++ fam ++ suf)).isEmpty = false := by
    cases he : (join (q! " ") (ts ++ rest ++ fam ++ suf)).isEmpty with
    | false => rfl
    | true =>
      rw [List.isEmpty_iff.1 he] at hsplit
      obtain ⟨w, hm⟩ := List.exists_mem_of_ne_nil _ hne
      have := hw w hm
      rw [← hsplit] at hm
      simp only [splitOn, List.mem_singleton] at hm
      exact absurd hm this.1
  unfold Contact.setNameFromString
  rw [unquoteName_of hs]
  simp only [hjne, Bool.false_eq_true, if_false, indexOf?_none _ _ hcomma]
  refine ⟨_, rfl, ?_⟩
  generalize hc0 : ((((((c.setFormattedName _).setName _).setPrefix []).setGivenName []).setAdditionalName []).setFamilyName []).setSuffix [] = c0
  have hg0 : c0.givenName = [] := by
    rw [← hc0]
    simp only [setFormattedName_eq, setName_eq, setPrefix_eq, setGivenName_eq, setAdditionalName_eq, setFamilyName_eq, setSuffix_eq]
  unfold setNameNoComma
  rw [hsplit]
  obtain ⟨w, hws, hcase⟩ := hfam
  have hrev : (ts ++ rest ++ fam ++ suf).reverse = suf.reverse ++ (fam.reverse ++ (ts ++ rest).reverse) := by simp only [List.reverse_append, List.append_assoc]
  have hloop : suffixLoop h (ts ++ rest ++ fam ++ suf).reverse [] = (join (q! " ") suf, fam.reverse ++ (ts ++ rest).reverse) := by
    rw [hrev, suffixLoop_words h suf.reverse (fun x hx => ⟨hms x (by simpa using hx), hsuf x (by simpa using hx)⟩) _ (by
      intro x hx
      rcases hcase with ⟨e, _⟩ | ⟨p, e, _⟩ <;> rw [e] at hx <;> simp at hx <;> rw [← hx] <;> exact hws)]
    simp [sofar]
  rw [hloop]
  rcases hcase with ⟨e, hp⟩ | ⟨p, e, hp⟩
  · subst e
    have hfp : familyPart h w (ts ++ rest).reverse = (w, (ts ++ rest).reverse, false) := by
      unfold familyPart
      cases hc : (ts ++ rest).reverse with
      | nil => rfl
      | cons p r' =>
        have : h.prefix_ (h.lower p) = false := hp p (by rw [← List.head?_reverse, hc]; rfl)
        simp only [this, Bool.false_eq_true, if_false]
    simp only [List.reverse_singleton, List.singleton_append, hfp, hf, Bool.false_or, if_true, List.reverse_reverse]
    have := leftParts_exact h ((c0.setSuffix (join (q! " ") suf)).setFamilyName w) ts rest (fun x hx => ⟨hmt x hx, ht x hx⟩) hr hmr (by
      simp only [setFamilyName_eq, setSuffix_eq, hg0])
    refine ⟨this.1, this.2.1, this.2.2.1, ?_, ?_⟩
    · rw [this.2.2.2.1]
      simp only [setFamilyName_eq]
      rfl
    · rw [this.2.2.2.2]
      simp only [setFamilyName_eq, setSuffix_eq]
  · subst e
    have hfp : familyPart h w (p :: (ts ++ rest).reverse) = (p ++ [qc! ' '] ++ w, (ts ++ rest).reverse, true) := by
      unfold familyPart
      simp only [hp, if_true]
    simp only [List.reverse_cons, List.reverse_nil, List.nil_append, List.cons_append, hfp, Bool.true_or, if_true, List.reverse_reverse]
    have := leftParts_exact h ((c0.setSuffix (join (q! " ") suf)).setFamilyName (p ++ [qc! ' '] ++ w)) ts rest (fun x hx => ⟨hmt x hx, ht x hx⟩) hr hmr (by
      simp only [setFamilyName_eq, setSuffix_eq, hg0])
    refine ⟨this.1, this.2.1, this.2.2.1, ?_, ?_⟩
    · rw [this.2.2.2.1]
      simp only [setFamilyName_eq]
      rfl
    · rw [this.2.2.2.2]
      simp only [setFamilyName_eq, setSuffix_eq]

/-- Every name of words separated by single blanks, without a comma and with a word that is not a suffix, can be divided that way. -/
theorem C82_divided (h : NameHelper) (ws : List QString) (hx : ∃ w ∈ ws, h.suffix w = false) :
    ∃ ts rest fam suf, ws = ts ++ rest ++ fam ++ suf ∧ (∀ w ∈ ts, h.title w = true) ∧ (∀ w ∈ rest.head?, h.title w = false) ∧
      (∀ w ∈ suf, h.suffix w = true) ∧ FamilyWords h (ts ++ rest) fam := by
  have hspl : ∀ l : List QString, (∃ w ∈ l, h.suffix w = false) → ∃ a w suf, l = a ++ w :: suf ∧ h.suffix w = false ∧ ∀ x ∈ suf, h.suffix x = true := by
    intro l
    induction l with
    | nil => rintro ⟨w, hw, _⟩; exact absurd hw List.not_mem_nil
    | cons x l ih =>
      intro hx
      by_cases hl : ∃ w ∈ l, h.suffix w = false
      · obtain ⟨a, w, suf, e, h1, h2⟩ := ih hl
        exact ⟨x :: a, w, suf, by rw [e]; rfl, h1, h2⟩
      · refine ⟨[], x, l, rfl, ?_, fun y hy => ?_⟩
        · obtain ⟨w, hw, hs⟩ := hx
          rcases List.mem_cons.1 hw with rfl | hw
          · exact hs
          · exact absurd ⟨w, hw, hs⟩ hl
        · cases hc : h.suffix y with
          | true => rfl
          | false => exact absurd ⟨y, hy, hc⟩ hl
  obtain ⟨a, w, suf, rfl, hw, hsuf⟩ := hspl ws hx
  have htit : ∀ l : List QString, ∃ ts rest, l = ts ++ rest ∧ (∀ w ∈ ts, h.title w = true) ∧ ∀ w ∈ rest.head?, h.title w = false := by
    intro l
    induction l with
    | nil => exact ⟨[], [], rfl, by simp, by simp⟩
    | cons x l ih =>
      cases hc : h.title x with
      | true =>
        obtain ⟨ts, rest, e, h1, h2⟩ := ih
        exact ⟨x :: ts, rest, by rw [e]; rfl, fun y hy => (List.mem_cons.1 hy).elim (fun e => e ▸ hc) (h1 y), h2⟩
      | false => exact ⟨[], x :: l, rfl, by simp, by simp [hc]⟩
  rcases List.eq_nil_or_concat a with rfl | ⟨b, p, rfl⟩
  · exact ⟨[], [], [w], suf, rfl, by simp, by simp, hsuf, w, hw, .inl ⟨rfl, by simp⟩⟩
  · cases hp : h.prefix_ (h.lower p) with
    | true =>
      obtain ⟨ts, rest, e, h1, h2⟩ := htit b
      exact ⟨ts, rest, [p, w], suf, by simp [e], h1, h2, hsuf, w, hw, .inr ⟨p, rfl, hp⟩⟩
    | false =>
      obtain ⟨ts, rest, e, h1, h2⟩ := htit (b ++ [p])
      refine ⟨ts, rest, [w], suf, by simp [← e], h1, h2, hsuf, w, hw, .inl ⟨rfl, ?_⟩⟩
      rw [← e]
      intro q hq
      simp at hq
      rw [← hq]
      exact hp

/-- The name of Prof. Dr. Ada Maria van Berg Jr. -/
example : ∃ c', (Contact.new (q! "u")).setNameFromString (helperOf id toLowerQ {}) (q! "Prof. Dr. Ada Maria Van Berg Jr.") = some c' ∧
    c'.prefix_ = q! "Prof. Dr." ∧ c'.givenName = q! "Ada" ∧ c'.additionalName = q! "Maria" ∧ c'.familyName = q! "Van Berg" ∧ c'.suffix = q! "Jr." :=
  C82_split (helperOf id toLowerQ {}) rfl _ _ [q! "Prof.", q! "Dr."] [q! "Ada", q! "Maria"] [q! "Van", q! "Berg"] [q! "Jr."] (by decide) (.inr ⟨by
      intro x e
      exact absurd (congrArg List.head? e) (by simp), rfl⟩)
    (by decide) (by decide) (by decide) ⟨q! "Berg", by decide, .inr ⟨q! "Van", rfl, by decide⟩⟩

private theorem comma_split (h : NameHelper) (c : Contact) (s : QString) (lost fam suf : List QString)
    (hw : ∀ w ∈ lost ++ fam ++ suf, w ≠ [] ∧ qc! ' ' ∉ w ∧ qc! ',' ∉ w) (b : QString)
    (hs : Unquoted s (join (q! " ") (lost ++ fam ++ suf) ++ qc! ',' :: b)) (hsuf : ∀ w ∈ suf, h.suffix w = true)
    (hfam : FamilyWords h lost fam) :
    ∃ c0, c.setNameFromString h s = some (setLeftParts h c0 (splitOn (qc! ' ') b)) ∧ c0.givenName = [] ∧ c0.familyName = join (q! " ") fam ∧
      c0.suffix = join (q! " ") suf := by
  have hcomma : qc! ',' ∉ join (q! " ") (lost ++ fam ++ suf) := words_no (by decide) fun w hm => (hw w hm).2.2
  have hne : lost ++ fam ++ suf ≠ [] := by
    obtain ⟨w, _, ⟨e, _⟩ | ⟨p, e, _⟩⟩ := hfam <;> simp [e]
  have hsplit : splitOn (qc! ' ') (join (q! " ") (lost ++ fam ++ suf)) = lost ++ fam ++ suf := splitOn_join hne fun w hm => (hw w hm).2.1
  have hms : ∀ w ∈ suf, w ≠ [] := fun w hm => (hw w (by simp [hm])).1
  unfold Contact.setNameFromString
  rw [unquoteName_of hs]
  have hjne : (join (q! " ") (lost ++ fam ++ suf) ++ qc! ',' :: b).isEmpty = false := by simp
  simp only [hjne, Bool.false_eq_true, if_false, indexOf?_append _ _ _ hcomma]
  generalize hc0 : ((((((c.setFormattedName _).setName _).setPrefix []).setGivenName []).setAdditionalName []).setFamilyName []).setSuffix [] = c0
  have hg0 : c0.givenName = [] := by
    rw [← hc0]
    simp only [setFormattedName_eq, setName_eq, setPrefix_eq, setGivenName_eq, setAdditionalName_eq, setFamilyName_eq, setSuffix_eq]
  have htake : ∀ x : QString, (x ++ qc! ',' :: b).take x.length = x ∧ (x ++ qc! ',' :: b).drop (x.length + 1) = b := fun x => by simp
  unfold setNameComma
  rw [(htake _).1, (htake _).2, hsplit]
  obtain ⟨w, hws, hcase⟩ := hfam
  have hrev : (lost ++ fam ++ suf).reverse = suf.reverse ++ (fam.reverse ++ lost.reverse) := by simp only [List.reverse_append, List.append_assoc]
  have hloop : suffixLoop h (lost ++ fam ++ suf).reverse [] = (join (q! " ") suf, fam.reverse ++ lost.reverse) := by
    rw [hrev, suffixLoop_words h suf.reverse (fun x hx => ⟨hms x (by simpa using hx), hsuf x (by simpa using hx)⟩) _ (by
      intro x hx
      rcases hcase with ⟨e, _⟩ | ⟨p, e, _⟩ <;> rw [e] at hx <;> simp at hx <;> rw [← hx] <;> exact hws)]
    simp [sofar]
  rw [hloop]
  rcases hcase with ⟨e, hp⟩ | ⟨p, e, hp⟩
  · subst e
    have hfp : familyPart h w lost.reverse = (w, lost.reverse, false) := by
      unfold familyPart
      cases hc : lost.reverse with
      | nil => rfl
      | cons p r' =>
        have : h.prefix_ (h.lower p) = false := hp p (by rw [← List.head?_reverse, hc]; rfl)
        simp only [this, Bool.false_eq_true, if_false]
    simp only [List.reverse_singleton, List.singleton_append, hfp]
    refine ⟨_, rfl, ?_, ?_, ?_⟩
    · simp only [setFamilyName_eq, setSuffix_eq, hg0]
    · simp only [setFamilyName_eq]
      rfl
    · simp only [setFamilyName_eq, setSuffix_eq]
  · subst e
    have hfp : familyPart h w (p :: lost.reverse) = (p ++ [qc! ' '] ++ w, lost.reverse, true) := by
      unfold familyPart
      simp only [hp, if_true]
    simp only [List.reverse_cons, List.reverse_nil, List.nil_append, List.cons_append, hfp]
    refine ⟨_, rfl, ?_, ?_, ?_⟩
    · simp only [setFamilyName_eq, setSuffix_eq, hg0]
    · simp only [setFamilyName_eq]
      rfl
    · simp only [setFamilyName_eq, setSuffix_eq]

/-- A name with a comma: the words before it are a family name and suffixes (words `lost` before the family name are lost), and the words right after
    the comma are titles, the given name and the additional names. -/
theorem C82_comma (h : NameHelper) (c : Contact) (s : QString) (lost fam suf ts rest : List QString)
    (hw : ∀ w ∈ lost ++ fam ++ suf, w ≠ [] ∧ qc! ' ' ∉ w ∧ qc! ',' ∉ w) (hw2 : ∀ w ∈ ts ++ rest, w ≠ [] ∧ qc! ' ' ∉ w) (hne2 : ts ++ rest ≠ [])
    (hs : Unquoted s (join (q! " ") (lost ++ fam ++ suf) ++ qc! ',' :: join (q! " ") (ts ++ rest)))
    (ht : ∀ w ∈ ts, h.title w = true) (hr : ∀ w ∈ rest.head?, h.title w = false) (hsuf : ∀ w ∈ suf, h.suffix w = true)
    (hfam : FamilyWords h lost fam) :
    ∃ c', c.setNameFromString h s = some c' ∧ c'.prefix_ = join (q! " ") ts ∧ c'.givenName = rest.headD [] ∧
      c'.additionalName = join (q! " ") rest.tail ∧ c'.familyName = join (q! " ") fam ∧ c'.suffix = join (q! " ") suf := by
  obtain ⟨c', h1, h2⟩ := comma_split h c s lost fam suf hw _ hs hsuf hfam
  refine ⟨_, h1, ?_⟩
  rw [splitOn_join hne2 fun w hm => (hw2 w hm).2]
  have := leftParts_exact h c' ts rest (fun x hx => ⟨(hw2 x (by simp [hx])).1, ht x hx⟩) hr (fun x hx => (hw2 x (by simp [hx])).1) h2.1
  exact ⟨this.1, this.2.1, this.2.2.1, by rw [this.2.2.2.1, h2.2.1], by rw [this.2.2.2.2, h2.2.2]⟩

/-- The usual form, with a blank after the comma: the given name is lost and stands at the front of the additional names, and so do the titles. -/
theorem C82_comma_blank (h : NameHelper) (he : h.title [] = false) (c : Contact) (s : QString) (lost fam suf rest : List QString)
    (hw : ∀ w ∈ lost ++ fam ++ suf, w ≠ [] ∧ qc! ' ' ∉ w ∧ qc! ',' ∉ w) (hw2 : ∀ w ∈ rest, w ≠ [] ∧ qc! ' ' ∉ w) (hne2 : rest ≠ [])
    (hs : Unquoted s (join (q! " ") (lost ++ fam ++ suf) ++ q! ", " ++ join (q! " ") rest)) (hsuf : ∀ w ∈ suf, h.suffix w = true)
    (hfam : FamilyWords h lost fam) :
    ∃ c', c.setNameFromString h s = some c' ∧ c'.prefix_ = [] ∧ c'.givenName = [] ∧
      c'.additionalName = join (q! " ") rest ∧ c'.familyName = join (q! " ") fam ∧ c'.suffix = join (q! " ") suf := by
  have hs' : Unquoted s (join (q! " ") (lost ++ fam ++ suf) ++ qc! ',' :: (qc! ' ' :: join (q! " ") rest)) := by
    simpa [List.append_assoc] using hs
  obtain ⟨c', h1, h2⟩ := comma_split h c s lost fam suf hw _ hs' hsuf hfam
  refine ⟨_, h1, ?_⟩
  have e : splitOn (qc! ' ') (qc! ' ' :: join (q! " ") rest) = [] :: rest := by
    rw [← splitOn_join hne2 fun w hm => (hw2 w hm).2]
    simp [splitOn, splitOn_join hne2 fun w hm => (hw2 w hm).2]
  rw [e]
  have ht : titleLoop h ([] :: rest) [] = ([], [] :: rest) := by
    rw [titleLoop, he]
    simp
  unfold setLeftParts
  rw [ht]
  simp only [setAdditionalName_eq, setPrefix_eq, setGivenName_eq, additionalLoop_join _ fun w hw => (hw2 w hw).1]
  exact ⟨trivial, trivial, by simp [sofar], h2.2.1, h2.2.2⟩

example : ∃ c', (Contact.new (q! "u")).setNameFromString (helperOf id toLowerQ {}) (q! "de Berg Jr.,Dr. Ada Maria") = some c' ∧
    c'.prefix_ = q! "Dr." ∧ c'.givenName = q! "Ada" ∧ c'.additionalName = q! "Maria" ∧ c'.familyName = q! "de Berg" ∧ c'.suffix = q! "Jr." :=
  C82_comma (helperOf id toLowerQ {}) _ _ [] [q! "de", q! "Berg"] [q! "Jr."] [q! "Dr."] [q! "Ada", q! "Maria"] (by decide) (by decide) (by decide) (.inr ⟨by
      intro x e
      exact absurd (congrArg List.head? e) (by simp), rfl⟩)
    (by decide) (by decide) (by decide) ⟨q! "Berg", by decide, .inr ⟨q! "de", rfl, by decide⟩⟩
example : ∃ c', (Contact.new (q! "u")).setNameFromString (helperOf id toLowerQ {}) (q! "Berg, Ada Maria") = some c' ∧
    c'.prefix_ = [] ∧ c'.givenName = [] ∧ c'.additionalName = q! "Ada Maria" ∧ c'.familyName = q! "Berg" ∧ c'.suffix = [] :=
  C82_comma_blank (helperOf id toLowerQ {}) (by decide) _ _ [] [q! "Berg"] [] [q! "Ada", q! "Maria"] (by decide) (by decide) (by decide) (.inr ⟨by
      intro x e
      exact absurd (congrArg List.head? e) (by simp), rfl⟩)
    (by decide) ⟨q! "Berg", by decide, .inl ⟨rfl, by simp⟩⟩

/-- "Family, Given" gives the given name: false. -/
theorem C82_comma_false : ¬ ∀ (c c' : Contact), c.setNameFromString (helperOf id toLowerQ {}) (q! "Berg, Ada") = some c' → c'.givenName = q! "Ada" := fun h =>
  absurd (h (Contact.new []) _ rfl) (by decide +kernel)

/-! ### configured words -/

private theorem suffixLoop_congr {h h' : NameHelper} (l : List QString) (hl : ∀ w ∈ l, h.suffix w = h'.suffix w) (s : QString) :
    suffixLoop h l s = suffixLoop h' l s := by
  induction l generalizing s with
  | nil => rfl
  | cons w r ih =>
    rw [suffixLoop, suffixLoop, hl w List.mem_cons_self, ih fun x hx => hl x (List.mem_cons_of_mem _ hx)]

private theorem titleLoop_congr {h h' : NameHelper} (l : List QString) (hl : ∀ w ∈ l, h.title w = h'.title w) (s : QString) :
    titleLoop h l s = titleLoop h' l s := by
  induction l generalizing s with
  | nil => rfl
  | cons w r ih =>
    rw [titleLoop, titleLoop, hl w List.mem_cons_self, ih fun x hx => hl x (List.mem_cons_of_mem _ hx)]

private theorem suffixLoop_sub (h : NameHelper) (l : List QString) (s : QString) : ∀ w ∈ (suffixLoop h l s).2, w ∈ l := by
  induction l generalizing s with
  | nil => exact fun _ hw => hw
  | cons x r ih =>
    rw [suffixLoop]
    split
    · exact fun w hw => List.mem_cons_of_mem _ (ih _ w hw)
    · exact fun _ hw => hw

private theorem familyPart_congr {h h' : NameHelper} (w : QString) (r : List QString) (hr : ∀ p ∈ r, h.prefix_ (h.lower p) = h'.prefix_ (h'.lower p)) :
    familyPart h w r = familyPart h' w r := by
  cases r with
  | nil => rfl
  | cons p r => simp only [familyPart, hr p List.mem_cons_self]

private theorem familyPart_sub (h : NameHelper) (w : QString) (r : List QString) : ∀ p ∈ (familyPart h w r).2.1, p ∈ r := by
  cases r with
  | nil => exact fun _ hp => hp
  | cons q r =>
    simp only [familyPart]
    split
    · exact fun p hp => List.mem_cons_of_mem _ hp
    · exact fun _ hp => hp

private theorem leftParts_congr {h h' : NameHelper} (c : Contact) (l : List QString) (hl : ∀ w ∈ l, h.title w = h'.title w) :
    setLeftParts h c l = setLeftParts h' c l := by
  unfold setLeftParts
  rw [titleLoop_congr l hl]

private theorem piece_infix {t : QString} : ∀ w ∈ splitOn (qc! ' ') t, w <:+: t := by
  intro w hw
  have := join_splitOn (qc! ' ') t
  rw [← this]
  generalize splitOn (qc! ' ') t = l at hw
  induction l with
  | nil => exact absurd hw List.not_mem_nil
  | cons x l ih =>
    cases l with
    | nil =>
      rw [List.mem_singleton.1 hw]
      exact List.infix_refl _
    | cons y l =>
      rw [join]
      rcases List.mem_cons.1 hw with rfl | hw
      · exact ⟨[], _, by rw [List.nil_append, List.append_assoc]⟩
      · exact (ih hw).trans ⟨_, [], List.append_nil _⟩

/-- Only the words of a name matter: if two configurations agree on every word of the text, they divide it in the same way (with the same failure). -/
theorem C82_local (h h' : NameHelper) (hf : h.treatAsFamilyName = h'.treatAsFamilyName) (c : Contact) (s t : QString) (ht : Unquoted s t)
    (hw : ∀ w, w <:+: t → qc! ' ' ∉ w → h.title w = h'.title w ∧ h.suffix w = h'.suffix w ∧ h.prefix_ (h.lower w) = h'.prefix_ (h'.lower w)) :
    c.setNameFromString h s = c.setNameFromString h' s := by
  have key : ∀ u, u <:+: t → ∀ w ∈ splitOn (qc! ' ') u,
      h.title w = h'.title w ∧ h.suffix w = h'.suffix w ∧ h.prefix_ (h.lower w) = h'.prefix_ (h'.lower w) :=
    fun u hu w hm => hw w ((piece_infix w hm).trans hu) (sep_not_mem_splitOn _ _ w hm)
  unfold Contact.setNameFromString
  rw [unquoteName_of ht]
  simp only
  split
  · rfl
  · cases indexOf? (qc! ',') t with
    | none =>
      simp only
      congr 1
      have hk := key t (List.infix_refl _)
      unfold setNameNoComma
      rw [suffixLoop_congr (h := h) (h' := h') _ fun w hm => (hk w (by simpa using hm)).2.1]
      have hsub := suffixLoop_sub h' (splitOn (qc! ' ') t).reverse []
      cases hs : (suffixLoop h' (splitOn (qc! ' ') t).reverse []).2 with
      | nil => simp only [hs]
      | cons w r =>
        rw [hs] at hsub
        simp only [hs]
        rw [familyPart_congr (h := h) (h' := h') w r fun p hp => (hk p (by simpa using hsub p (List.mem_cons_of_mem _ hp))).2.2, hf]
        refine leftParts_congr _ _ fun x hx => ?_
        have := familyPart_sub h' w r x (by simpa using hx)
        exact (hk x (by simpa using hsub x (List.mem_cons_of_mem _ this))).1
    | some i =>
      simp only
      have hk := key (t.take i) (List.take_prefix _ _).isInfix
      have hk2 := key (t.drop (i + 1)) (List.drop_suffix _ _).isInfix
      unfold setNameComma
      rw [suffixLoop_congr (h := h) (h' := h') _ fun w hm => (hk w (by simpa using hm)).2.1]
      have hsub := suffixLoop_sub h' (splitOn (qc! ' ') (t.take i)).reverse []
      cases hs : (suffixLoop h' (splitOn (qc! ' ') (t.take i)).reverse []).2 with
      | nil => simp only [hs]
      | cons w r =>
        rw [hs] at hsub
        simp only [hs]
        rw [familyPart_congr (h := h) (h' := h') w r fun p hp => (hk p (by simpa using hsub p (List.mem_cons_of_mem _ hp))).2.2,
          leftParts_congr (h := h) (h' := h') _ _ fun x hx => (hk2 x hx).1]

/-- Configured words that do not occur in the text have no influence on how it is divided. -/
theorem C82_unused (tr lower : QString → QString) (cfg : NameConfig) (p i x : List QString) (c : Contact) (s t : QString) (ht : Unquoted s t)
    (hp : ∀ w ∈ p, ¬ w <:+: t) (hx : ∀ w ∈ x, ¬ w <:+: t) (hi : ∀ w ∈ i, ∀ v, v <:+: t → lower v ≠ w) :
    c.setNameFromString (helperOf tr lower { cfg with prefixes := p ++ cfg.prefixes, inclusions := i ++ cfg.inclusions, suffixes := x ++ cfg.suffixes }) s =
      c.setNameFromString (helperOf tr lower cfg) s := by
  refine C82_local (helperOf tr lower { cfg with prefixes := p ++ cfg.prefixes, inclusions := i ++ cfg.inclusions, suffixes := x ++ cfg.suffixes })
    (helperOf tr lower cfg) rfl c s t ht fun w hw _ => ?_
  have h1 := C82_words tr lower { cfg with prefixes := p ++ cfg.prefixes, inclusions := i ++ cfg.inclusions, suffixes := x ++ cfg.suffixes } w
  have h2 := C82_words tr lower cfg w
  have h3 := C82_words tr lower { cfg with prefixes := p ++ cfg.prefixes, inclusions := i ++ cfg.inclusions, suffixes := x ++ cfg.suffixes } (lower w)
  have h4 := C82_words tr lower cfg (lower w)
  refine ⟨Bool.eq_iff_iff.2 ?_, Bool.eq_iff_iff.2 ?_, Bool.eq_iff_iff.2 ?_⟩
  · rw [h1.1, h2.1]
    have : w ∉ p := fun hm => hp w hm hw
    simp only [List.mem_append, this, false_or]
  · rw [h1.2.1, h2.2.1]
    have : w ∉ x := fun hm => hx w hm hw
    simp only [List.mem_append, this, false_or]
  · refine h3.2.2.1.trans (Iff.trans ?_ h4.2.2.1.symm)
    have : lower w ∉ i := fun hm => hi _ hm w hw rfl
    simp only [List.mem_append, this, false_or]

example (c : Contact) : c.setNameFromString (helperOf id toLowerQ { prefixes := [q! "Sir"] }) (q! "Ada") = c.setNameFromString (helperOf id toLowerQ {}) (q! "Ada") :=
  C82_unused id toLowerQ {} [q! "Sir"] [] [] c _ (q! "Ada") (.inr ⟨fun x e => absurd (congrArg List.head? e) (by simp), rfl⟩) (by decide) (by simp) (by simp)
/-- And a configured word that occurs makes a difference. -/
example : (Contact.new []).setNameFromString (helperOf id toLowerQ { prefixes := [q! "Sir"] }) (q! "Sir Ada Berg") ≠
    (Contact.new []).setNameFromString (helperOf id toLowerQ {}) (q! "Sir Ada Berg") := by
  intro e
  exact absurd (congrArg (Option.map fun c => c.prefix_) e) (by decide +kernel)

/-- A configured family name prefix ("Inclusions") that is not in lower case is never found: it changes nothing for any name. -/
theorem C82_inclusion (tr lower : QString → QString) (hl : ∀ x, lower (lower x) = lower x) (cfg : NameConfig) (w : QString) (hw : lower w ≠ w) (c : Contact) (s : QString) :
    c.setNameFromString (helperOf tr lower { cfg with inclusions := w :: cfg.inclusions }) s = c.setNameFromString (helperOf tr lower cfg) s := by
  obtain ⟨t, ht⟩ : ∃ t, Unquoted s t := by
    by_cases h : ∃ x, s = qc! '"' :: x ++ [qc! '"']
    · obtain ⟨x, e⟩ := h
      exact ⟨x, .inl e⟩
    · exact ⟨s, .inr ⟨fun x e => h ⟨x, e⟩, rfl⟩⟩
  refine C82_local (helperOf tr lower { cfg with inclusions := w :: cfg.inclusions }) (helperOf tr lower cfg) rfl c s t ht fun x _ _ => ⟨rfl, rfl, ?_⟩
  have h1 := (C82_words tr lower { cfg with inclusions := w :: cfg.inclusions } (lower x)).2.2.1
  have h2 := (C82_words tr lower cfg (lower x)).2.2.1
  rw [Bool.eq_iff_iff]
  show (helperOf tr lower { cfg with inclusions := w :: cfg.inclusions }).prefix_ (lower x) = true ↔ (helperOf tr lower cfg).prefix_ (lower x) = true
  rw [h1, h2]
  simp only [List.mem_cons]
  constructor
  · rintro (h | ⟨hn, e | h⟩)
    · exact .inl h
    · exact absurd (by rw [← e]; exact hl x) hw
    · exact .inr ⟨hn, h⟩
  · rintro (h | ⟨hn, h⟩)
    · exact .inl h
    · exact .inr ⟨hn, .inr h⟩

/-- "A configured family name prefix is put before the family name" is false for "Mac": the word becomes the additional name. -/
theorem C82_inclusion_false : ¬ ∀ (cfg : NameConfig) (p : QString), p ∈ cfg.inclusions → ∀ c c' : Contact,
    c.setNameFromString (helperOf id toLowerQ cfg) (q! "Ada " ++ p ++ q! " Donald") = some c' → c'.familyName = p ++ q! " Donald" := fun h =>
  absurd (h { inclusions := [q! "Mac"] } (q! "Mac") (by decide) (Contact.new []) _ rfl) (by decide +kernel)

end KC
