import Verif.Spec.Names
import Verif.Lemmas.KeyedMap
import Verif.Lemmas.Reader
/-
  Lemmas about words and about splitting names.
-/
namespace KC
open KC.Spec

section
variable {α : Type} (sp : α → Bool)

theorem words_skip {x : α} (t : List α) (h : sp x = true) : words sp (x :: t) = words sp t := by simp [words, h]

theorem words_two {x y : α} (t : List α) (hx : sp x = false) : words sp (x :: y :: t) =
    if sp y then [x] :: words sp (y :: t) else match words sp (y :: t) with | [] => [[x]] | w :: r => (x :: w) :: r := by
  rw [words, if_neg (by simp [hx])]
  split <;> rfl

theorem words_one {x : α} (hx : sp x = false) : words sp [x] = [[x]] := by simp [words, hx]

theorem words_cons_ne {x : α} (t : List α) (hx : sp x = false) : words sp (x :: t) ≠ [] := by
  cases t with
  | nil => simp [words_one sp hx]
  | cons y t =>
    rw [words_two sp t hx]
    split
    · simp
    · split <;> simp

theorem words_append_space (a : List α) {x : α} (b : List α) (h : sp x = true) : words sp (a ++ x :: b) = words sp a ++ words sp b := by
  induction a with
  | nil => simp [words_skip sp b h, words]
  | cons y a ih =>
    cases hy : sp y with
    | true => rw [List.cons_append, words_skip sp _ hy, words_skip sp _ hy, ih]
    | false =>
      cases a with
      | nil => rw [List.cons_append, List.nil_append, words_two sp b hy, if_pos h, words_skip sp b h, words_one sp hy]; rfl
      | cons z a =>
        rw [List.cons_append, List.cons_append, words_two sp _ hy, words_two sp _ hy]
        rw [List.cons_append] at ih
        cases hz : sp z with
        | true => simp only [if_true]; rw [ih]; rfl
        | false =>
          simp only [if_neg (show ¬ (false = true) by simp)]
          rw [ih]
          obtain ⟨w, r, e⟩ := List.exists_cons_of_ne_nil (words_cons_ne sp a hz)
          rw [e]; rfl

theorem words_word {w : List α} (hw : w ≠ []) (h : ∀ x ∈ w, sp x = false) : words sp w = [w] := by
  induction w with
  | nil => exact absurd rfl hw
  | cons x w ih =>
    cases w with
    | nil => exact words_one sp (h x (by simp))
    | cons y w =>
      rw [words_two sp w (h x (by simp)), ih (by simp) (fun z hz => h z (by simp [hz]))]
      simp [h y (by simp)]

theorem words_run (w : List α) (h : ∀ x ∈ w, sp x = false) : words sp w = [w].filter (!·.isEmpty) := by
  cases w with
  | nil => rfl
  | cons x w => rw [words_word sp (by simp) h]; rfl

theorem Spec.Words.eq {s : List α} {ws : List (List α)} (h : Words sp s ws) : words sp s = ws := by
  induction h with
  | nil => rfl
  | space hx _ ih => rw [words_skip sp _ hx, ih]
  | last hw h => exact words_word sp hw h
  | word hw h hx _ ih => rw [words_append_space sp _ _ hx, words_word sp hw h, ih]; rfl

theorem words_spec (s : List α) : Words sp s (words sp s) := by
  have key : ∀ n, ∀ s : List α, s.length ≤ n → Words sp s (words sp s) := by
    intro n
    induction n with
    | zero => intro s h; cases s with
      | nil => exact .nil
      | cons => simp at h
    | succ n ih =>
      intro s h
      cases s with
      | nil => exact .nil
      | cons x t =>
        cases hx : sp x with
        | true => rw [words_skip sp t hx]; exact .space hx (ih t (by simpa using h))
        | false =>
          have hs : (x :: t).takeWhile (fun y => !sp y) ++ (x :: t).dropWhile (fun y => !sp y) = x :: t := List.takeWhile_append_dropWhile
          have hw : (x :: t).takeWhile (fun y => !sp y) ≠ [] := by simp [hx]
          have hn : ∀ y ∈ (x :: t).takeWhile (fun y => !sp y), sp y = false := by
            intro y hy
            have := List.all_takeWhile (l := x :: t) (p := fun y => !sp y)
            rw [List.all_eq_true] at this
            simpa using this y hy
          cases hd : (x :: t).dropWhile (fun y => !sp y) with
          | nil =>
            rw [hd, List.append_nil] at hs
            rw [← hs, words_word sp hw hn]
            exact .last hw hn
          | cons y r =>
            have hy : sp y = true := by
              have := List.head?_dropWhile_not (fun y => !sp y) (x :: t)
              rw [hd] at this
              simpa using this
            rw [hd] at hs
            have hl : r.length ≤ n := by
              have := congrArg List.length hs
              simp only [List.length_append, List.length_cons] at this h
              omega
            rw [← hs, words_append_space sp _ _ hy, words_word sp hw hn]
            exact .word hw hn hy (ih r hl)
  exact key _ s (Nat.le_refl _)

theorem words_join (ws : List (List α)) (x : α) (hx : sp x = true) (h : ∀ w ∈ ws, w ≠ [] ∧ ∀ y ∈ w, sp y = false) : words sp (join [x] ws) = ws := by
  induction ws with
  | nil => rfl
  | cons w ws ih =>
    cases ws with
    | nil => exact words_word sp (h w (by simp)).1 (h w (by simp)).2
    | cons v ws =>
      show words sp (w ++ [x] ++ join [x] (v :: ws)) = _
      rw [List.append_assoc, List.singleton_append, words_append_space sp _ _ hx, words_word sp (h w (by simp)).1 (h w (by simp)).2,
        ih (fun u hu => h u (by simp [hu]))]
      rfl

theorem words_parts {s : List α} : ∀ w ∈ words sp s, w ≠ [] ∧ ∀ y ∈ w, sp y = false := by
  have h := words_spec sp s
  generalize words sp s = ws at h
  induction h with
  | nil => simp
  | space _ _ ih => exact ih
  | last hw h => intro v hv; rw [List.mem_singleton.1 hv]; exact ⟨hw, h⟩
  | word hw h _ _ ih =>
    intro v hv
    rcases List.mem_cons.1 hv with rfl | hv
    · exact ⟨hw, h⟩
    · exact ih v hv

end

theorem words_simplified (s : QString) : words isSpaceQ (simplified s) = words isSpaceQ s :=
  words_join isSpaceQ _ 32 (by decide) (words_parts isSpaceQ)

/-! ### parts -/

theorem words_blank_join (ps : List QString) (h : ∀ p ∈ ps, (32 : UInt16) ∉ p) : words isBlankChar (join [32] ps) = ps.filter (!·.isEmpty) := by
  have hb : ∀ p ∈ ps, ∀ x ∈ p, isBlankChar x = false := by
    intro p hp x hx
    have := h p hp
    simp only [isBlankChar, decide_eq_false_iff_not]
    rintro rfl
    exact this hx
  induction ps with
  | nil => rfl
  | cons p ps ih =>
    have hp := words_run isBlankChar p (hb p (by simp))
    cases ps with
    | nil => exact hp
    | cons q ps =>
      show words isBlankChar (p ++ [32] ++ join [32] (q :: ps)) = _
      rw [List.append_assoc, List.singleton_append, words_append_space isBlankChar _ _ (by decide), hp,
        ih (fun u hu => h u (by simp [hu])) (fun u hu => hb u (by simp [hu]))]
      rw [← List.filter_append]
      rfl

theorem words_split (s : QString) : words isBlankChar s = (splitOn 32 s).filter (!·.isEmpty) := by
  conv => lhs; rw [← join_splitOn 32 s]
  exact words_blank_join _ (sep_not_mem_splitOn 32 s)

theorem words_noBlank {w : QString} (h : (32 : UInt16) ∉ w) : words isBlankChar w = [w].filter (!·.isEmpty) := words_blank_join [w] (by simpa using h)

theorem words_glue (a b : QString) (h : a ≠ []) : words isBlankChar (a ++ ((if a.isEmpty then [] else [qc! ' ']) ++ b)) = words isBlankChar a ++ words isBlankChar b := by
  cases a with
  | nil => exact absurd rfl h
  | cons x a =>
    simp only [List.isEmpty_cons, Bool.false_eq_true, if_false]
    exact words_append_space isBlankChar (x :: a) b (by decide)

theorem words_glueRight (a b : QString) : words isBlankChar (a ++ ((if a.isEmpty then [] else [qc! ' ']) ++ b)) = words isBlankChar a ++ words isBlankChar b := by
  cases a with
  | nil => rfl
  | cons x a => exact words_glue _ _ (by simp)

theorem words_glueLeft (a b : QString) : words isBlankChar (a ++ (if b.isEmpty then [] else [qc! ' ']) ++ b) = words isBlankChar a ++ words isBlankChar b := by
  cases b with
  | nil => simp [words]
  | cons x b =>
    simp only [List.isEmpty_cons, Bool.false_eq_true, if_false]
    rw [List.append_assoc]
    exact words_append_space isBlankChar a (x :: b) (by decide)

theorem suffixLoop_spec (h : NameHelper) (rev : List QString) (hb : ∀ w ∈ rev, (32 : UInt16) ∉ w) (s : QString) :
    ∃ taken, rev = taken ++ (suffixLoop h rev s).2 ∧ (∀ w ∈ taken, h.suffix w = true) ∧ (∀ w ∈ (suffixLoop h rev s).2.head?, h.suffix w = false) ∧
      words isBlankChar (suffixLoop h rev s).1 = taken.reverse.filter (!·.isEmpty) ++ words isBlankChar s := by
  induction rev generalizing s with
  | nil => exact ⟨[], rfl, by simp, by simp [suffixLoop], by simp [suffixLoop]⟩
  | cons w r ih =>
    unfold suffixLoop
    cases hw : h.suffix w with
    | false =>
      simp only [Bool.false_eq_true, if_false]
      exact ⟨[], rfl, by simp, by simp [hw], by simp⟩
    | true =>
      simp only [if_true]
      obtain ⟨taken, h1, h2, h3, h4⟩ := ih (fun v hv => hb v (by simp [hv])) (w ++ (if s.isEmpty then [] else [qc! ' ']) ++ s)
      refine ⟨w :: taken, by rw [List.cons_append, ← h1], ?_, h3, ?_⟩
      · intro v hv
        rcases List.mem_cons.1 hv with rfl | hv
        · exact hw
        · exact h2 v hv
      · rw [h4, words_glueLeft, words_noBlank (hb w (by simp)), List.reverse_cons, List.filter_append, List.append_assoc]

theorem titleLoop_spec (h : NameHelper) (ws : List QString) (hb : ∀ w ∈ ws, (32 : UInt16) ∉ w) (s : QString) :
    ∃ taken, ws = taken ++ (titleLoop h ws s).2 ∧ (∀ w ∈ taken, h.title w = true) ∧ (∀ w ∈ (titleLoop h ws s).2.head?, h.title w = false) ∧
      words isBlankChar (titleLoop h ws s).1 = words isBlankChar s ++ taken.filter (!·.isEmpty) := by
  induction ws generalizing s with
  | nil => exact ⟨[], rfl, by simp, by simp [titleLoop], by simp [titleLoop]⟩
  | cons w r ih =>
    unfold titleLoop
    cases hw : h.title w with
    | false =>
      simp only [Bool.false_eq_true, if_false]
      exact ⟨[], rfl, by simp, by simp [hw], by simp⟩
    | true =>
      simp only [if_true]
      obtain ⟨taken, h1, h2, h3, h4⟩ := ih (fun v hv => hb v (by simp [hv])) (s ++ ((if s.isEmpty then [] else [qc! ' ']) ++ w))
      refine ⟨w :: taken, by rw [List.cons_append, ← h1], ?_, h3, ?_⟩
      · intro v hv
        rcases List.mem_cons.1 hv with rfl | hv
        · exact hw
        · exact h2 v hv
      · rw [h4, words_glueRight, words_noBlank (hb w (by simp)), List.append_assoc, ← List.filter_append]
        rfl

theorem additionalLoop_words (ws : List QString) (hb : ∀ w ∈ ws, (32 : UInt16) ∉ w) (s : QString) :
    words isBlankChar (additionalLoop ws s) = words isBlankChar s ++ ws.filter (!·.isEmpty) := by
  induction ws generalizing s with
  | nil => simp [additionalLoop]
  | cons w r ih =>
    unfold additionalLoop
    rw [ih (fun v hv => hb v (by simp [hv])), words_glueRight, words_noBlank (hb w (by simp)), List.append_assoc, ← List.filter_append]
    rfl

theorem familyPart_spec (h : NameHelper) (w : QString) (r : List QString) (hb : ∀ v ∈ w :: r, (32 : UInt16) ∉ v) :
    ∃ fam, fam ++ (familyPart h w r).2.1 = w :: r ∧ words isBlankChar (familyPart h w r).1 = fam.reverse.filter (!·.isEmpty) ∧
      (fam = [w] ∧ (∀ p ∈ r.head?, h.prefix_ (h.lower p) = false) ∧ (familyPart h w r).2.2 = false ∨
       ∃ p, fam = [w, p] ∧ h.prefix_ (h.lower p) = true ∧ (familyPart h w r).2.2 = true) := by
  cases r with
  | nil => exact ⟨[w], rfl, words_noBlank (hb w (by simp)), .inl ⟨rfl, by simp, rfl⟩⟩
  | cons p r =>
    cases hp : h.prefix_ (h.lower p) with
    | true =>
      rw [show familyPart h w (p :: r) = (p ++ [qc! ' '] ++ w, r, true) by simp [familyPart, hp]]
      refine ⟨[w, p], rfl, ?_, .inr ⟨p, rfl, hp, rfl⟩⟩
      rw [List.append_assoc, List.singleton_append, words_append_space isBlankChar _ _ (by decide), words_noBlank (hb w (by simp)), words_noBlank (hb p (by simp)),
        ← List.filter_append]
      rfl
    | false =>
      rw [show familyPart h w (p :: r) = (w, p :: r, false) by simp [familyPart, hp]]
      exact ⟨[w], rfl, words_noBlank (hb w (by simp)), .inl ⟨rfl, by simp [hp], rfl⟩⟩

/-! ### setters -/

theorem setPrefix_eq (c : Contact) (s : QString) : c.setPrefix s = { c with prefix_ := s, empty := c.empty && decide (s = c.prefix_) } := by
  unfold Contact.setPrefix; split
  · next h => subst h; simp
  · next h => simp [h]
theorem setGivenName_eq (c : Contact) (s : QString) : c.setGivenName s = { c with givenName := s, empty := c.empty && decide (s = c.givenName) } := by
  unfold Contact.setGivenName; split
  · next h => subst h; simp
  · next h => simp [h]
theorem setAdditionalName_eq (c : Contact) (s : QString) :
    c.setAdditionalName s = { c with additionalName := s, empty := c.empty && decide (s = c.additionalName) } := by
  unfold Contact.setAdditionalName; split
  · next h => subst h; simp
  · next h => simp [h]
theorem setFamilyName_eq (c : Contact) (s : QString) : c.setFamilyName s = { c with familyName := s, empty := c.empty && decide (s = c.familyName) } := by
  unfold Contact.setFamilyName; split
  · next h => subst h; simp
  · next h => simp [h]
theorem setSuffix_eq (c : Contact) (s : QString) : c.setSuffix s = { c with suffix := s, empty := c.empty && decide (s = c.suffix) } := by
  unfold Contact.setSuffix; split
  · next h => subst h; simp
  · next h => simp [h]
theorem setFormattedName_eq (c : Contact) (s : QString) :
    c.setFormattedName s = { c with formattedName := s, empty := c.empty && decide (s = c.formattedName) } := by
  unfold Contact.setFormattedName; split
  · next h => subst h; simp
  · next h => simp [h]
theorem setName_eq (c : Contact) (s : QString) : c.setName s = { c with name := s, empty := c.empty && decide (s = c.name) } := by
  unfold Contact.setName; split
  · next h => subst h; simp
  · next h => simp [h]

/-- Two contacts differ only in prefix, given name, additional name, family name, suffix and the emptiness flag. -/
def PartsOnly (c c' : Contact) : Prop :=
  { c with prefix_ := [], givenName := [], additionalName := [], familyName := [], suffix := [], empty := false } =
  { c' with prefix_ := [], givenName := [], additionalName := [], familyName := [], suffix := [], empty := false }

theorem leftParts_spec (h : NameHelper) (c : Contact) (ws : List QString) (hb : ∀ w ∈ ws, (32 : UInt16) ∉ w) :
    PartsOnly c (setLeftParts h c ws) ∧ (setLeftParts h c ws).familyName = c.familyName ∧ (setLeftParts h c ws).suffix = c.suffix ∧
    (c.givenName = [] → words isBlankChar (setLeftParts h c ws).prefix_ ++ words isBlankChar (setLeftParts h c ws).givenName ++
      words isBlankChar (setLeftParts h c ws).additionalName = ws.filter (!·.isEmpty)) := by
  obtain ⟨taken, h1, h2, h3, h4⟩ := titleLoop_spec h ws hb []
  unfold setLeftParts
  generalize titleLoop h ws [] = t at h1 h3 h4
  obtain ⟨pre, rest⟩ := t
  simp only at h1 h3 h4 ⊢
  cases rest with
  | nil =>
    simp only [setPrefix_eq, setAdditionalName_eq]
    refine ⟨rfl, trivial, trivial, ?_⟩
    intro hg
    rw [h4, hg, h1]
    simp [words]
  | cons g r =>
    simp only [setPrefix_eq, setAdditionalName_eq, setGivenName_eq]
    refine ⟨rfl, trivial, trivial, ?_⟩
    intro _
    rw [h4, additionalLoop_words r (fun v hv => hb v (by rw [h1]; simp [hv])), words_noBlank (hb g (by rw [h1]; simp)), h1]
    simp [words, List.filter_cons, List.filter_append]
    split <;> simp

end KC
