import Verif.Lemmas.Names
/-
  C57 — the displayed name.
-/
namespace KC
open KC.Spec

/-- The formatted name if set, otherwise the assembled parts, otherwise the name, otherwise the organisation. -/
theorem C57_choice (c : Contact) :
    (c.formattedName ≠ [] → c.realName = c.formattedName) ∧
    (c.formattedName = [] → c.assembledName ≠ [] → c.realName = c.assembledName) ∧
    (c.formattedName = [] → c.assembledName = [] → c.name ≠ [] → c.realName = c.name) ∧
    (c.formattedName = [] → c.assembledName = [] → c.name = [] → c.realName = c.text .organization) := by
  unfold Contact.realName
  refine ⟨fun h => ?_, fun h1 h2 => ?_, fun h1 h2 h3 => ?_, fun h1 h2 h3 => ?_⟩
  · rw [if_pos (by simpa using h)]
  · rw [if_neg (by simpa using h1), if_pos (by simpa using h2)]
  · rw [if_neg (by simpa using h1), if_neg (by simpa using h2), if_pos (by simpa using h3)]
  · rw [if_neg (by simpa using h1), if_neg (by simpa using h2), if_neg (by simpa using h3)]

private theorem assembled_words (c : Contact) : words isSpaceQ c.assembledName =
    words isSpaceQ c.prefix_ ++ words isSpaceQ c.givenName ++ words isSpaceQ c.additionalName ++ words isSpaceQ c.familyName ++ words isSpaceQ c.suffix := by
  unfold Contact.assembledName
  rw [words_simplified]
  simp only [List.append_assoc, List.cons_append, List.nil_append]
  rw [words_append_space _ _ _ (by decide), words_append_space _ _ _ (by decide), words_append_space _ _ _ (by decide), words_append_space _ _ _ (by decide)]

/-- The words of the assembled name are the words of prefix, given name, additional name, family name and suffix, in this order, with one space between
    them and none at the ends. -/
theorem C57_words (c : Contact) (w1 w2 w3 w4 w5 : List QString) (h1 : Words isSpaceQ c.prefix_ w1) (h2 : Words isSpaceQ c.givenName w2)
    (h3 : Words isSpaceQ c.additionalName w3) (h4 : Words isSpaceQ c.familyName w4) (h5 : Words isSpaceQ c.suffix w5) :
    Words isSpaceQ c.assembledName (w1 ++ w2 ++ w3 ++ w4 ++ w5) ∧ c.assembledName = join (q! " ") (w1 ++ w2 ++ w3 ++ w4 ++ w5) := by
  have e := assembled_words c
  rw [h1.eq, h2.eq, h3.eq, h4.eq, h5.eq] at e
  refine ⟨by rw [← e]; exact words_spec _ _, ?_⟩
  rw [← e]
  unfold Contact.assembledName
  rw [words_simplified]
  rfl

/-- The displayed name is empty only if the formatted name, the name and the organisation are empty and no part has a word. -/
theorem C57_empty (c : Contact) : c.realName = [] ↔ c.formattedName = [] ∧ c.name = [] ∧ c.text .organization = [] ∧
    ∀ p ∈ [c.prefix_, c.givenName, c.additionalName, c.familyName, c.suffix], Words isSpaceQ p [] := by
  have ha : c.assembledName = [] ↔ ∀ p ∈ [c.prefix_, c.givenName, c.additionalName, c.familyName, c.suffix], Words isSpaceQ p [] := by
    have e := assembled_words c
    constructor
    · intro h
      rw [h] at e
      have e := e.symm
      simp only [words, List.append_eq_nil_iff] at e
      obtain ⟨⟨⟨⟨e1, e2⟩, e3⟩, e4⟩, e5⟩ := e
      intro p hp
      have hw : words isSpaceQ p = [] := by
        simp only [List.mem_cons, List.not_mem_nil, or_false] at hp
        rcases hp with rfl | rfl | rfl | rfl | rfl <;> assumption
      rw [← hw]
      exact words_spec _ _
    · intro h
      simp only [List.mem_cons, List.not_mem_nil, or_false, forall_eq_or_imp, forall_eq] at h
      obtain ⟨h1, h2, h3, h4, h5⟩ := h
      exact (C57_words c _ _ _ _ _ h1 h2 h3 h4 h5).2
  rw [← ha]
  obtain ⟨c1, c2, c3, c4⟩ := C57_choice c
  by_cases h1 : c.formattedName = []
  · by_cases h2 : c.assembledName = []
    · by_cases h3 : c.name = []
      · rw [c4 h1 h2 h3]; simp [h1, h2, h3]
      · rw [c3 h1 h2 h3]; simp [h3]
    · rw [c2 h1 h2]; simp [h2]
  · rw [c1 h1]; simp [h1]

-- parts with spaces in odd places
example : ({ uid := [], prefix_ := q! " Dr. ", givenName := q! "Ann  B.", familyName := q! "Lee", name := q! "x" } : Contact).realName = q! "Dr. Ann B. Lee" := by
  decide

example : ({ uid := [], prefix_ := q! "  ", organizations := [{ text := q! "Org" }] } : Contact).realName = q! "Org" := by decide

end KC
