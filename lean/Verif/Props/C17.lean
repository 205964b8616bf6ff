import Verif.Lemmas.Compute
/-
  C17: gender survives in version 4. Holds for a gender of at most one UTF-16 code unit other than ';'.
-/
namespace KC
open Spec

/-- The text written for a gender with its comment. -/
def genderText (g : Gender) : QString := g.gender ++ if g.comment.isEmpty then [] else qc! ';' :: g.comment

/-- C17, exactly: the text written is read as the same gender and comment if and only if the gender has at most one code unit and is not
    a semicolon; the comment is arbitrary. -/
theorem C17_value (g : Gender) : readGender (genderText g) = g ↔ g.gender.length ≤ 1 ∧ g.gender ≠ [qc! ';'] := by
  constructor
  · intro h
    rw [← h]
    unfold readGender
    split
    · simp
    · rename_i x t _
      split
      · rename_i hx; simpa using hx
      · simp
  · rintro ⟨h1, h2⟩
    by_cases hne : genderText g = []
    · rw [hne]
      obtain ⟨a, b⟩ := g
      unfold genderText at hne
      simp only [List.append_eq_nil_iff] at hne
      obtain ⟨rfl, hb⟩ := hne
      cases b with
      | nil => rfl
      | cons _ _ => simp at hb
    · exact gender_value g h1 h2 hne

/-- That text is what is written. -/
theorem C17_written (c : Contact) (h : c.gender.isValid = true) : genderLines .v4_0 c = [textLine (q! "GENDER") (genderText c.gender)] := by
  unfold genderLines; rw [if_pos (by simp [h])]; rfl

/-- C17 for the card of a contact. -/
theorem C17_card_partial (E : ToolEnv) (ids : IdKind → Nat → QString) (hinj : ∀ k i j, ids k i = ids k j → i = j) (c : Contact)
    (hR : Readable E .v4_0 c) (hu : ∀ i, c.uid ≠ ids .contact i) :
    ∃ c', WrittenAndRead E .v4_0 ids c c' ∧ c'.gender = c.gender := by
  have h := C24_contact E .v4_0 ids hinj c hR hu
  exact ⟨_, h, rfl⟩

/-- Non-vacuity: a gender with a comment that has a semicolon. -/
example : ∃ c', WrittenAndRead Sample.env .v4_0 Sample.ids Sample.contact c' ∧ c'.gender = { gender := q! "F", comment := q! "x; y" } :=
  C17_card_partial Sample.env Sample.ids Sample.ids_inj _ (C24_sample_readable _) C24_sample_uid

/-- C17 is false for longer texts: of a gender "female" only the first letter is kept, and the comment is lost. -/
theorem C17_false : ∃ c c', WrittenAndRead Sample.env .v4_0 Sample.ids c c' ∧ c'.gender = { gender := q! "f", comment := [] } ∧
    c.gender = { gender := q! "female", comment := q! "c" } := by
  obtain ⟨c', h, h2⟩ := oneBack_not (E := Sample.env) (v := .v4_0) (ids := Sample.ids) { uid := q! "u", gender := { gender := q! "female", comment := q! "c" } }
    (fun c' => c'.gender ≠ { gender := q! "f", comment := [] }) (by decide +kernel)
  exact ⟨_, c', h, not_not.1 h2, rfl⟩

end KC
