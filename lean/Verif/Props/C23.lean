import Verif.Lemmas.Compute
/-
  C23: the confidentiality class survives in version 3.0; an unknown class text is read as no class.
-/
namespace KC
open Spec

/-- C23 for the card of a contact. -/
theorem C23_card (E : ToolEnv) (ids : IdKind → Nat → QString) (hinj : ∀ k i j, ids k i = ids k j → i = j) (c : Contact)
    (hR : Readable E .v3_0 c) (hu : ∀ i, c.uid ≠ ids .contact i) :
    ∃ c', WrittenAndRead E .v3_0 ids c c' ∧ c'.secrecy = c.secrecy := by
  have h := C24_contact E .v3_0 ids hinj c hR hu
  exact ⟨_, h, rfl⟩

/-- C23 for every class text found in a file: reading a CLASS line gives a class if and only if its text spells that class, in any case
    of letters; any other text gives no class, whatever class was there before. -/
theorem C23_text (E : ToolEnv) (ids : IdKind → Nat → QString) (s : RState) (l : VCardLine) (h : tagOf l = .class_) :
    ((readLine E ids s l).c.secrecy = .pub ↔ toLowerQ l.value.toString = q! "public") ∧
    ((readLine E ids s l).c.secrecy = .priv ↔ toLowerQ l.value.toString = q! "private") ∧
    ((readLine E ids s l).c.secrecy = .confidential ↔ toLowerQ l.value.toString = q! "confidential") ∧
    ((readLine E ids s l).c.secrecy = .invalid ↔ toLowerQ l.value.toString ∉ [q! "public", q! "private", q! "confidential"]) := by
  have : (readLine E ids s l).c.secrecy = parseSecrecy l := by
    unfold readLine
    rw [h]
    simp only
    unfold Contact.setSecrecy
    split
    · rename_i h; exact h.symm
    · rfl
  rw [this]
  unfold parseSecrecy
  simp only [List.mem_cons, List.not_mem_nil, or_false, not_or]
  generalize toLowerQ l.value.toString = t
  by_cases h1 : t = q! "public"
  · subst h1; simp
  · by_cases h2 : t = q! "private"
    · subst h2; simp
    · by_cases h3 : t = q! "confidential"
      · subst h3; simp
      · simp [h1, h2, h3]

/-- Lines named CLASS in any case of letters, without group, are such lines. -/
example : tagOf { identifier := q! "Class", value := .str (q! "top-secret") } = .class_ := by decide +kernel

/-- Non-vacuity: the sample contact is private. -/
example : ∃ c', WrittenAndRead Sample.env .v3_0 Sample.ids Sample.contact c' ∧ c'.secrecy = .priv :=
  C23_card Sample.env Sample.ids Sample.ids_inj _ (C24_sample_readable _) C24_sample_uid

end KC
