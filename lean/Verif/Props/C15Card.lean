import Verif.Lemmas.Compute
/-
  C15 for whole cards: birthday, revision, death date and anniversary.
-/
namespace KC
open Spec

/-- C15: the dates of a contact that a version can carry come back from its card: the birthday with its time when it has one, otherwise
    the date; the revision; in version 4 the date of death. -/
theorem C15_card (E : ToolEnv) (v : Version) (ids : IdKind → Nat → QString) (hinj : ∀ k i j, ids k i = ids k j → i = j) (c : Contact)
    (hR : Readable E v c) (hu : ∀ i, c.uid ≠ ids .contact i) :
    ∃ c', WrittenAndRead E v ids c c' ∧ c'.revision = c.revision ∧ (v = .v4_0 → c'.deathDate = c.deathDate) ∧
      (c.birthdayWithTime = true → c'.birthday = c.birthday) ∧
      (c.birthdayWithTime = false → c'.birthday.map (·.date) = c.birthday.map (·.date) ∧ c'.birthdayWithTime = false) ∧
      (c.birthday.isSome = true → c'.birthdayWithTime = c.birthdayWithTime) := by
  have h := C24_contact E v ids hinj c hR hu
  refine ⟨_, h, rfl, fun hv => if_pos hv, fun hb => if_pos hb, fun hb => ⟨?_, ?_⟩, fun hb => ?_⟩
  · show Option.map _ (if c.birthdayWithTime = true then c.birthday else c.birthday.dateOnly) = _
    rw [if_neg (by simp [hb])]
    cases c.birthday <;> rfl
  · show (c.birthday.isSome && c.birthdayWithTime) = false
    rw [hb, Bool.and_false]
  · show (c.birthday.isSome && c.birthdayWithTime) = _
    rw [hb, Bool.true_and]

/-- C15 for the anniversary, a custom field that version 4 writes as a date: it comes back in every version. -/
theorem C15_anniversary (E : ToolEnv) (v : Version) (ids : IdKind → Nat → QString) (hinj : ∀ k i j, ids k i = ids k j → i = j) (c : Contact)
    (hR : Readable E v c) (hu : ∀ i, c.uid ≠ ids .contact i) :
    ∃ c', WrittenAndRead E v ids c c' ∧ c'.custom (q! "KADDRESSBOOK") (q! "X-Anniversary") = c.custom (q! "KADDRESSBOOK") (q! "X-Anniversary") := by
  have h := C24_contact E v ids hinj c hR hu
  exact ⟨_, h, rfl⟩

/-- Non-vacuity: the sample contact has a birthday with time and zone, a revision in local time and a date of death in UTC. -/
example (v : Version) : ∃ c', WrittenAndRead Sample.env v Sample.ids Sample.contact c' ∧
    c'.birthday = some ⟨(1980, 2, 29), (8, 30, 0, 0), some (-12600)⟩ ∧ c'.revision = some ⟨(2016, 1, 20), (8, 5, 3, 0), none⟩ := by
  obtain ⟨c', h, h1, -, h2, -⟩ := C15_card Sample.env v Sample.ids Sample.ids_inj _ (C24_sample_readable v) C24_sample_uid
  exact ⟨c', h, h2 rfl, h1⟩

/-! ### Outside of this range -/

/-- The date of death is only written in version 4. -/
theorem C15_death_v3_false : ∃ c c', WrittenAndRead Sample.env .v3_0 Sample.ids c c' ∧ c'.deathDate ≠ c.deathDate :=
  ⟨_, oneBack_not { uid := q! "u", deathDate := some ⟨(2040, 12, 31), (0, 0, 0, 0), some 0⟩ } (fun c' => c'.deathDate = some ⟨(2040, 12, 31), (0, 0, 0, 0), some 0⟩) (by decide +kernel)⟩

/-- An anniversary that is not an ISO date is lost in version 4. -/
theorem C15_anniversary_text_false : ∃ c c', WrittenAndRead Sample.env .v4_0 Sample.ids c c' ∧ c'.customs ≠ c.customs :=
  ⟨_, oneBack_not { uid := q! "u", customs := [(q! "KADDRESSBOOK-X-Anniversary", q! "2001-2-3")] } (fun c' => c'.customs = [(q! "KADDRESSBOOK-X-Anniversary", q! "2001-2-3")]) (by decide +kernel)⟩

end KC
