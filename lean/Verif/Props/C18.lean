import Verif.Lemmas.Compute
/-
  C18: the type flags of phone numbers survive. Holds for every set of the 14 flags that are not `Undefined`, except the empty set, and for
  `Undefined` alone; `Undefined` together with others is dropped.
-/
namespace KC
open Spec

/-- C18 for the card of a contact, any version: which flags a phone number has after the round trip, for any flags before. -/
theorem C18_card_partial (E : ToolEnv) (v : Version) (ids : IdKind → Nat → QString) (hinj : ∀ k i j, ids k i = ids k j → i = j) (c : Contact)
    (hR : Readable E v c) (hu : ∀ i, c.uid ≠ ids .contact i) :
    ∃ c', WrittenAndRead E v ids c c' ∧ c'.phoneNumbers.map (·.type) = c.phoneNumbers.map fun p => if p.type &&& 16383 = 0 then 16384 else p.type &&& 16383 := by
  have h := C24_contact E v ids hinj c hR hu
  refine ⟨_, h, ?_⟩
  show (c.phoneNumbers.mapIdx _).map _ = _
  apply List.ext_getElem
  · simp
  · intro i _ _
    simp only [List.getElem_map, List.getElem_mapIdx]
    rfl

theorem phone_flags_same : ∀ t : Nat, t < 32768 → ((if t &&& 16383 = 0 then 16384 else t &&& 16383) = t ↔ t = 16384 ∨ (0 < t ∧ t < 16384)) := by
  intro t ht
  have h : t &&& 16383 = t % 2 ^ 14 := Nat.and_two_pow_sub_one_eq_mod t 14
  rw [h]
  split <;> omega

/-- C18, exactly: among all sets of the 15 flags, those that survive are `Undefined` alone and the non-empty sets without `Undefined`. -/
theorem C18_flags (E : ToolEnv) (v : Version) (ids : IdKind → Nat → QString) (hinj : ∀ k i j, ids k i = ids k j → i = j) (c : Contact)
    (hR : Readable E v c) (hu : ∀ i, c.uid ≠ ids .contact i) (ht : ∀ p ∈ c.phoneNumbers, p.type < 32768) :
    ∃ c', WrittenAndRead E v ids c c' ∧
      (c'.phoneNumbers.map (·.type) = c.phoneNumbers.map (·.type) ↔ ∀ p ∈ c.phoneNumbers, p.type = 16384 ∨ (0 < p.type ∧ p.type < 16384)) := by
  obtain ⟨c', h, h2⟩ := C18_card_partial E v ids hinj c hR hu
  refine ⟨c', h, ?_⟩
  rw [h2, List.map_inj_left]
  exact ⟨fun h p hp => (phone_flags_same _ (ht p hp)).1 (h p hp), fun h p hp => (phone_flags_same _ (ht p hp)).2 (h p hp)⟩

/-- Non-vacuity: home and preferred, and undefined, in every version. -/
example (v : Version) : ∃ c', WrittenAndRead Sample.env v Sample.ids Sample.contact c' ∧ c'.phoneNumbers.map (·.type) = [9, 16384] :=
  C18_card_partial Sample.env v Sample.ids Sample.ids_inj _ (C24_sample_readable v) C24_sample_uid

/-- C18 is false for no flags at all, which is read as `Undefined`, and for `Undefined` with other flags. -/
theorem C18_false : ∃ c c', WrittenAndRead Sample.env .v3_0 Sample.ids c c' ∧ c.phoneNumbers.map (·.type) = [0, 16384 + 1] ∧ c'.phoneNumbers.map (·.type) = [16384, 1] := by
  obtain ⟨c', h, h2⟩ := oneBack_not (E := Sample.env) (v := .v3_0) (ids := Sample.ids)
    { uid := q! "u", phoneNumbers := [{ id := q! "x", number := q! "1", type := 0 }, { id := q! "y", number := q! "2", type := 16385 }] }
    (fun c' => c'.phoneNumbers.map (·.type) ≠ [16384, 1]) (by decide +kernel)
  exact ⟨_, c', h, rfl, not_not.1 h2⟩

/-- The parameters of a phone number are not kept as they were: they gain the types. -/
theorem C18_params_false : ∃ c c', WrittenAndRead Sample.env .v3_0 Sample.ids c c' ∧ c.phoneNumbers.map (·.params) = [[]] ∧
    c'.phoneNumbers.map (·.params) = [[(q! "type", [q! "HOME"])]] := by
  obtain ⟨c', h, h2⟩ := oneBack_not (E := Sample.env) (v := .v3_0) (ids := Sample.ids) { uid := q! "u", phoneNumbers := [{ id := q! "x", number := q! "1", type := 1 }] }
    (fun c' => c'.phoneNumbers.map (·.params) ≠ [[(q! "type", [q! "HOME"])]]) (by decide +kernel)
  exact ⟨_, c', h, rfl, not_not.1 h2⟩

end KC
