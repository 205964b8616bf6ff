import Verif.Lemmas.Compute
/-
  C19: the type flags of addresses survive, in every version.
-/
namespace KC
open Spec

/-- C19: all combinations of the seven flags (numbers below 128) survive. -/
theorem C19_flags (E : ToolEnv) (v : Version) (ids : IdKind → Nat → QString) (hinj : ∀ k i j, ids k i = ids k j → i = j) (c : Contact)
    (hR : Readable E v c) (hu : ∀ i, c.uid ≠ ids .contact i) (ht : ∀ a ∈ c.addresses, a.type < 128) :
    ∃ c', WrittenAndRead E v ids c c' ∧ c'.addresses.map (·.type) = c.addresses.map (·.type) := by
  have h := C24_contact E v ids hinj c hR hu
  refine ⟨_, h, ?_⟩
  show (c.addresses.mapIdx _).map _ = _
  apply List.ext_getElem
  · simp
  · intro i _ hi
    have hi : i < c.addresses.length := by simpa using hi
    simp only [List.getElem_map, List.getElem_mapIdx]
    show c.addresses[i].type &&& 127 = _
    rw [show (127 : Nat) = 2 ^ 7 - 1 from rfl, Nat.and_two_pow_sub_one_eq_mod]
    have := ht _ (List.getElem_mem hi)
    omega

/-- Non-vacuity: home and preferred, and work. -/
example (v : Version) : ∃ c', WrittenAndRead Sample.env v Sample.ids Sample.contact c' ∧ c'.addresses.map (·.type) = [80, 32] :=
  C19_flags Sample.env v Sample.ids Sample.ids_inj _ (C24_sample_readable v) C24_sample_uid (by decide)

end KC
