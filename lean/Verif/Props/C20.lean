import Verif.Lemmas.Compute
import Verif.Lemmas.MergeParts
/-
  C20: names and addresses survive a vCard. Holds for components without a trailing backslash that are texts a vCard can carry.
-/
namespace KC
open Spec

/-- C20: family, given, additional name, prefix and suffix; and of each address, in order, post office box, extended address, street,
    locality, region, postal code and country. -/
theorem C20_partial (E : ToolEnv) (v : Version) (ids : IdKind → Nat → QString) (hinj : ∀ k i j, ids k i = ids k j → i = j) (c : Contact)
    (hR : Readable E v c) (hu : ∀ i, c.uid ≠ ids .contact i) :
    ∃ c', WrittenAndRead E v ids c c' ∧
      c'.familyName = c.familyName ∧ c'.givenName = c.givenName ∧ c'.additionalName = c.additionalName ∧ c'.prefix_ = c.prefix_ ∧ c'.suffix = c.suffix ∧
      c'.addresses.map (fun a => (a.postOfficeBox, a.extended, a.street, a.locality, a.region, a.postalCode, a.country, a.label)) =
        c.addresses.map (fun a => (a.postOfficeBox, a.extended, a.street, a.locality, a.region, a.postalCode, a.country, a.label)) := by
  have h := C24_contact E v ids hinj c hR hu
  refine ⟨_, h, rfl, rfl, rfl, rfl, rfl, ?_⟩
  exact map_mapIdx_same _ _ fun i a => rfl

/-- Non-vacuity: a family name and a street with semicolons. -/
example (v : Version) : ∃ c', WrittenAndRead Sample.env v Sample.ids Sample.contact c' ∧ c'.familyName = q! "Lee;Roe" ∧
    c'.addresses.map (·.street) = [q! "Main; Street", []] := by
  obtain ⟨c', h, h1, -, -, -, -, h2⟩ := C20_partial Sample.env v Sample.ids Sample.ids_inj _ (C24_sample_readable v) C24_sample_uid
  refine ⟨c', h, h1, ?_⟩
  have := congrArg (List.map fun x => x.2.2.1) h2
  rw [List.map_map, List.map_map] at this
  exact this

/-! ### any components -/

private theorem one_of {E : ToolEnv} {v : Version} {ids : IdKind → Nat → QString} {c d : Contact}
    (h : ∃ cs', ReadAs E v ids 0 0 0 [d] cs' ∧ ∀ fuel, (physLines (createContacts E v false [c])).length + 2 ≤ fuel →
      parseContacts E ids fuel (createContacts E v false [c]) = .ok cs') :
    ∃ c', WrittenAndRead E v ids c c' ∧ c' = d.restored E v ids 0 0 0 := by
  obtain ⟨cs', h1, h2⟩ := h
  cases h1 with
  | @cons _ _ _ _ c' _ _ b d => cases d; exact ⟨c', ⟨_, h2⟩, b⟩

private theorem parts_restored {E : ToolEnv} {v : Version} {ids : IdKind → Nat → QString} {d c' : Contact}
    (h : c' = d.merged.restored E v ids 0 0 0) :
    c'.nameParts = inPlaces 5 (merged (qc! ';') d.nameParts) ∧ c'.addresses.map Address.parts = d.addresses.map fun a => inPlaces 7 (merged (qc! ';') a.parts) := by
  constructor
  · rw [h]; rfl
  · rw [h]
    show ((d.addresses.map Address.merged).mapIdx _).map _ = _
    refine (map_mapIdx_same Address.parts _ (fun i a => ?_)).trans ?_
    · rfl
    · rw [List.map_map]; rfl

/-- C20 for components with backslashes at their ends, in every version: the name is read as its components after merging, and so is, in
    order, each address that has a component. -/
theorem C20_merged (E : ToolEnv) (v : Version) (ids : IdKind → Nat → QString) (hinj : ∀ k i j, ids k i = ids k j → i = j) (c : Contact)
    (hR : Carriable E v (c.written v)) (hu : ∀ i, c.uid ≠ ids .contact i) :
    ∃ c', WrittenAndRead E v ids c c' ∧ c'.nameParts = inPlaces 5 (merged (qc! ';') c.nameParts) ∧
      c'.addresses.map Address.parts = (c.addresses.filter fun a => a.parts.any (· ≠ [])).map fun a => inPlaces 7 (merged (qc! ';') a.parts) := by
  obtain ⟨c', h, e⟩ := one_of (parseContacts_written ids hinj [c] (by simpa using hR) (by simpa using hu))
  obtain ⟨h1, h2⟩ := parts_restored e
  exact ⟨c', h, h1, by rw [h2, address_filter hR]⟩

/-- C20 for any texts, in version 3.0 and 4.0. -/
theorem C20_texts (E : ToolEnv) (v : Version) (hv : v ≠ .v2_1) (ids : IdKind → Nat → QString) (hinj : ∀ k i j, ids k i = ids k j → i = j) (c : Contact)
    (hR : Carriable E v ((c.carried v).written v)) (hu : ∀ i, carried c.uid ≠ ids .contact i) :
    ∃ c', WrittenAndRead E v ids c c' ∧ c'.nameParts = inPlaces 5 (merged (qc! ';') (c.nameParts.map carried)) ∧
      c'.addresses.map Address.parts = (c.addresses.filter fun a => a.parts.any (· ≠ [])).map fun a => inPlaces 7 (merged (qc! ';') (a.parts.map carried)) := by
  obtain ⟨c', h, e⟩ := one_of (parseContacts_any hv ids hinj [c] (by simpa using hR) (by simpa using hu))
  obtain ⟨h1, h2⟩ := parts_restored e
  refine ⟨c', h, h1, ?_⟩
  rw [h2, address_filter hR]
  exact carried_filter v c

/-- The components that survive: none but the last ends in a backslash, and each is well-formed without a backslash before n, N or r. -/
def Survive (parts : List QString) : Prop :=
  (∀ s ∈ parts.dropLast, s.getLast? ≠ some (qc! '\\')) ∧ ∀ s ∈ parts, WellFormed s ∧ ∀ pre post u, s = pre ++ qc! '\\' :: u :: post → u ≠ qc! 'n' ∧ u ≠ qc! 'N' ∧ u ≠ qc! 'r'

private theorem survive_iff (n : Nat) (parts : List QString) (h : parts.length = n) : inPlaces n (merged (qc! ';') (parts.map carried)) = parts ↔ Survive parts := by
  rw [filled_carried_iff _ (by decide) n parts h]
  unfold Survive
  refine and_congr_right fun _ => forall₂_congr fun s _ => ?_
  rw [safe16_iff]
  constructor
  · intro h; rw [← h]; exact ⟨wf_carried _ _, (chain_carried _ _).1⟩
  · rintro ⟨h1, h2⟩; exact carried_plain h1 h2

/-- C20, exact in version 3.0 and 4.0, for every contact whose texts are any: the five components of the name come back if and only if they
    are such that `Survive`; the components of the addresses if and only if each address has a component and its components `Survive`. -/
theorem C20_iff (E : ToolEnv) (v : Version) (hv : v ≠ .v2_1) (ids : IdKind → Nat → QString) (hinj : ∀ k i j, ids k i = ids k j → i = j) (c : Contact)
    (hR : Carriable E v ((c.carried v).written v)) (hu : ∀ i, carried c.uid ≠ ids .contact i) :
    ∃ c', WrittenAndRead E v ids c c' ∧ (c'.nameParts = c.nameParts ↔ Survive c.nameParts) ∧
      (c'.addresses.map Address.parts = c.addresses.map Address.parts ↔ ∀ a ∈ c.addresses, (∃ s ∈ a.parts, s ≠ []) ∧ Survive a.parts) := by
  obtain ⟨c', h, h1, h2⟩ := C20_texts E v hv ids hinj c hR hu
  refine ⟨c', h, by rw [h1]; exact survive_iff 5 _ rfl, ?_⟩
  rw [h2]
  have hany : ∀ a : Address, a.parts.any (· ≠ []) = true ↔ ∃ s ∈ a.parts, s ≠ [] := fun a => by simp [List.any_eq_true]
  constructor
  · intro e
    have hl : (c.addresses.filter fun a => a.parts.any (· ≠ [])) = c.addresses := by
      have := congrArg List.length e
      rw [List.length_map, List.length_map] at this
      exact List.filter_sublist.eq_of_length this
    rw [hl] at e
    intro a ha
    have ha' := ha
    rw [← hl] at ha'
    refine ⟨(hany a).1 (List.mem_filter.1 ha').2, ?_⟩
    exact (survive_iff 7 _ rfl).1 (List.map_inj_left.1 e a ha)
  · intro hs
    rw [List.filter_eq_self.2 fun a ha => (hany a).2 (hs a ha).1]
    exact List.map_congr_left fun a ha => (survive_iff 7 _ rfl).2 (hs a ha).2

/-- Non-vacuity: the given name becomes a part of the family name; the street with a semicolon comes back. -/
example (v : Version) : ∃ c', WrittenAndRead Sample.env v Sample.ids ending c' ∧ c'.nameParts.take 2 = [q! "A;B", ending.additionalName] ∧ c'.addresses.map (·.street) = [q! "Main; Street", []] := by
  obtain ⟨c', h, h1, h2⟩ := C20_merged Sample.env v Sample.ids Sample.ids_inj ending (C24_ending_carriable v) C24_sample_uid
  refine ⟨c', h, by rw [h1]; decide, ?_⟩
  have := congrArg (List.map fun x : List QString => x.getD 2 []) h2
  rw [List.map_map] at this
  exact this.trans (by decide +kernel)

/-- Non-vacuity: in version 3.0 and 4.0 the name of that contact does not come back, nor do its addresses, of which one is lost. -/
example (v : Version) (hv : v ≠ .v2_1) : ∃ c', WrittenAndRead Sample.env v Sample.ids ending c' ∧ c'.nameParts ≠ ending.nameParts ∧
    c'.addresses.map Address.parts ≠ ending.addresses.map Address.parts := by
  have e : ending.carried v = ending := by cases v <;> decide +kernel
  obtain ⟨c', h, h1, h2⟩ := C20_iff Sample.env v hv Sample.ids Sample.ids_inj ending (by rw [e]; exact C24_ending_carriable v) C24_sample_uid
  refine ⟨c', h, fun x => ?_, fun x => ?_⟩
  · exact (h1.1 x).1 (q! "A\\") (by decide) (by decide)
  · obtain ⟨⟨s, hs, hne⟩, -⟩ := h2.1 x { empty := false, id := q! "x", type := 16 } (by decide)
    revert hne
    have : ∀ s ∈ (Address.parts { empty := false, id := q! "x", type := 16 }), s = [] := by decide
    exact fun hne => hne (this s hs)

/-- C20 is false for every content: a backslash at the end of the family name takes the given name into the family name. -/
theorem C20_false : ∃ c c', WrittenAndRead Sample.env .v3_0 Sample.ids c c' ∧ c.familyName = q! "A\\" ∧ c.givenName = q! "B" ∧
    c'.familyName = q! "A;B" ∧ c'.givenName = [] := by
  obtain ⟨c', h, h2⟩ := oneBack_not (E := Sample.env) (v := .v3_0) (ids := Sample.ids) { uid := q! "u", familyName := q! "A\\", givenName := q! "B" }
    (fun c' => ¬ (c'.familyName = q! "A;B" ∧ c'.givenName = [])) (by decide +kernel)
  exact ⟨_, c', h, rfl, rfl, not_not.1 h2⟩

/-- And for a backslash before the letter n, which is read as a line feed. -/
theorem C20_newline_false : ∃ c c', WrittenAndRead Sample.env .v3_0 Sample.ids c c' ∧ c.familyName = q! "A\\n" ∧ c'.familyName ≠ c.familyName := by
  obtain ⟨c', h, h2⟩ := oneBack_not (E := Sample.env) (v := .v3_0) (ids := Sample.ids) { uid := q! "u", familyName := q! "A\\n" }
    (fun c' => c'.familyName = q! "A\\n") (by decide +kernel)
  exact ⟨_, c', h, rfl, h2⟩

/-- An address without any component is not written. -/
theorem C20_empty_address_false : ∃ c c', WrittenAndRead Sample.env .v3_0 Sample.ids c c' ∧ c.addresses.length = 1 ∧ c'.addresses.length ≠ 1 := by
  obtain ⟨c', h, h2⟩ := oneBack_not (E := Sample.env) (v := .v3_0) (ids := Sample.ids) { uid := q! "u", addresses := [{ empty := false, id := q! "x", type := 16 }] }
    (fun c' => c'.addresses.length = 1) (by decide +kernel)
  exact ⟨_, c', h, rfl, h2⟩

end KC
