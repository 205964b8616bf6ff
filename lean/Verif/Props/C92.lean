import Verif.Props.C24
/-
  C92. vCard files that were exported in different versions can be joined: every contact of every file is read, in order, and as well as from its own
  file; its version decides for each card, not for the whole text.
-/
namespace KC
open Spec

/-- An exported file: its version and its contacts. -/
structure Spec.Export where
  version : Version
  contacts : List Contact

/-- All contacts of some files, each with the version it was written in. -/
def Spec.allContacts (files : List Export) : List (Version × Contact) := files.flatMap fun f => f.contacts.map fun c => (f.version, c)

/-- The contacts `cs'` are those of `l` read back in order, each as its version allows (`Contact.restored`); the new ids of addresses, phone numbers and
    keys are counted from `a`, `p`, `k` through all of them. -/
inductive Spec.EachReadAs (E : ToolEnv) (ids : IdKind → Nat → QString) : Nat → Nat → Nat → List (Version × Contact) → List Contact → Prop
  | nil {a p k : Nat} : EachReadAs E ids a p k [] []
  | cons {a p k : Nat} {v : Version} {c : Contact} {l : List (Version × Contact)} {cs' : List Contact} :
      EachReadAs E ids (a + c.addresses.length) (p + c.phoneNumbers.length) (k + (c.keys.filter Key.hasData).length) l cs' →
      EachReadAs E ids a p k ((v, c) :: l) (c.restored E v ids a p k :: cs')

/-! ### Proof -/

theorem readCards_mixed {E : ToolEnv} (ids : IdKind → Nat → QString) (hinj : ∀ k i j, ids k i = ids k j → i = j) (l : List (Version × Contact))
    (hR : ∀ x ∈ l, Readable E x.1 x.2) (hu : ∀ x ∈ l, ∀ i, x.2.uid ≠ ids .contact i) (n a p k : Nat) :
    ∃ cs', readCards E ids n a p k (l.map fun x => cardAfter (writtenBack (contactLines E x.1 false x.2))) = some cs' ∧ EachReadAs E ids a p k l cs' := by
  induction l generalizing n a p k with
  | nil => exact ⟨[], rfl, .nil⟩
  | cons x l ih =>
    obtain ⟨v, c⟩ := x
    have hRc : Readable E v c := hR (v, c) (by simp)
    obtain ⟨h1, h3, h4, h5, h6⟩ := back_contact hRc.carriable ids hinj (ids .contact n) (hu (v, c) (by simp) n)
      { c := Contact.new (ids .contact n), addresses := a, phones := p, keys := k } rfl rfl
    rw [hRc.restored_merged] at h1
    obtain ⟨cs', e, hcs⟩ := ih (fun x hx => hR x (by simp [hx])) (fun x hx => hu x (by simp [hx])) (n + 1) (a + c.addresses.length) (p + c.phoneNumbers.length)
      (k + (c.keys.filter Key.hasData).length)
    refine ⟨_ :: cs', ?_, .cons hcs⟩
    rw [List.map_cons, readCards]
    change (if (back E v ids c _).ub then none else (readCards E ids (n + 1) (back E v ids c _).addresses (back E v ids c _).phones (back E v ids c _).keys _).map _) = _
    rw [h6, h3, h4, h5]
    change Option.map _ (readCards E ids (n + 1) (a + c.addresses.length) (p + c.phoneNumbers.length) (k + (c.keys.filter Key.hasData).length) _) = _
    rw [e, ← h1]
    rfl

theorem joined_text (E : ToolEnv) (files : List Export) : (files.flatMap fun f => createContacts E f.version false f.contacts) =
    createVCardText E.toCodecs ((allContacts files).map fun x => cardAfter (contactLines E x.1 false x.2)) := by
  unfold allContacts createVCardText
  induction files with
  | nil => rfl
  | cons f files ih =>
    rw [List.flatMap_cons, List.flatMap_cons, List.map_append, List.flatMap_append, ← ih]
    congr 1
    unfold createContacts createVCardText
    rw [List.map_map]
    rfl

/-! ### Theorem -/

/-- C92: any number of files, each with any number of contacts its version can carry (`Readable`), joined to one text. -/
theorem C92 (E : ToolEnv) (ids : IdKind → Nat → QString) (hinj : ∀ k i j, ids k i = ids k j → i = j) (files : List Export)
    (hR : ∀ f ∈ files, ∀ c ∈ f.contacts, Readable E f.version c) (hu : ∀ f ∈ files, ∀ c ∈ f.contacts, ∀ i, c.uid ≠ ids .contact i) :
    ∃ cs', EachReadAs E ids 0 0 0 (allContacts files) cs' ∧
      ∃ n, ∀ fuel, n ≤ fuel → parseContacts E ids fuel (files.flatMap fun f => createContacts E f.version false f.contacts) = .ok cs' := by
  have hmem : ∀ x ∈ allContacts files, ∃ f ∈ files, x.1 = f.version ∧ x.2 ∈ f.contacts := by
    intro x hx
    obtain ⟨f, hf, hx⟩ := List.mem_flatMap.1 hx
    obtain ⟨c, hc, rfl⟩ := List.mem_map.1 hx
    exact ⟨f, hf, rfl, hc⟩
  have hR' : ∀ x ∈ allContacts files, Readable E x.1 x.2 := by
    intro x hx
    obtain ⟨f, hf, e, hc⟩ := hmem x hx
    rw [e]; exact hR f hf _ hc
  obtain ⟨cs', e, h⟩ := readCards_mixed ids hinj (allContacts files) hR' (fun x hx => by
    obtain ⟨f, hf, -, hc⟩ := hmem x hx
    exact hu f hf _ hc) 0 0 0 0
  refine ⟨cs', h, (physLines (files.flatMap fun f => createContacts E f.version false f.contacts)).length + 2, fun fuel hf => ?_⟩
  rw [joined_text] at hf ⊢
  have hr := reads_text E.toCodecs readBack ((allContacts files).map fun x => cardAfter (contactLines E x.1 false x.2)) (by
    intro card hc l hl
    obtain ⟨x, hx, rfl⟩ := List.mem_map.1 hc
    exact lineFine_reads _ _ (fine_all (hR' x hx).carriable l (mem_flatMap_lines _ _ _ hl)))
  have hp := parseVCards_of_readText E.toCodecs _ _ hr fuel hf
  unfold parseContacts
  rw [hp, List.map_map]
  simp only
  change (match readCards E ids 0 0 0 0 ((allContacts files).map fun x => cardAfter (writtenBack (contactLines E x.1 false x.2))) with | none => Outcome.undefined | some cs => Outcome.ok cs) = _
  rw [e]

/-! ### The hypotheses are met: files in all three versions -/

example : ∃ cs', EachReadAs Sample.env Sample.ids 0 0 0
      [(.v4_0, Sample.contact), (.v4_0, Sample.contact), (.v2_1, Sample.contact), (.v3_0, Sample.contact)] cs' ∧
    ∃ n, ∀ fuel, n ≤ fuel → parseContacts Sample.env Sample.ids fuel (createContacts Sample.env .v4_0 false [Sample.contact, Sample.contact] ++
      (createContacts Sample.env .v2_1 false [Sample.contact] ++ (createContacts Sample.env .v3_0 false [Sample.contact] ++ []))) = .ok cs' :=
  C92 Sample.env Sample.ids Sample.ids_inj [⟨.v4_0, [Sample.contact, Sample.contact]⟩, ⟨.v2_1, [Sample.contact]⟩, ⟨.v3_0, [Sample.contact]⟩]
    (by simpa using ⟨C24_sample_readable _, C24_sample_readable _, C24_sample_readable _⟩) (by simpa using C24_sample_uid)

end KC
