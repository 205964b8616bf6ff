import Verif.Props.C107
import Verif.Props.C122
import Verif.Model.Names
import Verif.Lemmas.Compute
/- C123: going through a vCard makes no difference to printed addresses. -/
namespace KC
open Spec

private theorem formatted_parts (F : FormatEnv) (a b : Address) (h : a.parts = b.parts) (style : AStyle) (name org : QString) :
    a.formatted F style name org = b.formatted F style name org := by
  simp only [Address.parts, List.cons.injEq, and_true] at h
  obtain ⟨h1, h2, h3, h4, h5, h6, h7⟩ := h
  exact C122_hidden F a b name org name org style h7 h3 h2 h4 (fun _ => Iff.rfl) fun f _ => by cases f <;> simp only [partOf, h1, h5, h6]

/-- **C123.** A contact a version of the vCard format can carry is written as a vCard and read again. Each of its addresses is then printed as before, in every
    style, with any formats, and with any name and organization on it. -/
theorem C123 (E : ToolEnv) (v : Version) (ids : IdKind → Nat → QString) (hinj : ∀ k i j, ids k i = ids k j → i = j) (c : Contact)
    (hR : Readable E v c) (hu : ∀ i, c.uid ≠ ids .contact i) :
    ∃ c', WrittenAndRead E v ids c c' ∧ ∀ (F : FormatEnv) (style : AStyle) (name org : QString),
      c'.addresses.map (fun a => a.formatted F style name org) = c.addresses.map (fun a => a.formatted F style name org) :=
  ⟨_, C24_contact E v ids hinj c hR hu, fun F style name org => map_mapIdx_same _ _ fun i a => formatted_parts F (a.restored v (ids .address (0 + i))) a rfl style name org⟩

private theorem readAs_printed {E : ToolEnv} {v : Version} {ids : IdKind → Nat → QString} {a p k : Nat} {cs cs' : List Contact} (h : ReadAs E v ids a p k cs cs')
    (F : FormatEnv) (style : AStyle) (name org : QString) :
    cs'.map (fun c => c.addresses.map fun a => a.formatted F style name org) = cs.map (fun c => c.addresses.map fun a => a.formatted F style name org) := by
  induction h with
  | nil => rfl
  | @cons a _ _ c _ _ _ h _ ih =>
    rw [List.map_cons, List.map_cons, ih, h]
    congr 1
    exact map_mapIdx_same _ _ fun i x => formatted_parts F (x.restored v (ids .address (a + i))) x rfl style name org

/-- C123 for a file of several contacts. -/
theorem C123_file (E : ToolEnv) (v : Version) (ids : IdKind → Nat → QString) (hinj : ∀ k i j, ids k i = ids k j → i = j) (cs : List Contact)
    (hR : ∀ c ∈ cs, Readable E v c) (hu : ∀ c ∈ cs, ∀ i, c.uid ≠ ids .contact i) :
    ∃ cs', (∃ n, ∀ fuel, n ≤ fuel → parseContacts E ids fuel (createContacts E v false cs) = .ok cs') ∧
      ∀ (F : FormatEnv) (style : AStyle) (name org : QString),
        cs'.map (fun c => c.addresses.map fun a => a.formatted F style name org) = cs.map (fun c => c.addresses.map fun a => a.formatted F style name org) := by
  obtain ⟨cs', h1, h2⟩ := C24_contacts E v ids hinj cs hR hu
  exact ⟨cs', h2, readAs_printed h1⟩

/-- The same with the contact's own name and organization on it. In version 4.0 there is no place for the name that is used when the contact has neither a
    formatted name nor a family name or the like; such a contact must not rest on it. -/
theorem C123_own (E : ToolEnv) (v : Version) (ids : IdKind → Nat → QString) (hinj : ∀ k i j, ids k i = ids k j → i = j) (c : Contact)
    (hR : Readable E v c) (hu : ∀ i, c.uid ≠ ids .contact i) (hn : v = .v4_0 → c.formattedName = [] → c.assembledName = [] → c.name = []) :
    ∃ c', WrittenAndRead E v ids c c' ∧ ∀ (F : FormatEnv) (style : AStyle),
      c'.addresses.map (fun a => a.formatted F style c'.realName (c'.text .organization))
        = c.addresses.map (fun a => a.formatted F style c.realName (c.text .organization)) := by
  refine ⟨_, C24_contact E v ids hinj c hR hu, fun F style => ?_⟩
  have hr : (c.restored E v ids 0 0 0).realName = c.realName := by
    have e1 : (c.restored E v ids 0 0 0).formattedName = c.formattedName := rfl
    have e2 : (c.restored E v ids 0 0 0).assembledName = c.assembledName := rfl
    have e3 : (c.restored E v ids 0 0 0).name = if v = .v4_0 then [] else c.name := rfl
    have e4 : (c.restored E v ids 0 0 0).text .organization = c.text .organization := rfl
    unfold Contact.realName
    rw [e1, e2, e3, e4]
    by_cases hv : v = .v4_0
    · by_cases hf : c.formattedName = []
      · by_cases ha : c.assembledName = []
        · rw [hn hv hf ha]; simp
        · simp [ha]
      · simp [hf]
    · rw [if_neg hv]
  have ho : (c.restored E v ids 0 0 0).text .organization = c.text .organization := rfl
  rw [hr, ho]
  exact map_mapIdx_same _ _ fun i a => formatted_parts F (a.restored v (ids .address (0 + i))) a rfl style _ _

/-- And for the address of a type, for example the one for business letters. -/
theorem C123_type (E : ToolEnv) (v : Version) (ids : IdKind → Nat → QString) (hinj : ∀ k i j, ids k i = ids k j → i = j) (c : Contact)
    (hR : Readable E v c) (hu : ∀ i, c.uid ≠ ids .contact i) (ha : ∀ a ∈ c.addresses, a.empty = false) :
    ∃ c', WrittenAndRead E v ids c c' ∧ ∀ (fresh fresh' : QString) (t : Nat), t ≠ 0 → t &&& 127 = t → ∀ (F : FormatEnv) (style : AStyle) (name org : QString),
      (c'.address fresh' t).formatted F style name org = (c.address fresh t).formatted F style name org := by
  obtain ⟨c', h, hl⟩ := C107_lookup E v ids hinj c hR hu ha
  exact ⟨c', h, fun fresh fresh' t h0 hm F style name org => formatted_parts F _ _ ((hl fresh fresh' t h0).2 hm).1 style name org⟩

/-- A contact whose only name is the one version 4.0 has no place for: its letters lose the name. -/
theorem C123_own_false : ∃ c c', WrittenAndRead Sample.env .v4_0 Sample.ids c c' ∧ c.realName = q! "Ann" ∧ c'.realName ≠ q! "Ann" := by
  obtain ⟨c', h, h2⟩ := oneBack_not (E := Sample.env) (v := .v4_0) (ids := Sample.ids) { uid := q! "u", name := q! "Ann" }
    (fun c' => c'.realName = q! "Ann") (by decide +kernel)
  exact ⟨_, c', h, by decide +kernel, h2⟩

/-- Non-vacuity: the sample contact, in every version, by itself and twice in a file. -/
example (v : Version) : ∃ cs', (∃ n, ∀ fuel, n ≤ fuel →
      parseContacts Sample.env Sample.ids fuel (createContacts Sample.env v false [Sample.contact, Sample.contact]) = .ok cs') ∧
    cs'.map (fun c => c.addresses.map fun a => a.formatted sampleFormatEnv .postal [] []) =
      [Sample.contact, Sample.contact].map (fun c => c.addresses.map fun a => a.formatted sampleFormatEnv .postal [] []) := by
  obtain ⟨cs', h, e⟩ := C123_file Sample.env v Sample.ids Sample.ids_inj [Sample.contact, Sample.contact]
    (by intro c hc; simp at hc; subst hc; exact C24_sample_readable v) (by intro c hc; simp at hc; subst hc; exact C24_sample_uid)
  exact ⟨cs', h, e _ _ _ _⟩

example (v : Version) : ∃ c', WrittenAndRead Sample.env v Sample.ids Sample.contact c' ∧
    c'.addresses.map (fun a => a.formatted sampleFormatEnv .postal (q! "Ann") (q! "KDE"))
      = Sample.contact.addresses.map (fun a => a.formatted sampleFormatEnv .postal (q! "Ann") (q! "KDE")) ∧ Sample.contact.addresses.length = 2 := by
  obtain ⟨c', h, e⟩ := C123 Sample.env v Sample.ids Sample.ids_inj Sample.contact (C24_sample_readable v) C24_sample_uid
  exact ⟨c', h, e _ _ _ _, by decide⟩

example (v : Version) : v = .v4_0 → Sample.contact.formattedName = [] → Sample.contact.assembledName = [] → Sample.contact.name = [] :=
  fun _ h => absurd h (by decide)

example : ∀ a ∈ Sample.contact.addresses, a.empty = false := by decide

end KC
