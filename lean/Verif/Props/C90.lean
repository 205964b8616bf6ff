import Verif.Lemmas.Passed
/-
  C90. A contact that is exported and imported several times, each time in any of the three vCard versions, ends up with what all the versions it
  went through can keep: `Contact.passed` (Spec/Passed.lean) tells every field from the set of those versions and the last of them. The order in which
  they were used, and how often, do not matter otherwise.

  Proved for every sequence of versions, of any length, and every contact each of those versions can carry (`Readable`, the class of C24). Keys with a
  type of their own may go through version 4 only last: there their type is lost and what a later export makes of them is another type (C63).
-/
namespace KC
open Spec

/-- The contact `d` comes from `c` by exporting and importing it in the versions `vs`, one after the other, with ids of its own each time. -/
inductive Spec.Passes (E : ToolEnv) : List Version → Contact → Contact → Prop
  | none (c : Contact) : Passes E [] c c
  | more {vs : List Version} {c d d' : Contact} (w : Version) (ids : IdKind → Nat → QString) :
      Passes E vs c d → Round E w ids d d' → Passes E (vs ++ [w]) c d'

/-! ### Proof -/

/-- One export and import, in a version of its own. -/
theorem pass_step {E : ToolEnv} {w : Version} {c : Contact} (h : Readable E w c) {ids : IdKind → Nat → QString}
    (hf : (∀ k i j, ids k i = ids k j → i = j) ∧ ∀ i, c.uid ≠ ids .contact i) :
    Round E w ids c (c.restored E w ids 0 0 0) := ⟨hf, C24_contact E w ids hf.1 c h hf.2⟩

theorem Spec.Passes.start {E : ToolEnv} {vs : List Version} {c d : Contact} (h : Passes E vs c d) (hv : vs = []) : d = c := by
  cases h with
  | none => rfl
  | more => simp at hv

/-- What holds after the versions `vs`. -/
structure After (E : ToolEnv) (vs : List Version) (c d : Contact) : Prop where
  uid : d.uid = c.uid
  groups : Regrouped d.fieldGroups c.fieldGroups ∧ (vs ≠ [] → d.fieldGroups = byField c.fieldGroups)
  content : ∀ last, vs.getLast? = some last → withoutIds d = withoutIds (c.passed E vs last)
  again : (.v4_0 ∈ vs → ∀ k ∈ c.keys, k.type ≠ .custom) → ∀ w, Readable E w c → Readable E w d
  keys : (∀ k ∈ c.keys, k.type ≠ .custom) → ∀ k ∈ d.keys, k.type ≠ .custom

theorem passes_after {E : ToolEnv} {vs : List Version} {c d : Contact} (hp : Passes E vs c d) :
    (∀ v ∈ vs, Readable E v c) → (.v4_0 ∈ vs.dropLast → ∀ k ∈ c.keys, k.type ≠ .custom) → After E vs c d := by
  induction hp with
  | none c => exact fun _ _ => ⟨rfl, ⟨.refl _, fun h => absurd rfl h⟩, fun _ h => (by cases h), fun _ _ h => h, fun h => h⟩
  | @more vs c d d' w ids hp hr ih =>
    intro hR hk
    rw [List.dropLast_concat] at hk
    obtain ⟨hu, hg, hc, ha, hkeys⟩ := ih (fun v hv => hR v (by simp [hv])) fun hv => hk (List.dropLast_subset _ hv)
    have hcw := hR w (by simp)
    have hdw : Readable E w d := ha hk w hcw
    have hr' := pass_step hdw hr.fresh
    cases hr.read.unique hr'.read
    have hg' : byField d.fieldGroups = byField c.fieldGroups := byField_eq hg.1
    refine ⟨hu, ⟨?_, fun _ => hg'⟩, ?_, ?_, ?_⟩
    · show Regrouped (byField d.fieldGroups) c.fieldGroups
      rw [hg']; exact regrouped_byField _
    · intro last hl
      obtain rfl : w = last := by simpa using hl
      show withoutIds { d.restored E w ids 0 0 0 with fieldGroups := byField d.fieldGroups } = _
      cases hlast : vs.getLast? with
      | none =>
        obtain rfl : vs = [] := List.getLast?_eq_none_iff.1 hlast
        cases hp.start rfl
        exact passed_first E w _ ids _
      | some l =>
        rw [restored_same (hc l hlast) ids _]
        exact passed_step hcw vs l ids _
    · intro hk' u hu'
      exact readable_passed (ha hk u hu') (fun hv => hkeys (hk' (by simp [hv]))) ids 0 0 0 _ (regrouped_byField _)
    · intro hall x hx
      obtain ⟨i, hi, rfl⟩ := List.mem_mapIdx.1 (show x ∈ (d.keys.filter Key.hasData).mapIdx fun i x => x.restored w (ids .key (0 + i)) from hx)
      exact hkeys hall ((d.keys.filter Key.hasData)[i]) (List.mem_filter.1 (List.getElem_mem hi)).1

/-! ### Theorems -/

/-- What is left after the versions `vs`, the last of which is `last`. -/
theorem C90_content_partial (E : ToolEnv) (c : Contact) (vs : List Version) (last : Version) (hlast : vs.getLast? = some last)
    (h : ∀ v ∈ vs, Readable E v c) (hk : .v4_0 ∈ vs.dropLast → ∀ k ∈ c.keys, k.type ≠ .custom) (d : Contact) (hp : Passes E vs c d) :
    SameContent d (c.passed E vs last) :=
  have ha := passes_after hp h hk
  ⟨ha.content last hlast, ha.groups.2 (by rintro rfl; cases hlast)⟩

/-- The contact can be exported and imported once more, in any version that can carry the contact it began with. -/
theorem C90_again_partial (E : ToolEnv) (c : Contact) (vs : List Version) (h : ∀ v ∈ vs, Readable E v c)
    (hk : .v4_0 ∈ vs → ∀ k ∈ c.keys, k.type ≠ .custom) (d : Contact) (hp : Passes E vs c d) (w : Version) (hw : Readable E w c)
    (ids : IdKind → Nat → QString) (hf : (∀ k i j, ids k i = ids k j → i = j) ∧ ∀ i, c.uid ≠ ids .contact i) :
    ∃ d', Passes E (vs ++ [w]) c d' := by
  have ha := passes_after hp h fun hv => hk (List.dropLast_subset _ hv)
  have hr := pass_step (ha.again hk w hw) (ids := ids) ⟨hf.1, by rw [ha.uid]; exact hf.2⟩
  exact ⟨_, .more w ids hp hr⟩

/-- Neither the order of the versions before the last one matters, nor how often each was used. -/
theorem C90_order_partial (E : ToolEnv) (c : Contact) (vs ws : List Version) (last : Version) (hv : vs.getLast? = some last) (hw : ws.getLast? = some last)
    (hset : ∀ v, v ∈ vs ↔ v ∈ ws) (h : ∀ v ∈ vs, Readable E v c) (hk : .v4_0 ∈ vs → ∀ k ∈ c.keys, k.type ≠ .custom)
    (d e : Contact) (hd : Passes E vs c d) (he : Passes E ws c e) : SameContent d e := by
  have h1 := C90_content_partial E c vs last hv h (fun h => hk (List.dropLast_subset _ h)) d hd
  have h2 := C90_content_partial E c ws last hw (fun v hv => h v ((hset v).2 hv)) (fun h => hk ((hset _).2 (List.dropLast_subset _ h))) e he
  have hO : ∀ u, Only u vs = Only u ws := fun u => by
    unfold Only
    exact propext ⟨fun h v hv => h v ((hset v).2 hv), fun h v hv => h v ((hset v).1 hv)⟩
  have hm : ∀ u, (u ∈ vs) = (u ∈ ws) := fun u => propext (hset u)
  have e1 : c.passed E vs last = c.passed E ws last := by
    have ha : Address.passed vs = Address.passed ws := by funext a; simp only [Address.passed, hO]
    have hk : Key.passed vs = Key.passed ws := by funext k; simp only [Key.passed, hm]
    simp only [Contact.passed, hO, hm, ha, hk]
  rw [e1] at h1
  exact ⟨h1.1.trans h2.1.symm, h1.2.trans h2.2.symm⟩

/-- Some fields survive every sequence of versions unchanged. -/
theorem C90_kept_partial (E : ToolEnv) (c : Contact) (vs : List Version) (h : ∀ v ∈ vs, Readable E v c)
    (hk : .v4_0 ∈ vs.dropLast → ∀ k ∈ c.keys, k.type ≠ .custom) (d : Contact) (hp : Passes E vs c d) :
    d.uid = c.uid ∧ d.formattedName = c.formattedName ∧ d.familyName = c.familyName ∧ d.givenName = c.givenName ∧ d.additionalName = c.additionalName ∧
      d.prefix_ = c.prefix_ ∧ d.suffix = c.suffix ∧ d.note = c.note ∧ d.revision = c.revision ∧ d.emails = c.emails ∧ d.impps = c.impps ∧
      d.customs = c.customs ∧ d.extraUrls = c.extraUrls ∧ d.sources = c.sources ∧ d.relationships = c.relationships ∧ d.titles = c.titles ∧
      d.roles = c.roles ∧ d.organizations = c.organizations ∧ d.phoneNumbers.map (·.number) = c.phoneNumbers.map (·.number) ∧
      d.addresses.map Address.parts = c.addresses.map Address.parts ∧ d.addresses.map (·.label) = c.addresses.map (·.label) := by
  have ha := passes_after hp h hk
  cases hl : vs.getLast? with
  | none =>
    obtain rfl : vs = [] := List.getLast?_eq_none_iff.1 hl
    cases hp.start rfl
    simp
  | some last =>
    have hw := ha.content last hl
    have hnum : d.phoneNumbers.map (·.number) = c.phoneNumbers.map (·.number) := by
      have := congrArg (fun x : Contact => x.phoneNumbers.map (·.number)) hw
      simpa [withoutIds, Contact.passed, List.map_map, Function.comp_def, PhoneNumber.restored] using this
    have hadr : d.addresses.map Address.parts = c.addresses.map Address.parts := by
      have := congrArg (fun x : Contact => x.addresses.map Address.parts) hw
      simp only [withoutIds, Contact.passed, List.map_map] at this
      exact this
    have hlab : d.addresses.map (·.label) = c.addresses.map (·.label) := by
      have := congrArg (fun x : Contact => x.addresses.map (·.label)) hw
      simpa [withoutIds, Contact.passed, List.map_map, Function.comp_def, Address.passed] using this
    have hf : ∀ {α : Type} (f : Contact → α), f (withoutIds d) = f (withoutIds (c.passed E vs last)) := fun f => congrArg f hw
    exact ⟨hf (·.uid), hf (·.formattedName), hf (·.familyName), hf (·.givenName), hf (·.additionalName), hf (·.prefix_), hf (·.suffix), hf (·.note),
      hf (·.revision), hf (·.emails), hf (·.impps), hf (·.customs), hf (·.extraUrls), hf (·.sources), hf (·.relationships), hf (·.titles), hf (·.roles),
      hf (·.organizations), hnum, hadr, hlab⟩

/-! ### The hypotheses are met -/

/-- The sample contact can go through every sequence of versions, and its uid is never one of the new ids. -/
theorem C90_sample (vs : List Version) : ∃ d, Passes Sample.env vs Sample.contact d := by
  suffices ∀ n (vs : List Version), vs.length = n → ∃ d, Passes Sample.env vs Sample.contact d from this _ vs rfl
  intro n
  induction n with
  | zero => intro vs h; obtain rfl := List.length_eq_zero_iff.1 h; exact ⟨_, .none _⟩
  | succ n ih =>
    intro vs h
    obtain ⟨ws, w, rfl⟩ : ∃ ws w, vs = ws ++ [w] := ⟨vs.dropLast, vs.getLast (by rintro rfl; cases h), (List.dropLast_append_getLast _).symm⟩
    obtain ⟨d, hd⟩ := ih ws (by simpa using h)
    exact C90_again_partial Sample.env Sample.contact ws (fun v _ => C24_sample_readable v) (fun _ => by decide) d hd w (C24_sample_readable w)
      Sample.ids ⟨Sample.ids_inj, C24_sample_uid⟩

/-- From version 4 to 3.0, to 2.1 and back to 4: the gender and the nicknames are lost, the e-mail addresses are not. -/
example : ∃ d, Passes Sample.env [.v4_0, .v3_0, .v2_1, .v4_0] Sample.contact d ∧ d.gender = {} ∧ d.nickNames = [] ∧ d.emails = Sample.contact.emails ∧
    Sample.contact.gender ≠ {} ∧ Sample.contact.nickNames ≠ [] ∧ Sample.contact.emails ≠ [] := by
  obtain ⟨d, hd⟩ := C90_sample [.v4_0, .v3_0, .v2_1, .v4_0]
  have hc := C90_content_partial Sample.env Sample.contact _ .v4_0 rfl (fun v _ => C24_sample_readable v) (fun _ => by decide) d hd
  have he := congrArg Contact.emails hc.1
  exact ⟨d, hd, congrArg Contact.gender hc.1, congrArg Contact.nickNames hc.1, he, by decide, by decide, by decide⟩

end KC
