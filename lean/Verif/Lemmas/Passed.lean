import Verif.Props.C63
import Verif.Spec.Passed
/-
  Lemmas for C90: a contact read back in one version, written in another.
-/
namespace KC
open Spec

theorem coded_nil (E : Codecs) (v : Version) : CodedText E v [] := coded_plain (by decide) SafeText.nil

theorem compound_nil (E : Codecs) (v : Version) (sep : UInt16) : Compound E v sep [] := by
  refine ⟨by simp, ?_⟩
  rw [if_neg (by simp)]
  simp

theorem addressOK_passed {E : ToolEnv} {v w : Version} {a : Address} (id : QString) (h : AddressOK E w a) : AddressOK E w (a.restored v id) := by
  refine ⟨h.some, h.parts, h.label, h.label4, fun hv hg => ?_⟩
  have hg' : (if v = .v4_0 ∧ a.geo.isValid = true then a.geo else {}).isValid = true := hg
  by_cases hc : v = .v4_0 ∧ a.geo.isValid = true
  · have e : (a.restored v id).geo = a.geo := if_pos hc
    rw [e]; exact h.geo hv hc.2
  · rw [if_neg hc] at hg'; cases hg'

theorem keyOK_passed {v w : Version} {k : Key} (id : QString) (hc : v = .v4_0 → k.type ≠ .custom) (h : KeyOK w k) : KeyOK w (k.restored v id) := by
  refine ⟨h.binary, fun hb => ?_, fun ht => ?_⟩
  · show SafeText (if k.isBinary then [] else k.textData)
    rw [show k.isBinary = false from hb]
    exact h.text hb
  · have ht' : k.type = .custom := ht
    have hv : v ≠ .v4_0 := fun hv => hc hv ht'
    have e : (k.restored v id).customTypeString = k.customTypeString := if_pos ⟨ht', hv⟩
    rw [e]
    exact h.type ht'

/-- A contact read back in one version can be written again. -/
theorem readable_passed {E : ToolEnv} {v w : Version} {c : Contact} (h : Readable E w c) (hk : v = .v4_0 → ∀ k ∈ c.keys, k.type ≠ .custom)
    (ids : IdKind → Nat → QString) (a p k : Nat) (g : List FieldGroup) (hg : Regrouped g c.fieldGroups) :
    Readable E w { c.restored E v ids a p k with fieldGroups := g } := by
  refine
  { uid := h.uid
    formattedName := h.formattedName
    note := h.note
    mailer := fun hv => ?_
    name := fun hv => ?_
    nameParts := h.nameParts
    sortString := fun hv => ?_
    sortAs := fun hv => ?_
    productId := fun hv => ?_
    birthday := ?_
    revision := h.revision
    deathDate := fun hv => ?_
    timeZone := ?_
    geo := ?_
    categories := fun hv => ?_
    addresses := ?_
    labels := fun hv => ?_
    phoneNumbers := ?_
    emails := h.emails
    organizations := ?_
    titles := h.titles
    roles := h.roles
    nickNames := fun hv => ?_
    relationships := h.relationships
    langs := fun hv => ?_
    clientPidMaps := fun hv => ?_
    members := fun hv => ?_
    sources := h.sources
    extraUrls := h.extraUrls
    impps := h.impps
    calendarUrls := fun hv => ?_
    gender := fun hv => ?_
    kind := fun hv => ?_
    keys := ?_
    pictures := ?_
    sounds := ?_
    fieldGroups := fun x hx => h.fieldGroups x (hg.mem_iff.1 hx)
    customs := h.customs }
  · show CodedText _ w (if v = .v4_0 then [] else c.mailer)
    split
    · exact coded_nil _ _
    · exact h.mailer hv
  · show CodedText _ w (if v = .v4_0 then [] else c.name)
    split
    · exact coded_nil _ _
    · exact h.name hv
  · show SafeText (if v = .v2_1 then [] else c.sortString)
    split
    · exact SafeText.nil
    · exact h.sortString hv
  · show (if v = .v2_1 then [] else c.sortString) ≠ [] → ParamOK _ (if v = .v2_1 then [] else c.sortString)
    split
    · intro hn; exact absurd rfl hn
    · exact h.sortAs hv
  · show SafeText (if v = .v2_1 then [] else c.productId)
    split
    · exact SafeText.nil
    · exact h.productId hv
  · intro x hx
    have hx' : (if c.birthdayWithTime then c.birthday else c.birthday.dateOnly) = some x := hx
    show DateOK x.date ∧ ((c.birthday.isSome && c.birthdayWithTime) = true → TimeOK x.time x.zone)
    cases hw : c.birthdayWithTime with
    | true =>
      rw [hw] at hx'
      have := h.birthday x hx'
      exact ⟨this.1, fun _ => this.2 hw⟩
    | false =>
      rw [hw] at hx'
      cases hb : c.birthday with
      | none => rw [hb] at hx'; cases hx'
      | some y =>
        rw [hb] at hx'
        have e : x = { date := y.date, time := (0, 0, 0, 0), zone := none } := by
          have : some { date := y.date, time := (0, 0, 0, 0), zone := none } = some x := hx'
          exact (Option.some.inj this).symm
        refine ⟨?_, fun h => by simp at h⟩
        rw [e]; exact (h.birthday y hb).1
  · show DateTimeOK (if v = .v4_0 then c.deathDate else none)
    split
    · exact h.deathDate hv
    · intro x hx; cases hx
  · show (if c.timeZone.isValid then c.timeZone else {}).isValid = true → _
    intro hz
    by_cases hv : c.timeZone.isValid = true
    · show -6000 < (if c.timeZone.isValid then c.timeZone else {}).offset ∧ (if c.timeZone.isValid then c.timeZone else {}).offset < 6000
      rw [if_pos hv]; exact h.timeZone hv
    · rw [if_neg hv] at hz; cases hz
  · show (if c.geo.isValid then c.geo else {}).isValid = true → PositionOK E E.toFloat (if c.geo.isValid then c.geo else {})
    intro hz
    by_cases hv : c.geo.isValid = true
    · rw [if_pos hv]; exact h.geo hv
    · rw [if_neg hv] at hz; cases hz
  · show (if v = .v2_1 then [] else c.categories) ≠ [[]] ∧ Compound _ w _ (if v = .v2_1 then [] else c.categories)
    split
    · exact ⟨by simp, compound_nil _ _ _⟩
    · exact h.categories hv
  · intro x hx
    obtain ⟨i, hi, rfl⟩ := List.mem_mapIdx.1 (show x ∈ c.addresses.mapIdx fun i x => x.restored v (ids .address (a + i)) from hx)
    exact addressOK_passed _ (h.addresses _ (List.getElem_mem hi))
  · show (c.addresses.mapIdx fun i x => x.restored v (ids .address (a + i))).Pairwise _
    have hp := List.pairwise_iff_getElem.1 (h.labels hv)
    apply List.pairwise_iff_getElem.2
    intro i j hi hj hij
    simp only [List.getElem_mapIdx]
    intro hnamed
    have hn : ∀ (x : Address) (id : QString), (x.restored v id).named = x.named := fun x id => by simp [Address.restored, Address.named, Nat.and_assoc]
    rw [hn, hn] at hnamed
    exact hp i j (by simpa using hi) (by simpa using hj) hij hnamed
  · intro x hx
    obtain ⟨i, hi, rfl⟩ := List.mem_mapIdx.1 (show x ∈ c.phoneNumbers.mapIdx fun i x => x.restored v (ids .phone (p + i)) from hx)
    have := h.phoneNumbers _ (List.getElem_mem hi)
    exact ⟨this.number, by rw [PhoneNumber.restored_params]; exact this.params⟩
  · intro o ho
    have ho' : o ∈ c.organizations := ho
    have hne : c.organizations ≠ [] := by intro e; rw [e] at ho'; cases ho'
    have e : (if c.organizations = [] then [] else c.department) = c.department := if_neg hne
    show TextOK o ∧ _ ∧ Compound _ w _ (if (if c.organizations = [] then [] else c.department) = [] then [o.text] else
      [o.text, if c.organizations = [] then [] else c.department]) ∧ (w = .v2_1 → PlainAscii o.text ∧ PlainAscii (if c.organizations = [] then [] else c.department))
    rw [e]
    exact h.organizations o ho'
  · show ∀ t ∈ (if v = .v2_1 then [] else c.nickNames), TextOK t
    split
    · intro t ht; cases ht
    · exact h.nickNames hv
  · show (∀ t ∈ (if v = .v4_0 then c.langs else []), _) ∧ ((if v = .v4_0 then c.langs else []).map (·.text)).Nodup
    split
    · exact h.langs hv
    · exact ⟨fun t ht => (by cases ht), List.nodup_nil⟩
  · show ∀ t ∈ (if v = .v4_0 then c.clientPidMaps else []), TextOK t
    split
    · exact h.clientPidMaps hv
    · intro t ht; cases ht
  · show (∀ m ∈ (if v = .v4_0 ∧ toLowerQ c.kind = q! "group" then c.members else []), _) ∧ (if v = .v4_0 ∧ toLowerQ c.kind = q! "group" then c.members else []).Nodup
    split
    · exact h.members hv
    · exact ⟨fun m hm => (by cases hm), List.nodup_nil⟩
  · show ∀ u ∈ (if v = .v4_0 then c.calendarUrls.filter (·.type = 3) ++ c.calendarUrls.filter (·.type = 2) ++ c.calendarUrls.filter (·.type = 1) else []), _
    split
    · intro u hu
      refine h.calendarUrls hv u ?_
      simp only [List.mem_append, List.mem_filter] at hu
      rcases hu with (hu | hu) | hu <;> exact hu.1
    · intro u hu; cases hu
  · show (if v = .v4_0 then c.gender else {}).gender.length ≤ 1 ∧ (if v = .v4_0 then c.gender else {}).gender ≠ _ ∧ SafeText (if v = .v4_0 then c.gender else {}).gender ∧
      SafeText ((if v = .v4_0 then c.gender else {}).gender ++ qc! ';' :: (if v = .v4_0 then c.gender else {}).comment)
    split
    · exact h.gender hv
    · exact ⟨by decide, by decide, SafeText.nil, asciiSafe_safe (by decide)⟩
  · show SafeText (if v = .v4_0 then c.kind else [])
    split
    · exact h.kind hv
    · exact SafeText.nil
  · intro x hx hd
    obtain ⟨i, hi, rfl⟩ := List.mem_mapIdx.1 (show x ∈ (c.keys.filter Key.hasData).mapIdx fun i x => x.restored v (ids .key (k + i)) from hx)
    have hm := List.getElem_mem hi
    have hm2 := List.mem_filter.1 hm
    exact keyOK_passed _ (fun hv => hk hv _ hm2.1) (h.keys _ hm2.1 hm2.2)
  · intro x hx
    have hx2 : PictureOK E w x := by
      rcases List.mem_append.1 hx with hx | hx
      · exact pictures_restored c.logo c.extraLogos (fun p hp => h.pictures p (List.mem_append_left _ hp)) x hx
      · exact pictures_restored c.photo c.extraPhotos (fun p hp => h.pictures p (List.mem_append_right _ hp)) x hx
    split
    · exact hx2
    · exact fun _ => hx2
  · intro x hx hne
    have hall : ∀ s ∈ (if v = .v4_0 then [] else ((c.sound :: c.extraSounds).filter fun x => !x.isEmpty).map Sound.restored), SoundOK w s := by
      intro s hs
      split at hs
      · cases hs
      · obtain ⟨q, hq, rfl⟩ := List.mem_map.1 hs
        obtain ⟨hq1, hq2⟩ := List.mem_filter.1 hq
        exact soundOK_restored (h.sounds q hq1 (by simpa using hq2))
    have hx' : x ∈ (if v = .v4_0 then [] else ((c.sound :: c.extraSounds).filter fun x => !x.isEmpty).map Sound.restored).headD {} ::
      (if v = .v4_0 then [] else ((c.sound :: c.extraSounds).filter fun x => !x.isEmpty).map Sound.restored).tail := hx
    generalize (if v = .v4_0 then [] else ((c.sound :: c.extraSounds).filter fun x => !x.isEmpty).map Sound.restored) = L at hall hx'
    cases L with
    | nil => simp at hx'; subst hx'; cases hne
    | cons q t => exact hall x (by simpa using hx')



theorem restored_without (E : ToolEnv) (v : Version) (ids : IdKind → Nat → QString) (c : Contact) (g : List FieldGroup) :
    withoutIds { (withoutIds c).restored E v ids 0 0 0 with fieldGroups := g } = withoutIds { c.restored E v ids 0 0 0 with fieldGroups := g } := by
  unfold withoutIds Contact.restored
  simp only [Contact.mk.injEq, true_and, and_true]
  refine ⟨?_, ?_, ?_⟩
  · apply List.ext_getElem
    · simp
    · intro i _ _; simp only [List.getElem_map, List.getElem_mapIdx]; rfl
  · apply List.ext_getElem
    · simp
    · intro i _ _; simp only [List.getElem_map, List.getElem_mapIdx]; rfl
  · have : (c.keys.map fun k => { k with id := [] }).filter Key.hasData = (c.keys.filter Key.hasData).map fun k => { k with id := [] } := by
      rw [List.filter_map]; rfl
    rw [this]
    apply List.ext_getElem
    · simp
    · intro i _ _; simp only [List.getElem_map, List.getElem_mapIdx]; rfl

theorem restored_same {E : ToolEnv} {v : Version} {c d : Contact} (h : withoutIds c = withoutIds d) (ids : IdKind → Nat → QString) (g : List FieldGroup) :
    withoutIds { c.restored E v ids 0 0 0 with fieldGroups := g } = withoutIds { d.restored E v ids 0 0 0 with fieldGroups := g } := by
  rw [← restored_without, h, restored_without]

theorem PhoneNumber.restored_passed (v w : Version) (id id' : QString) (p : PhoneNumber) :
    (p.restored v id).restored w id' = p.restored w id' := by
  have hn := PhoneNumber.named_restored v id p
  have hp := PhoneNumber.restored_params v id p
  have ht : typeNames phoneTypes (p.restored v id).type = typeNames phoneTypes p.type := by
    rw [← typeNames_named (p.restored v id).type, ← typeNames_named p.type]
    exact congrArg _ hn
  show PhoneNumber.mk _ _ _ _ = PhoneNumber.mk _ _ _ _
  rw [hn, hp, ht]
  rfl

theorem all_one {w u : Version} : Only u [w] ↔ w = u := by simp [Only]

theorem all_snoc {vs : List Version} {w u : Version} : Only u (vs ++ [w]) ↔ w = u ∧ Only u vs := by
  simp only [Only, List.mem_append, List.mem_singleton]
  constructor
  · intro h; exact ⟨h w (.inr rfl), fun v hv => h v (.inl hv)⟩
  · rintro ⟨h1, h2⟩ v (hv | rfl)
    · exact h2 v hv
    · exact h1

theorem mem_one {w u : Version} : u ∈ [w] ↔ w = u := by simp [eq_comm]

theorem mem_snoc {vs : List Version} {w u : Version} : u ∈ vs ++ [w] ↔ w = u ∨ u ∈ vs := by
  simp only [List.mem_append, List.mem_singleton]
  constructor
  · rintro (h | h)
    · exact .inr h
    · exact .inl h.symm
  · rintro (h | h)
    · exact .inr h.symm
    · exact .inl h

/-- The first version. -/
theorem passed_first (E : ToolEnv) (w : Version) (c : Contact) (ids : IdKind → Nat → QString) (g : List FieldGroup) :
    withoutIds { c.restored E w ids 0 0 0 with fieldGroups := g } = withoutIds (c.passed E [w] w) := by
  unfold withoutIds Contact.restored Contact.passed
  simp only [Contact.mk.injEq, true_and, and_true, all_one, mem_one]
  refine ⟨?_, ?_, ?_⟩
  · apply List.ext_getElem
    · simp
    · intro i _ _; simp only [List.getElem_map, List.getElem_mapIdx]; rfl
  · apply List.ext_getElem
    · simp
    · intro i _ _
      simp only [List.getElem_map, List.getElem_mapIdx, Address.restored, Address.passed, all_one]
  · apply List.ext_getElem
    · simp
    · intro i _ _
      simp only [List.getElem_map, List.getElem_mapIdx, Key.restored, Key.passed, mem_one, ne_eq]

theorem pictures_passed {E : ToolEnv} (d : Picture) (x : List Picture) (hq : ∀ q ∈ d :: x, q.isEmpty = false → q.isIntern = true → q.rawBytes E ≠ []) :
    (((((d :: x).filter fun y => !y.isEmpty).map (Picture.restored E)).headD {} :: (((d :: x).filter fun y => !y.isEmpty).map (Picture.restored E)).tail).filter
      fun y => !y.isEmpty).map (Picture.restored E) = ((d :: x).filter fun y => !y.isEmpty).map (Picture.restored E) := by
  rw [filter_head_tail Picture.isEmpty {} rfl]
  · rw [List.map_map]
    apply List.map_congr_left
    intro q hq'
    obtain ⟨h1, h2⟩ := List.mem_filter.1 hq'
    exact Picture.restored_restored E q (hq q h1 (by simpa using h2))
  · intro y hy
    obtain ⟨q, hq', rfl⟩ := List.mem_map.1 hy
    obtain ⟨h1, h2⟩ := List.mem_filter.1 hq'
    exact Picture.restored_nonempty E q (hq q h1 (by simpa using h2)) (by simpa using h2)

theorem sounds_passed (d : Sound) (x : List Sound) :
    (((((d :: x).filter fun y => !y.isEmpty).map Sound.restored).headD {} :: (((d :: x).filter fun y => !y.isEmpty).map Sound.restored).tail).filter
      fun y => !y.isEmpty).map Sound.restored = ((d :: x).filter fun y => !y.isEmpty).map Sound.restored := by
  rw [filter_head_tail Sound.isEmpty {} rfl]
  · rw [List.map_map]
    apply List.map_congr_left
    intro q _
    exact Sound.restored_restored q
  · intro y hy
    obtain ⟨q, hq', rfl⟩ := List.mem_map.1 hy
    exact Sound.restored_nonempty q (by simpa using (List.mem_filter.1 hq').2)

theorem if_or {α : Type} (p q : Prop) [Decidable p] [Decidable q] (x y : α) : (if p then x else if q then x else y) = if p ∨ q then x else y := by
  by_cases hp : p <;> by_cases hq : q <;> simp [hp, hq]

theorem if_and {α : Type} (p q : Prop) [Decidable p] [Decidable q] (x y : α) : (if p then if q then x else y else y) = if p ∧ q then x else y := by
  by_cases hp : p <;> by_cases hq : q <;> simp [hp, hq]

/-- One more version. -/
theorem passed_step {E : ToolEnv} {u w : Version} {c : Contact} (h : Readable E u c) (vs : List Version) (last : Version) (ids : IdKind → Nat → QString)
    (g : List FieldGroup) :
    withoutIds { (c.passed E vs last).restored E w ids 0 0 0 with fieldGroups := g } = withoutIds (c.passed E (vs ++ [w]) w) := by
  have hlogo := pictures_passed c.logo c.extraLogos fun q hq hn => picture_raw h (List.mem_append_left _ hq) hn
  have hphoto := pictures_passed c.photo c.extraPhotos fun q hq hn => picture_raw h (List.mem_append_right _ hq) hn
  have hsound : (if w = .v4_0 then [] else
      (((if .v4_0 ∈ vs then [] else ((c.sound :: c.extraSounds).filter fun x => !x.isEmpty).map Sound.restored).headD {} ::
        (if .v4_0 ∈ vs then [] else ((c.sound :: c.extraSounds).filter fun x => !x.isEmpty).map Sound.restored).tail).filter fun x => !x.isEmpty).map Sound.restored)
      = (if w = .v4_0 ∨ .v4_0 ∈ vs then [] else ((c.sound :: c.extraSounds).filter fun x => !x.isEmpty).map Sound.restored) := by
    by_cases hw : w = .v4_0
    · simp only [hw, true_or, if_true]
    · by_cases hv : .v4_0 ∈ vs
      · simp only [hv, or_true, if_true, if_neg hw]; rfl
      · simp only [hw, hv, or_self, if_false]
        exact sounds_passed _ _
  have hbday : ∀ w : Bool, ∀ b : QDateTime,
      (if (b.isSome && w) = true then (if w then b else b.dateOnly) else (if w then b else b.dateOnly).dateOnly) = (if w then b else b.dateOnly) ∧
      ((if w then b else b.dateOnly).isSome && (b.isSome && w)) = (b.isSome && w) := by
    intro w b; cases w <;> cases b <;> exact ⟨rfl, rfl⟩
  have hdep : (if c.organizations = [] then [] else if c.organizations = [] then [] else c.department) = if c.organizations = [] then [] else c.department := by
    split <;> rfl
  have htz : ∀ z : TimeZone, (if (if z.isValid then z else {}).isValid then (if z.isValid then z else {}) else {}) = if z.isValid then z else {} := by
    intro z; by_cases hz : z.isValid = true <;> simp [hz]
  have hgeo : ∀ z : Geo, (if (if z.isValid then z else {}).isValid then (if z.isValid then z else {}) else {}) = if z.isValid then z else {} := by
    intro z; by_cases hz : z.isValid = true <;> simp [hz]
  unfold withoutIds Contact.restored Contact.passed
  simp only [Contact.mk.injEq, hdep, htz, hgeo, all_snoc, mem_snoc, if_or, if_and, true_and, and_true]
  refine ⟨(hbday _ _).1, (hbday _ _).2, ?_, ?_, ?_, ?_, ?_, ?_, ?_, ?_, ?_, ?_, ?_⟩
  · exact congrArg (fun l => List.headD l {}) hlogo
  · exact congrArg (fun l => List.headD l {}) hphoto
  · exact congrArg (fun l => List.headD l {}) hsound
  · apply List.ext_getElem
    · simp
    · intro i _ _; simp only [List.getElem_map, List.getElem_mapIdx, PhoneNumber.restored_passed]; rfl
  · apply List.ext_getElem
    · simp
    · intro i hi _
      simp only [List.getElem_map, List.getElem_mapIdx, Address.restored, Address.passed, Address.mk.injEq, true_and, and_true, all_snoc]
      refine ⟨by simp [Address.named, Nat.and_assoc], ?_⟩
      generalize c.addresses[i]'(by simpa using hi) = a
      by_cases h1 : w = .v4_0 <;> by_cases h2 : Only .v4_0 vs <;> by_cases h3 : a.geo.isValid = true <;> simp [h1, h2, h3]
  · rw [List.filter_eq_self.2]
    · apply List.ext_getElem
      · simp
      · intro i hi _
        simp only [List.getElem_map, List.getElem_mapIdx, Key.restored, Key.passed, Key.mk.injEq, true_and, and_true, mem_snoc]
        generalize (c.keys.filter Key.hasData)[i]'(by simpa using hi) = k
        refine ⟨?_, ?_, ?_⟩
        · split <;> rfl
        · split <;> rfl
        · by_cases h1 : w = .v4_0 <;> by_cases h2 : .v4_0 ∈ vs <;> by_cases h3 : k.type = .custom <;> simp [h1, h2, h3]
    · intro x hx
      obtain ⟨k, hk, rfl⟩ := List.mem_map.1 hx
      have := (List.mem_filter.1 hk).2
      revert this
      unfold Key.hasData Key.passed
      cases k.isBinary <;> simp
  · by_cases h1 : w = .v4_0 <;> by_cases h2 : Only .v4_0 vs <;> simp only [h1, h2, and_self, and_true, true_and, and_false, false_and, if_true, if_false, List.filter_nil, List.append_nil]
    rw [filter_type 3 (by simp), filter_type 2 (by simp), filter_type 1 (by simp)]
  · exact congrArg List.tail hsound
  · exact congrArg List.tail hphoto
  · exact congrArg List.tail hlogo
  · by_cases h1 : w = .v4_0 <;> by_cases h2 : Only .v4_0 vs <;> by_cases h3 : toLowerQ c.kind = q! "group" <;> simp [h1, h2, h3]

end KC
