import Verif.Props.C24
import Verif.Props.C24Limits
/-
  C63. Exporting a contact as a vCard and importing it, any number of times, does not drift: what the first round gives is what every later round
  gives, but for the ids of addresses, phone numbers and keys (which are new each time).

  Proved for every contact a version can carry (`Readable`, the class of C24), every version and every number of rounds. Keys with a type of their own
  are excluded in version 4: there every round changes their type (`C63_custom_key_false`).
-/
namespace KC
open Spec

/-- One export and import, with the new ids `ids`: they are distinct and no contact has had its uid from there. -/
structure Spec.Round (E : ToolEnv) (v : Version) (ids : IdKind → Nat → QString) (c c' : Contact) : Prop where
  fresh : (∀ k i j, ids k i = ids k j → i = j) ∧ ∀ i, c.uid ≠ ids .contact i
  read : WrittenAndRead E v ids c c'

/-- `n` exports and imports in a row. -/
inductive Spec.Rounds (E : ToolEnv) (v : Version) : Nat → Contact → Contact → Prop
  | zero (c : Contact) : Rounds E v 0 c c
  | succ {n : Nat} {c d d' : Contact} (ids : IdKind → Nat → QString) : Rounds E v n c d → Round E v ids d d' → Rounds E v (n + 1) c d'

/-- A contact without the ids of its entries and without its field groups. -/
def Spec.withoutIds (c : Contact) : Contact :=
  { c with
    addresses := c.addresses.map fun a => { a with id := [] }
    phoneNumbers := c.phoneNumbers.map fun p => { p with id := [] }
    keys := c.keys.map fun k => { k with id := [] }
    fieldGroups := [] }

/-- The same contact but for the ids of its entries. -/
def Spec.SameContent (c d : Contact) : Prop := withoutIds c = withoutIds d ∧ c.fieldGroups = d.fieldGroups

/-! ### Proof: one round keeps a contact readable -/

theorem WrittenAndRead.unique {E : ToolEnv} {v : Version} {ids : IdKind → Nat → QString} {c a b : Contact} (h : WrittenAndRead E v ids c a)
    (h' : WrittenAndRead E v ids c b) : a = b := by
  obtain ⟨n, hn⟩ := h
  obtain ⟨m, hm⟩ := h'
  have h1 := hn (max n m) (by omega)
  have h2 := hm (max n m) (by omega)
  rw [h1] at h2
  simpa using h2

theorem map_mapIdx_const {α β γ : Type} {f : Nat → α → β} (g : β → γ) (h : α → γ) (l : List α) (hf : ∀ i x, g (f i x) = h x) :
    (l.mapIdx f).map g = l.map h := by
  apply List.ext_getElem
  · simp
  · intro i _ _; simp [hf]

theorem typeNames_named (t : Nat) : typeNames phoneTypes (t &&& 16383) = typeNames phoneTypes t := by
  have : ∀ i ∈ phoneTypes, i.2 &&& (t &&& 16383) = i.2 &&& t := by
    intro i hi
    have h : i.2 &&& 16383 = i.2 := by revert i; decide
    rw [Nat.and_comm t, ← Nat.and_assoc, h]
  unfold typeNames
  congr 1
  apply List.filter_congr
  intro i hi
  rw [this i hi]

theorem filter_insertSorted {ν : Type} (m : SMap ν) (k : QString) (x : ν) (h : ∀ p ∈ m, p.1 ≠ k) :
    (SMap.insertSorted m k x).filter (fun q => q.1 ≠ k) = m := by
  induction m with
  | nil => simp [SMap.insertSorted]
  | cons p t ih =>
    have hp := h p (by simp)
    have ht := ih fun q hq => h q (by simp [hq])
    obtain ⟨k', w⟩ := p
    unfold SMap.insertSorted
    split
    · rw [List.filter_cons_of_pos (by simpa using hp), ht]
    · rw [List.filter_cons_of_neg (by simp)]
      apply List.filter_eq_self.2
      intro q hq; simpa using h q hq

theorem filter_again {α : Type} (f : α → Bool) (l : List α) : (l.filter f).filter f = l.filter f := by simp

theorem PhoneNumber.restored_params (v : Version) (id : QString) (p : PhoneNumber) :
    ((p.restored v id).params.filter fun q => q.1 ≠ q! "type") = p.params.filter fun q => q.1 ≠ q! "type" := by
  unfold PhoneNumber.restored
  dsimp only
  split
  · simp
  · rw [filter_insertSorted]
    intro q hq
    simpa using (List.mem_filter.1 hq).2

theorem PhoneNumber.restored_restored (v : Version) (id id' : QString) (p : PhoneNumber) :
    (p.restored v id).restored v id' = p.restored v id' := by
  have hn := PhoneNumber.named_restored v id p
  have hp := PhoneNumber.restored_params v id p
  have ht : typeNames phoneTypes (p.restored v id).type = typeNames phoneTypes p.type := by
    rw [← typeNames_named (p.restored v id).type, ← typeNames_named p.type]
    exact congrArg _ hn
  show PhoneNumber.mk _ _ _ _ = PhoneNumber.mk _ _ _ _
  rw [hn, hp, ht]
  rfl

theorem Address.restored_restored (v : Version) (id id' : QString) (a : Address) : (a.restored v id).restored v id' = a.restored v id' := by
  unfold Address.restored
  simp only [Address.mk.injEq, true_and, and_true]
  refine ⟨?_, ?_⟩
  · simp [Address.named, Nat.and_assoc]
  · by_cases h : v = .v4_0 ∧ a.geo.isValid = true
    · rw [if_pos h, if_pos h]
    · rw [if_neg h]; split <;> rfl

theorem Key.restored_restored (v : Version) (id id' : QString) (k : Key) : (k.restored v id).restored v id' = k.restored v id' := by
  unfold Key.restored
  by_cases hb : k.isBinary = true <;> by_cases hc : k.type = .custom ∧ v ≠ .v4_0 <;> simp [hb, hc]

theorem Key.hasData_restored (v : Version) (id : QString) (k : Key) : (k.restored v id).hasData = k.hasData := by
  unfold Key.hasData Key.restored
  cases k.isBinary <;> simp

theorem Picture.restored_restored (E : ToolEnv) (p : Picture) (h : p.isIntern = true → p.rawBytes E ≠ []) : (p.restored E).restored E = p.restored E := by
  unfold Picture.restored
  cases hp : p.isIntern with
  | false => simp
  | true =>
    simp only [if_true]
    congr 1
    generalize p.rawBytes E = r
    cases r <;> rfl

theorem Picture.restored_nonempty (E : ToolEnv) (p : Picture) (h : p.isIntern = true → p.rawBytes E ≠ []) (hn : p.isEmpty = false) :
    (p.restored E).isEmpty = false := by
  unfold Picture.restored
  cases hp : p.isIntern with
  | false =>
    unfold Picture.isEmpty at hn ⊢
    simpa [hp] using hn
  | true =>
    have := h hp
    unfold Picture.isEmpty
    simpa using this

theorem Sound.restored_restored (s : Sound) : s.restored.restored = s.restored := by
  unfold Sound.restored
  cases s.isIntern <;> simp

theorem Sound.restored_nonempty (s : Sound) (hn : s.isEmpty = false) : s.restored.isEmpty = false := by
  unfold Sound.restored
  unfold Sound.isEmpty at hn ⊢
  cases hs : s.isIntern <;> simpa [hs] using hn

/-- The list of entries that are not empty, taken apart into the first and the others and put together again. -/
theorem filter_head_tail {α : Type} (e : α → Bool) (d : α) (hd : e d = true) (l : List α) (h : ∀ x ∈ l, e x = false) :
    (l.headD d :: l.tail).filter (fun x => !e x) = l := by
  cases l with
  | nil => simp [hd]
  | cons x t =>
    simp only [List.headD_cons, List.tail_cons]
    apply List.filter_eq_self.2
    intro y hy
    simp [h y hy]

/-- Pictures of a readable contact that are not empty have data if they are embedded. -/
theorem picture_raw {E : ToolEnv} {v : Version} {c : Contact} (h : Readable E v c) {p : Picture}
    (hp : p ∈ c.logo :: c.extraLogos ++ c.photo :: c.extraPhotos) (hn : p.isEmpty = false) : p.isIntern = true → p.rawBytes E ≠ [] := by
  intro hi
  have := h.pictures p hp
  split at this
  · exact (this.intern hi).2.1
  · exact ((this hn).intern hi).2.1

theorem picture_ok {E : ToolEnv} {v : Version} {c : Contact} (h : Readable E v c) {p : Picture}
    (hp : p ∈ c.logo :: c.extraLogos ++ c.photo :: c.extraPhotos) (hn : p.isEmpty = false) : PictureOK E v p := by
  have := h.pictures p hp
  split at this
  · exact this
  · exact this hn

theorem pictureOK_restored {E : ToolEnv} {v : Version} {p : Picture} (h : PictureOK E v p) : PictureOK E v (p.restored E) := by
  cases hp : p.isIntern with
  | true =>
    obtain ⟨h1, h2, h3⟩ := h.intern hp
    have hr : (p.restored E).rawBytes E = p.rawBytes E := by
      unfold Picture.restored
      rw [if_pos hp]
      generalize p.rawBytes E = r
      cases r <;> rfl
    refine ⟨fun _ => ⟨h1, by rw [hr]; exact h2, ?_⟩, fun hi => ?_⟩
    · unfold Picture.restored; rw [if_pos hp]; exact h3
    · unfold Picture.restored at hi; rw [if_pos hp] at hi; cases hi
  | false =>
    have hu := h.url hp
    have e : p.restored E = { url := p.url } := by unfold Picture.restored; rw [hp]; rfl
    rw [e]
    exact ⟨fun hi => (by cases hi), fun _ => hu⟩

theorem emptyPictureOK (E : ToolEnv) (v : Version) : PictureOK E v {} :=
  ⟨fun hi => (by cases hi), fun _ => ⟨asciiSafe_safe (by decide), fun _ => by decide⟩⟩

theorem soundOK_restored {v : Version} {s : Sound} (h : SoundOK v s) : SoundOK v s.restored := by
  unfold Sound.restored
  cases hs : s.isIntern with
  | true => exact ⟨fun _ => h.intern hs, fun hi => (by cases hi)⟩
  | false => exact ⟨fun hi => (by cases hi), fun _ => h.url hs⟩

theorem addressOK_restored {E : ToolEnv} {v : Version} {a : Address} (id : QString) (h : AddressOK E v a) : AddressOK E v (a.restored v id) := by
  refine ⟨h.some, h.parts, h.label, h.label4, fun hv hg => ?_⟩
  have hg' : (if v = .v4_0 ∧ a.geo.isValid = true then a.geo else {}).isValid = true := hg
  by_cases hc : v = .v4_0 ∧ a.geo.isValid = true
  · have e : (a.restored v id).geo = a.geo := if_pos hc
    rw [e]; exact h.geo hv hc.2
  · rw [if_neg hc] at hg'; cases hg'

theorem keyOK_restored {v : Version} {k : Key} (id : QString) (hc : v = .v4_0 → k.type ≠ .custom) (h : KeyOK v k) : KeyOK v (k.restored v id) := by
  refine ⟨h.binary, fun hb => ?_, fun ht => ?_⟩
  · show SafeText (if k.isBinary then [] else k.textData)
    rw [show k.isBinary = false from hb]
    exact h.text hb
  · have ht' : k.type = .custom := ht
    have hv : v ≠ .v4_0 := fun hv => hc hv ht'
    have e : (k.restored v id).customTypeString = k.customTypeString := if_pos ⟨ht', hv⟩
    rw [e]
    exact h.type ht'

/-- The pictures of the contact read back. -/
theorem pictures_restored {E : ToolEnv} {v : Version} (d : Picture) (x : List Picture)
    (h : ∀ p ∈ d :: x, if v = .v4_0 then PictureOK E v p else p.isEmpty = false → PictureOK E v p) :
    ∀ p ∈ (((d :: x).filter fun x => !x.isEmpty).map (Picture.restored E)).headD {} :: (((d :: x).filter fun x => !x.isEmpty).map (Picture.restored E)).tail,
      PictureOK E v p := by
  have hall : ∀ p ∈ ((d :: x).filter fun x => !x.isEmpty).map (Picture.restored E), PictureOK E v p := by
    intro p hp
    obtain ⟨q, hq, rfl⟩ := List.mem_map.1 hp
    obtain ⟨hq1, hq2⟩ := List.mem_filter.1 hq
    apply pictureOK_restored
    have := h q hq1
    split at this
    · exact this
    · exact this (by simpa using hq2)
  generalize ((d :: x).filter fun x => !x.isEmpty).map (Picture.restored E) = L at hall
  intro p hp
  cases L with
  | nil => simp at hp; subst hp; exact emptyPictureOK E v
  | cons q t => exact hall p (by simpa using hp)

/-- A contact read back can be written again. -/
theorem readable_restored {E : ToolEnv} {v : Version} {c : Contact} (h : Readable E v c) (hk : v = .v4_0 → ∀ k ∈ c.keys, k.type ≠ .custom)
    (ids : IdKind → Nat → QString) (a p k : Nat) (g : List FieldGroup) (hg : Regrouped g c.fieldGroups) :
    Readable E v { c.restored E v ids a p k with fieldGroups := g } := by
  have hlab : ∀ w, SafeText w → True := fun _ _ => trivial
  refine
  { uid := h.uid
    formattedName := h.formattedName
    note := h.note
    mailer := fun hv => ?_
    name := fun hv => ?_
    nameParts := h.nameParts
    sortString := fun hv => ?_
    sortAs := fun hv => ?_
    productId := fun hv => ?_
    birthday := ?_
    revision := h.revision
    deathDate := fun hv => ?_
    timeZone := ?_
    geo := ?_
    categories := fun hv => ?_
    addresses := ?_
    labels := fun hv => ?_
    phoneNumbers := ?_
    emails := h.emails
    organizations := ?_
    titles := h.titles
    roles := h.roles
    nickNames := fun hv => ?_
    relationships := h.relationships
    langs := fun hv => ?_
    clientPidMaps := fun hv => ?_
    members := fun hv => ?_
    sources := h.sources
    extraUrls := h.extraUrls
    impps := h.impps
    calendarUrls := fun hv => ?_
    gender := fun hv => ?_
    kind := fun hv => ?_
    keys := ?_
    pictures := ?_
    sounds := ?_
    fieldGroups := fun x hx => h.fieldGroups x (hg.mem_iff.1 hx)
    customs := h.customs }
  · have e : (if v = .v4_0 then [] else c.mailer) = c.mailer := if_neg hv
    show CodedText _ v (if v = .v4_0 then [] else c.mailer)
    rw [e]; exact h.mailer hv
  · show CodedText _ v (if v = .v4_0 then [] else c.name)
    rw [if_neg hv]; exact h.name hv
  · show SafeText (if v = .v2_1 then [] else c.sortString)
    rw [if_neg (by rw [hv]; decide)]; exact h.sortString hv
  · show (if v = .v2_1 then [] else c.sortString) ≠ [] → ParamOK _ (if v = .v2_1 then [] else c.sortString)
    rw [if_neg (by rw [hv]; decide)]; exact h.sortAs hv
  · show SafeText (if v = .v2_1 then [] else c.productId)
    rw [if_neg hv]; exact h.productId hv
  · intro x hx
    have hx' : (if c.birthdayWithTime then c.birthday else c.birthday.dateOnly) = some x := hx
    show DateOK x.date ∧ ((c.birthday.isSome && c.birthdayWithTime) = true → TimeOK x.time x.zone)
    cases hw : c.birthdayWithTime with
    | true =>
      rw [hw] at hx'
      have := h.birthday x hx'
      exact ⟨this.1, fun _ => this.2 hw⟩
    | false =>
      rw [hw] at hx'
      cases hb : c.birthday with
      | none => rw [hb] at hx'; cases hx'
      | some y =>
        rw [hb] at hx'
        have e : x = { date := y.date, time := (0, 0, 0, 0), zone := none } := by
          have : some { date := y.date, time := (0, 0, 0, 0), zone := none } = some x := hx'
          exact (Option.some.inj this).symm
        refine ⟨?_, fun h => by simp at h⟩
        rw [e]; exact (h.birthday y hb).1
  · show DateTimeOK (if v = .v4_0 then c.deathDate else none)
    rw [if_pos hv]; exact h.deathDate hv
  · show (if c.timeZone.isValid then c.timeZone else {}).isValid = true → _
    intro hz
    by_cases hv : c.timeZone.isValid = true
    · show -6000 < (if c.timeZone.isValid then c.timeZone else {}).offset ∧ (if c.timeZone.isValid then c.timeZone else {}).offset < 6000
      rw [if_pos hv]; exact h.timeZone hv
    · rw [if_neg hv] at hz; cases hz
  · show (if c.geo.isValid then c.geo else {}).isValid = true → PositionOK E E.toFloat (if c.geo.isValid then c.geo else {})
    intro hz
    by_cases hv : c.geo.isValid = true
    · rw [if_pos hv]; exact h.geo hv
    · rw [if_neg hv] at hz; cases hz
  · show (if v = .v2_1 then [] else c.categories) ≠ [[]] ∧ Compound _ v _ (if v = .v2_1 then [] else c.categories)
    rw [if_neg hv]; exact h.categories hv
  · intro x hx
    obtain ⟨i, hi, rfl⟩ := List.mem_mapIdx.1 (show x ∈ c.addresses.mapIdx fun i x => x.restored v (ids .address (a + i)) from hx)
    exact addressOK_restored _ (h.addresses _ (List.getElem_mem hi))
  · show (c.addresses.mapIdx fun i x => x.restored v (ids .address (a + i))).Pairwise _
    have hp := List.pairwise_iff_getElem.1 (h.labels hv)
    apply List.pairwise_iff_getElem.2
    intro i j hi hj hij
    simp only [List.getElem_mapIdx]
    intro hnamed
    have hn : ∀ (x : Address) (id : QString), (x.restored v id).named = x.named := fun x id => by simp [Address.restored, Address.named, Nat.and_assoc]
    rw [hn, hn] at hnamed
    exact hp i j (by simpa using hi) (by simpa using hj) hij hnamed
  · intro x hx
    obtain ⟨i, hi, rfl⟩ := List.mem_mapIdx.1 (show x ∈ c.phoneNumbers.mapIdx fun i x => x.restored v (ids .phone (p + i)) from hx)
    have := h.phoneNumbers _ (List.getElem_mem hi)
    exact ⟨this.number, by rw [PhoneNumber.restored_params]; exact this.params⟩
  · intro o ho
    have ho' : o ∈ c.organizations := ho
    have hne : c.organizations ≠ [] := by intro e; rw [e] at ho'; cases ho'
    have e : (if c.organizations = [] then [] else c.department) = c.department := if_neg hne
    show TextOK o ∧ _ ∧ Compound _ v _ (if (if c.organizations = [] then [] else c.department) = [] then [o.text] else
      [o.text, if c.organizations = [] then [] else c.department]) ∧ (v = .v2_1 → PlainAscii o.text ∧ PlainAscii (if c.organizations = [] then [] else c.department))
    rw [e]
    exact h.organizations o ho'
  · show ∀ t ∈ (if v = .v2_1 then [] else c.nickNames), TextOK t
    rw [if_neg hv]; exact h.nickNames hv
  · show (∀ t ∈ (if v = .v4_0 then c.langs else []), _) ∧ ((if v = .v4_0 then c.langs else []).map (·.text)).Nodup
    rw [if_pos hv]; exact h.langs hv
  · show ∀ t ∈ (if v = .v4_0 then c.clientPidMaps else []), TextOK t
    rw [if_pos hv]; exact h.clientPidMaps hv
  · show (∀ m ∈ (if v = .v4_0 ∧ toLowerQ c.kind = q! "group" then c.members else []), _) ∧ (if v = .v4_0 ∧ toLowerQ c.kind = q! "group" then c.members else []).Nodup
    split
    · exact h.members hv
    · exact ⟨fun m hm => (by cases hm), List.nodup_nil⟩
  · show ∀ u ∈ (if v = .v4_0 then c.calendarUrls.filter (·.type = 3) ++ c.calendarUrls.filter (·.type = 2) ++ c.calendarUrls.filter (·.type = 1) else []), _
    rw [if_pos hv]
    intro u hu
    refine h.calendarUrls hv u ?_
    simp only [List.mem_append, List.mem_filter] at hu
    rcases hu with (hu | hu) | hu <;> exact hu.1
  · show (if v = .v4_0 then c.gender else {}).gender.length ≤ 1 ∧ (if v = .v4_0 then c.gender else {}).gender ≠ _ ∧ SafeText (if v = .v4_0 then c.gender else {}).gender ∧
      SafeText ((if v = .v4_0 then c.gender else {}).gender ++ qc! ';' :: (if v = .v4_0 then c.gender else {}).comment)
    rw [if_pos hv]; exact h.gender hv
  · show SafeText (if v = .v4_0 then c.kind else [])
    rw [if_pos hv]; exact h.kind hv
  · intro x hx hd
    obtain ⟨i, hi, rfl⟩ := List.mem_mapIdx.1 (show x ∈ (c.keys.filter Key.hasData).mapIdx fun i x => x.restored v (ids .key (k + i)) from hx)
    have hm := List.getElem_mem hi
    have hm2 := List.mem_filter.1 hm
    exact keyOK_restored _ (fun hv => hk hv _ hm2.1) (h.keys _ hm2.1 hm2.2)
  · intro x hx
    have hx2 : PictureOK E v x := by
      rcases List.mem_append.1 hx with hx | hx
      · exact pictures_restored c.logo c.extraLogos (fun p hp => h.pictures p (List.mem_append_left _ hp)) x hx
      · exact pictures_restored c.photo c.extraPhotos (fun p hp => h.pictures p (List.mem_append_right _ hp)) x hx
    split
    · exact hx2
    · exact fun _ => hx2
  · intro x hx hne
    have hall : ∀ s ∈ (if v = .v4_0 then [] else ((c.sound :: c.extraSounds).filter fun x => !x.isEmpty).map Sound.restored), SoundOK v s := by
      intro s hs
      split at hs
      · cases hs
      · obtain ⟨q, hq, rfl⟩ := List.mem_map.1 hs
        obtain ⟨hq1, hq2⟩ := List.mem_filter.1 hq
        exact soundOK_restored (h.sounds q hq1 (by simpa using hq2))
    have hx' : x ∈ (if v = .v4_0 then [] else ((c.sound :: c.extraSounds).filter fun x => !x.isEmpty).map Sound.restored).headD {} ::
      (if v = .v4_0 then [] else ((c.sound :: c.extraSounds).filter fun x => !x.isEmpty).map Sound.restored).tail := hx
    generalize (if v = .v4_0 then [] else ((c.sound :: c.extraSounds).filter fun x => !x.isEmpty).map Sound.restored) = L at hall hx'
    cases L with
    | nil => simp at hx'; subst hx'; cases hne
    | cons q t => exact hall x (by simpa using hx')


theorem filter_type {l : List CalendarUrl} (t : Nat) (ht : t = 1 ∨ t = 2 ∨ t = 3) :
    (l.filter (·.type = 3) ++ l.filter (·.type = 2) ++ l.filter (·.type = 1)).filter (·.type = t) = l.filter (·.type = t) := by
  simp only [List.filter_append, List.filter_filter]
  have h0 : ∀ x y : Nat, x ≠ y → l.filter (fun u => decide (u.type = x) && decide (u.type = y)) = [] := by
    intro x y hxy
    apply List.filter_eq_nil_iff.2
    intro u _ hu
    simp only [Bool.and_eq_true, decide_eq_true_eq] at hu
    exact hxy (hu.1.symm.trans hu.2)
  rcases ht with rfl | rfl | rfl
  · simp [h0 1 3 (by decide), h0 1 2 (by decide)]
  · simp [h0 2 3 (by decide), h0 2 1 (by decide)]
  · simp [h0 3 2 (by decide), h0 3 1 (by decide)]

/-- What a second round gives is what the first one gives. -/
theorem restored_restored {E : ToolEnv} {v : Version} {c : Contact} (h : Readable E v c) (ids ids' : IdKind → Nat → QString) (a p k a' p' k' : Nat)
    (g g' : List FieldGroup) :
    withoutIds { ({ c.restored E v ids a p k with fieldGroups := g } : Contact).restored E v ids' a' p' k' with fieldGroups := g' }
      = withoutIds { c.restored E v ids a p k with fieldGroups := g } := by
  have hpics : ∀ (d : Picture) (x : List Picture), (∀ q ∈ d :: x, q.isEmpty = false → q.isIntern = true → q.rawBytes E ≠ []) →
      (((((d :: x).filter fun y => !y.isEmpty).map (Picture.restored E)).headD {} :: (((d :: x).filter fun y => !y.isEmpty).map (Picture.restored E)).tail).filter
        fun y => !y.isEmpty).map (Picture.restored E) = ((d :: x).filter fun y => !y.isEmpty).map (Picture.restored E) := by
    intro d x hq
    rw [filter_head_tail Picture.isEmpty {} rfl]
    · rw [List.map_map]
      apply List.map_congr_left
      intro q hq'
      obtain ⟨h1, h2⟩ := List.mem_filter.1 hq'
      exact Picture.restored_restored E q (hq q h1 (by simpa using h2))
    · intro y hy
      obtain ⟨q, hq', rfl⟩ := List.mem_map.1 hy
      obtain ⟨h1, h2⟩ := List.mem_filter.1 hq'
      exact Picture.restored_nonempty E q (hq q h1 (by simpa using h2)) (by simpa using h2)
  have hlogo := hpics c.logo c.extraLogos fun q hq hn => picture_raw h (List.mem_append_left _ hq) hn
  have hphoto := hpics c.photo c.extraPhotos fun q hq hn => picture_raw h (List.mem_append_right _ hq) hn
  have hsound : (if v = .v4_0 then [] else
      (((if v = .v4_0 then [] else ((c.sound :: c.extraSounds).filter fun x => !x.isEmpty).map Sound.restored).headD {} ::
        (if v = .v4_0 then [] else ((c.sound :: c.extraSounds).filter fun x => !x.isEmpty).map Sound.restored).tail).filter fun x => !x.isEmpty).map Sound.restored)
      = (if v = .v4_0 then [] else ((c.sound :: c.extraSounds).filter fun x => !x.isEmpty).map Sound.restored) := by
    by_cases hv : v = .v4_0
    · rw [if_pos hv, if_pos hv]
    · simp only [if_neg hv]
      rw [filter_head_tail Sound.isEmpty {} rfl]
      · rw [List.map_map]
        apply List.map_congr_left
        intro q _
        exact Sound.restored_restored q
      · intro y hy
        obtain ⟨q, hq', rfl⟩ := List.mem_map.1 hy
        exact Sound.restored_nonempty q (by simpa using (List.mem_filter.1 hq').2)
  have haddr : ((c.addresses.mapIdx fun i x => x.restored v (ids .address (a + i))).mapIdx fun i x => x.restored v (ids' .address (a' + i))).map
      (fun x => { x with id := [] }) = (c.addresses.mapIdx fun i x => x.restored v (ids .address (a + i))).map fun x => { x with id := [] } := by
    apply List.ext_getElem
    · simp
    · intro i _ _; simp only [List.getElem_map, List.getElem_mapIdx, Address.restored_restored]; rfl
  have hphone : ((c.phoneNumbers.mapIdx fun i x => x.restored v (ids .phone (p + i))).mapIdx fun i x => x.restored v (ids' .phone (p' + i))).map
      (fun x => { x with id := [] }) = (c.phoneNumbers.mapIdx fun i x => x.restored v (ids .phone (p + i))).map fun x => { x with id := [] } := by
    apply List.ext_getElem
    · simp
    · intro i _ _; simp only [List.getElem_map, List.getElem_mapIdx, PhoneNumber.restored_restored]; rfl
  have hkeys : ((((c.keys.filter Key.hasData).mapIdx fun i x => x.restored v (ids .key (k + i))).filter Key.hasData).mapIdx fun i x =>
      x.restored v (ids' .key (k' + i))).map (fun x => { x with id := [] })
      = ((c.keys.filter Key.hasData).mapIdx fun i x => x.restored v (ids .key (k + i))).map fun x => { x with id := [] } := by
    rw [List.filter_eq_self.2]
    · apply List.ext_getElem
      · simp
      · intro i _ _; simp only [List.getElem_map, List.getElem_mapIdx, Key.restored_restored]; rfl
    · intro x hx
      obtain ⟨i, hi, rfl⟩ := List.mem_mapIdx.1 hx
      rw [Key.hasData_restored]
      exact (List.mem_filter.1 (List.getElem_mem hi)).2
  have hbday : ∀ w : Bool, ∀ b : QDateTime,
      (if (b.isSome && w) = true then (if w then b else b.dateOnly) else (if w then b else b.dateOnly).dateOnly) = (if w then b else b.dateOnly) ∧
      ((if w then b else b.dateOnly).isSome && (b.isSome && w)) = (b.isSome && w) := by
    intro w b; cases w <;> cases b <;> exact ⟨rfl, rfl⟩
  have hdep : (if c.organizations = [] then [] else if c.organizations = [] then [] else c.department) = if c.organizations = [] then [] else c.department := by
    split <;> rfl
  have hmem : (if v = .v4_0 ∧ toLowerQ (if v = .v4_0 then c.kind else []) = q! "group" then
      (if v = .v4_0 ∧ toLowerQ c.kind = q! "group" then c.members else []) else []) = if v = .v4_0 ∧ toLowerQ c.kind = q! "group" then c.members else [] := by
    by_cases hv : v = .v4_0
    · simp only [if_pos hv]; split <;> rfl
    · simp [hv]
  have htz : ∀ z : TimeZone, (if (if z.isValid then z else {}).isValid then (if z.isValid then z else {}) else {}) = if z.isValid then z else {} := by
    intro z; by_cases hz : z.isValid = true <;> simp [hz]
  have hgeo : ∀ z : Geo, (if (if z.isValid then z else {}).isValid then (if z.isValid then z else {}) else {}) = if z.isValid then z else {} := by
    intro z; by_cases hz : z.isValid = true <;> simp [hz]
  have hcal : (if v = .v4_0 then
      (if v = .v4_0 then c.calendarUrls.filter (·.type = 3) ++ c.calendarUrls.filter (·.type = 2) ++ c.calendarUrls.filter (·.type = 1) else []).filter (·.type = 3) ++
      (if v = .v4_0 then c.calendarUrls.filter (·.type = 3) ++ c.calendarUrls.filter (·.type = 2) ++ c.calendarUrls.filter (·.type = 1) else []).filter (·.type = 2) ++
      (if v = .v4_0 then c.calendarUrls.filter (·.type = 3) ++ c.calendarUrls.filter (·.type = 2) ++ c.calendarUrls.filter (·.type = 1) else []).filter (·.type = 1)
      else []) = if v = .v4_0 then c.calendarUrls.filter (·.type = 3) ++ c.calendarUrls.filter (·.type = 2) ++ c.calendarUrls.filter (·.type = 1) else [] := by
    by_cases hv : v = .v4_0
    · simp only [if_pos hv]
      rw [filter_type 3 (by simp), filter_type 2 (by simp), filter_type 1 (by simp)]
    · simp [hv]
  have hif : ∀ {α : Type} (q : Prop) [Decidable q] (x y : α), (if q then x else if q then x else y) = if q then x else y := by
    intro α q _ x y; split <;> rfl
  have hif' : ∀ {α : Type} (q : Prop) [Decidable q] (x y : α), (if q then if q then x else y else y) = if q then x else y := by
    intro α q _ x y; split <;> rfl
  unfold withoutIds Contact.restored
  simp only [Contact.mk.injEq, hif, hif', hdep, hmem, htz, hgeo, true_and, and_true]
  refine ⟨(hbday _ _).1, (hbday _ _).2, ?_, ?_, ?_, hphone, haddr, hkeys, hcal, ?_, ?_, ?_⟩
  · exact congrArg (fun l => List.headD l {}) hlogo
  · exact congrArg (fun l => List.headD l {}) hphoto
  · exact congrArg (fun l => List.headD l {}) hsound
  · exact congrArg List.tail hsound
  · exact congrArg List.tail hphoto
  · exact congrArg List.tail hlogo

/-! ### Theorems -/

/-- One round has a result, and the result can be written again. -/
theorem round_step {E : ToolEnv} {v : Version} {c : Contact} (h : Readable E v c) (hk : v = .v4_0 → ∀ k ∈ c.keys, k.type ≠ .custom)
    {ids : IdKind → Nat → QString} (hf : (∀ k i j, ids k i = ids k j → i = j) ∧ ∀ i, c.uid ≠ ids .contact i) :
    Round E v ids c (c.restored E v ids 0 0 0) ∧ Readable E v (c.restored E v ids 0 0 0) ∧
      (v = .v4_0 → ∀ k ∈ (c.restored E v ids 0 0 0).keys, k.type ≠ .custom) := by
  refine ⟨⟨hf, C24_contact E v ids hf.1 c h hf.2⟩, readable_restored h hk ids 0 0 0 _ (regrouped_byField _), ?_⟩
  intro hv x hx
  obtain ⟨i, hi, rfl⟩ := List.mem_mapIdx.1 (show x ∈ (c.keys.filter Key.hasData).mapIdx fun i x => x.restored v (ids .key (0 + i)) from hx)
  exact hk hv ((c.keys.filter Key.hasData)[i]) (List.mem_filter.1 (List.getElem_mem hi)).1

/-- The ids given do not matter otherwise. -/
theorem restored_ids (E : ToolEnv) (v : Version) (c : Contact) (ids ids' : IdKind → Nat → QString) (g g' : List FieldGroup) :
    withoutIds { c.restored E v ids 0 0 0 with fieldGroups := g } = withoutIds { c.restored E v ids' 0 0 0 with fieldGroups := g' } := by
  unfold withoutIds Contact.restored
  simp only [Contact.mk.injEq, true_and, and_true]
  refine ⟨?_, ?_, ?_⟩
  all_goals
    apply List.ext_getElem
    · simp
    · intro i _ _
      simp only [List.getElem_map, List.getElem_mapIdx]
      rfl

/-- All rounds after the first have the result of the first. -/
theorem rounds_inv {E : ToolEnv} {v : Version} {c : Contact} (h : Readable E v c) (hk : v = .v4_0 → ∀ k ∈ c.keys, k.type ≠ .custom) {n : Nat} {d : Contact}
    (hr : Rounds E v (n + 1) c d) (ids : IdKind → Nat → QString) :
    Readable E v d ∧ (v = .v4_0 → ∀ k ∈ d.keys, k.type ≠ .custom) ∧ d.uid = c.uid ∧
      SameContent d (c.restored E v ids 0 0 0) ∧ ∃ c0 ids0, Readable E v c0 ∧ d = c0.restored E v ids0 0 0 0 := by
  generalize hm : n + 1 = m at hr
  induction hr generalizing n with
  | zero => omega
  | @succ m c d d' ids' hr hrd ih =>
    cases hr with
    | zero =>
      obtain ⟨hw, hR, hK⟩ := round_step h hk hrd.fresh
      cases hrd.read.unique hw.read
      exact ⟨hR, hK, rfl, ⟨restored_ids E v c _ _ _ _, rfl⟩, c, ids', h, rfl⟩
    | @succ m' c d0 d ids0 hr0 hrd0 =>
      obtain ⟨hR, hK, hu, hs, c0, i0, hc0, hd⟩ := ih h hk rfl
      obtain ⟨hw, hR', hK'⟩ := round_step hR hK hrd.fresh
      cases hrd.read.unique hw.read
      refine ⟨hR', hK', hu, ⟨?_, ?_⟩, d, ids', hR, rfl⟩
      · rw [← hs.1]
        subst hd
        exact restored_restored hc0 _ _ _ _ _ _ _ _ _ _
      · show byField d.fieldGroups = byField c.fieldGroups
        rw [show d.fieldGroups = byField c.fieldGroups from hs.2, byField_byField]

/-- Every later round gives what the first one gives. -/
theorem C63_no_drift_partial (E : ToolEnv) (v : Version) (c : Contact) (h : Readable E v c) (hk : v = .v4_0 → ∀ k ∈ c.keys, k.type ≠ .custom)
    (n : Nat) (c1 d : Contact) (h1 : Rounds E v 1 c c1) (hn : Rounds E v (n + 1) c d) : SameContent d c1 := by
  obtain ⟨-, -, -, s1, -⟩ := rounds_inv h hk h1 fun _ _ => []
  obtain ⟨-, -, -, s2, -⟩ := rounds_inv h hk hn fun _ _ => []
  exact ⟨s2.1.trans s1.1.symm, s2.2.trans s1.2.symm⟩

/-- Every number of rounds is possible: after any of them the contact can be exported and imported once more. -/
theorem C63_again_partial (E : ToolEnv) (v : Version) (c : Contact) (h : Readable E v c) (hk : v = .v4_0 → ∀ k ∈ c.keys, k.type ≠ .custom)
    (n : Nat) (d : Contact) (hn : Rounds E v n c d) (ids : IdKind → Nat → QString)
    (hf : (∀ k i j, ids k i = ids k j → i = j) ∧ ∀ i, c.uid ≠ ids .contact i) : ∃ d', Round E v ids d d' := by
  cases n with
  | zero =>
    cases hn
    obtain ⟨hw, -⟩ := round_step h hk hf
    exact ⟨_, hw⟩
  | succ n =>
    obtain ⟨hR, hK, hu, -⟩ := rounds_inv h hk hn fun _ _ => []
    obtain ⟨hw, -⟩ := round_step hR hK (ids := ids) ⟨hf.1, by rw [hu]; exact hf.2⟩
    exact ⟨_, hw⟩


/-- A contact whose only content is a key with a type of its own. -/
def Sample.customKey : Contact := { uid := q! "u", keys := [{ id := q! "k", textData := q! "data", type := .custom, customTypeString := q! "foo" }] }

theorem customKey_uid (d : Contact) (h : d.uid = q! "u") : ∀ i, d.uid ≠ Sample.ids .contact i := by
  intro i e
  have : (q! "u" : QString).head? = (Sample.ids .contact i).head? := by rw [← e, h]
  rw [Sample.ids, List.replicate_succ, List.head?_cons, List.head?_cons] at this
  exact absurd this (by decide)

/-- In version 4 the type of a key with a type of its own is not written on the second round like on the first: it alternates between two values. -/
theorem C63_custom_key_false : ∃ c1 c2, Rounds Sample.env .v4_0 1 Sample.customKey c1 ∧ Rounds Sample.env .v4_0 2 Sample.customKey c2 ∧ ¬ SameContent c2 c1 := by
  obtain ⟨c1, h1, h1'⟩ := back_is (v := .v4_0) Sample.customKey
    (fun c1 => c1.uid = q! "u" ∧ c1.keys.map (·.customTypeString) = [[]] ∧
      (oneBack Sample.env .v4_0 Sample.ids c1).any (fun c2 => decide (c2.keys.map (·.customTypeString) = [q! "MEDIATYPE"])) = true) (by decide +kernel)
  obtain ⟨c2, h2, h2'⟩ := back_is (v := .v4_0) c1 (fun c2 => c2.keys.map (·.customTypeString) = [q! "MEDIATYPE"]) h1'.2.2
  have r1 := Rounds.succ Sample.ids (.zero Sample.customKey) ⟨⟨Sample.ids_inj, customKey_uid _ rfl⟩, h1⟩
  refine ⟨c1, c2, r1, .succ Sample.ids r1 ⟨⟨Sample.ids_inj, customKey_uid _ h1'.1⟩, h2⟩, fun hs => ?_⟩
  have hk : c2.keys.map (fun k => { k with id := [] }) = c1.keys.map fun k => { k with id := [] } := congrArg Contact.keys hs.1
  have hk' := congrArg (List.map Key.customTypeString) hk
  rw [List.map_map, List.map_map] at hk'
  have : c2.keys.map (·.customTypeString) = c1.keys.map (·.customTypeString) := hk'
  rw [h2', h1'.2.1] at this
  exact absurd this (by decide)

/-! ### The hypotheses are met -/

example (v : Version) : Readable Sample.env v Sample.contact ∧ (v = .v4_0 → ∀ k ∈ Sample.contact.keys, k.type ≠ .custom)
    ∧ (∀ k i j, Sample.ids k i = Sample.ids k j → i = j) ∧ (∀ i, Sample.contact.uid ≠ Sample.ids .contact i) :=
  ⟨C24_sample_readable v, fun _ => by decide, Sample.ids_inj, C24_sample_uid⟩

/-- Three rounds of the sample contact. -/
example (v : Version) : ∃ d, Rounds Sample.env v 3 Sample.contact d := by
  have step : ∀ n d, Rounds Sample.env v n Sample.contact d → ∃ d', Rounds Sample.env v (n + 1) Sample.contact d' := fun n d h => by
    obtain ⟨d', h'⟩ := C63_again_partial Sample.env v Sample.contact (C24_sample_readable v) (fun _ => by decide) n d h Sample.ids ⟨Sample.ids_inj, C24_sample_uid⟩
    exact ⟨d', .succ _ h h'⟩
  obtain ⟨d1, h1⟩ := step 0 _ (.zero _)
  obtain ⟨d2, h2⟩ := step 1 _ h1
  exact step 2 _ h2

end KC
