import Verif.Props.C24
import Verif.Props.C34
import Verif.Spec.Compared

/-! # C108: comparing a contact with what is read back -/

namespace KC

private theorem le_nil {α : Type} (eq : α → α → Bool) (l : List α) : listEquals eq l [] = true ↔ l = [] := by
  cases l <;> simp [listEquals]

private theorem nil_le {α : Type} (eq : α → α → Bool) (l : List α) : listEquals eq [] l = true ↔ l = [] := by
  cases l <;> simp [listEquals]

private theorem le_perm {α : Type} [DecidableEq α] {l m : List α} (h : l.Perm m) : listEquals deq l m = true := by
  unfold listEquals
  rw [if_neg (by simp [h.length_eq]), List.all_eq_true]
  exact fun x hx => List.any_eq_true.2 ⟨x, h.mem_iff.1 hx, by simp [deq]⟩

/-- `P` says whether two values compare equal, in either order. -/
private def Says {α : Type} (eq : α → α → Bool) (x y : α) (P : Prop) : Prop := (eq x y = true ↔ P) ∧ (eq y x = true ↔ P)

private theorem says_deq {α : Type} [DecidableEq α] (x y : α) {P : Prop} (h : x = y ↔ P) : Says deq x y P :=
  ⟨(deq_iff x y).trans h, (deq_iff y x).trans (eq_comm.trans h)⟩

private theorem says_true {α : Type} {eq : α → α → Bool} {x y : α} {P : Prop} (h : eq x y = true ∧ eq y x = true) (hP : P) : Says eq x y P :=
  ⟨iff_of_true h.1 hP, iff_of_true h.2 hP⟩

private theorem says_if {α : Type} [DecidableEq α] (P : Prop) [Decidable P] (x d : α) : Says deq x (if P then d else x) (P → x = d) := by
  apply says_deq
  by_cases h : P
  · rw [if_pos h]; exact ⟨fun e _ => e, fun e => e h⟩
  · rw [if_neg h]; exact ⟨fun _ hp => absurd hp h, fun _ => rfl⟩

private theorem says_if' {α : Type} [DecidableEq α] (P : Prop) [Decidable P] (x d : α) : Says deq x (if P then x else d) (¬ P → x = d) := by
  apply says_deq
  by_cases h : P
  · rw [if_pos h]; exact ⟨fun _ hp => absurd h hp, fun _ => rfl⟩
  · rw [if_neg h]; exact ⟨fun e _ => e, fun e => e h⟩

private theorem says_list {α : Type} [DecidableEq α] {l m : List α} {P : Prop} (hn : ¬ P → m = []) (hp : P → l.Perm m) : Says (listEquals deq) l m (¬ P → l = []) := by
  by_cases h : P
  · have := hp h
    exact says_true ⟨le_perm this, le_perm this.symm⟩ fun e => absurd h e
  · rw [hn h]
    exact ⟨(le_nil deq l).trans ⟨fun e _ => e, fun e => e h⟩, (nil_le deq l).trans ⟨fun e _ => e, fun e => e h⟩⟩

/-- No element of the one list is in the other. -/
private theorem says_apart {α : Type} (eq : α → α → Bool) {l m : List α} (hm : l = [] → m = []) (h : ∀ x ∈ l, ∀ y ∈ m, eq y x = false ∧ eq x y = false) :
    Says (listEquals eq) l m (l = []) := by
  cases l with
  | nil => rw [hm rfl]; exact says_true ⟨rfl, rfl⟩ rfl
  | cons x l =>
    cases m with
    | nil => exact ⟨by simp [listEquals], by simp [listEquals]⟩
    | cons y m =>
      have e1 : (List.any (y :: m) fun e => eq e x) = false := by
        rw [List.any_eq_false]
        exact fun e he => by rw [(h x List.mem_cons_self e he).1]; simp
      have e2 : (List.any (x :: l) fun e => eq e y) = false := by
        rw [List.any_eq_false]
        exact fun e he => by rw [(h e he y List.mem_cons_self).2]; simp
      constructor
      · unfold listEquals
        rw [List.all_cons, e1]
        simp
      · unfold listEquals
        rw [List.all_cons, e2]
        simp

private theorem picture_restored (E : ToolEnv) (p : Picture) (h : p.AsKept) : p.eq E.toQtEnv (p.restored E) = true ∧ (p.restored E).eq E.toQtEnv p = true := by
  obtain ⟨u, t, im, r, i⟩ := p
  unfold Picture.AsKept at h
  cases i with
  | false => simp_all [Picture.eq, Picture.restored]
  | true =>
    have hr : r ≠ [] := by simpa using h
    have : Picture.rawBytes E ⟨u, t, im, r, true⟩ = r := by
      cases r with
      | nil => exact absurd rfl hr
      | cons x r => rfl
    simp [Picture.eq, Picture.restored, this, hr]

private theorem sound_restored (s : Sound) (h : s.AsKept) : s.eq s.restored = true ∧ s.restored.eq s = true := by
  obtain ⟨u, t, d, i⟩ := s
  have ht : t = [] := h.1
  subst ht
  cases i <;> simp [Sound.eq, Sound.restored]

private theorem picture_none (E : QtEnv) (p : Picture) (h : p.AsKept) (he : p.isEmpty = true) : p.eq E {} = true ∧ ({} : Picture).eq E p = true := by
  obtain ⟨u, t, im, r, i⟩ := p
  unfold Picture.AsKept at h
  cases i with
  | false => simp_all [Picture.eq, Picture.isEmpty]
  | true => simp_all [Picture.isEmpty]

private theorem sound_none (s : Sound) (h : s.AsKept) : Says Sound.eq s {} (s.isEmpty = true) := by
  obtain ⟨u, t, d, i⟩ := s
  have ht : t = [] := h.1
  have h2 := h.2
  subst ht
  cases i with
  | false => constructor <;> cases u <;> simp [Sound.eq, Sound.isEmpty]
  | true => constructor <;> cases d <;> simp_all [Sound.eq, Sound.isEmpty]

private theorem le_map {α : Type} (eq : α → α → Bool) (f : α → α) (l : List α) (h : ∀ x ∈ l, eq x (f x) = true ∧ eq (f x) x = true) :
    listEquals eq l (l.map f) = true ∧ listEquals eq (l.map f) l = true := by
  unfold listEquals
  constructor
  · rw [if_neg (by simp), List.all_eq_true]
    exact fun x hx => List.any_eq_true.2 ⟨f x, List.mem_map.2 ⟨x, hx, rfl⟩, (h x hx).2⟩
  · rw [if_neg (by simp), List.all_eq_true]
    intro y hy
    obtain ⟨x, hx, rfl⟩ := List.mem_map.1 hy
    exact List.any_eq_true.2 ⟨x, hx, (h x hx).1⟩

/-- The media of a contact: the first and the further ones. -/
private theorem media {α : Type} (empty : α → Bool) (f : α → α) (x : α) (l : List α) (hl : ∀ y ∈ l, empty y = false) (hx : empty x = true → l = []) :
    ((x :: l).filter fun y => !empty y).map f = if empty x = true then [] else f x :: l.map f := by
  have e : l.filter (fun y => !empty y) = l := List.filter_eq_self.2 fun y hy => by simp [hl y hy]
  rw [List.filter_cons, e]
  cases h : empty x with
  | true => simp [hx h]
  | false => simp

private theorem calendars (l : List CalendarUrl) (h : ∀ u ∈ l, u.type ≠ 0 ∧ u.type ≤ 3) :
    l.Perm (l.filter (·.type = 3) ++ l.filter (·.type = 2) ++ l.filter (·.type = 1)) := by
  have h1 := List.filter_append_perm (fun u : CalendarUrl => decide (u.type = 3)) l
  have h2 := List.filter_append_perm (fun u : CalendarUrl => decide (u.type = 2)) (l.filter fun u => !decide (u.type = 3))
  have e2 : (l.filter fun u : CalendarUrl => !decide (u.type = 3)).filter (fun u => decide (u.type = 2)) = l.filter fun u => decide (u.type = 2) := by
    rw [List.filter_filter]
    refine List.filter_congr fun u _ => ?_
    by_cases hu : u.type = 2 <;> simp [hu]
  have e3 : (l.filter fun u : CalendarUrl => !decide (u.type = 3)).filter (fun u => !decide (u.type = 2)) = l.filter fun u => decide (u.type = 1) := by
    rw [List.filter_filter]
    refine List.filter_congr fun u hu => ?_
    have := h u hu
    have h4 : u.type = 1 ∨ u.type = 2 ∨ u.type = 3 := by omega
    rcases h4 with h4 | h4 | h4 <;> simp [h4]
  rw [e2, e3] at h2
  rw [List.append_assoc]
  exact (h1.symm.trans (List.Perm.append_left _ h2.symm))

private theorem geo_restored (g : Geo) (h : g.isValid = true → g.InRange) : g.eq (if g.isValid then g else {}) = true ∧ Geo.eq (if g.isValid then g else {}) g = true := by
  cases hv : g.isValid with
  | true =>
    rw [if_pos rfl]
    exact ⟨geo_self g (h hv), geo_self g (h hv)⟩
  | false =>
    have e : ({} : Geo).isValid = false := rfl
    rw [if_neg (by simp)]
    simp [Geo.eq, hv, e]

/-- Phone numbers, addresses and keys have other ids. -/
private theorem apart_restored (E : ToolEnv) (v : Version) (ids : IdKind → Nat → QString) (c : Contact) (hids : NewIds ids c) :
    Says (listEquals deq) c.phoneNumbers (c.restored E v ids 0 0 0).phoneNumbers (c.phoneNumbers = []) ∧
    Says (listEquals Address.eq) c.addresses (c.restored E v ids 0 0 0).addresses (c.addresses = []) ∧
    Says (listEquals Key.eq) c.keys (c.restored E v ids 0 0 0).keys (c.keys = []) := by
  have f22 : Says (listEquals deq) c.phoneNumbers (c.restored E v ids 0 0 0).phoneNumbers (c.phoneNumbers = []) := by
    apply says_apart
    · intro h; show List.mapIdx _ c.phoneNumbers = []; rw [h]; rfl
    · intro x hx y hy
      obtain ⟨i, hi, rfl⟩ := List.mem_mapIdx.1 hy
      have : x.id ≠ ids .phone (0 + i) := hids.phoneNumbers x hx _
      constructor
      · rw [Bool.eq_false_iff]; intro e; exact this (congrArg PhoneNumber.id ((deq_iff _ _).1 e)).symm
      · rw [Bool.eq_false_iff]; intro e; exact this (congrArg PhoneNumber.id ((deq_iff _ _).1 e))
  have f23 : Says (listEquals Address.eq) c.addresses (c.restored E v ids 0 0 0).addresses (c.addresses = []) := by
    apply says_apart
    · intro h; show List.mapIdx _ c.addresses = []; rw [h]; rfl
    · intro x hx y hy
      obtain ⟨i, hi, rfl⟩ := List.mem_mapIdx.1 hy
      have : x.id ≠ ids .address (0 + i) := hids.addresses x hx _
      have e1 : decide ((c.addresses[i].restored v (ids .address (0 + i))).id = x.id) = false := decide_eq_false fun e => this e.symm
      have e2 : decide (x.id = (c.addresses[i].restored v (ids .address (0 + i))).id) = false := decide_eq_false this
      constructor
      · unfold Address.eq; rw [e1]; simp only [Bool.false_and]
      · unfold Address.eq; rw [e2]; simp only [Bool.false_and]
  have f24 : Says (listEquals Key.eq) c.keys (c.restored E v ids 0 0 0).keys (c.keys = []) := by
    apply says_apart
    · intro h; show List.mapIdx _ (c.keys.filter _) = []; rw [h]; rfl
    · intro x hx y hy
      obtain ⟨i, hi, rfl⟩ := List.mem_mapIdx.1 hy
      have : x.id ≠ ids .key (0 + i) := hids.keys x hx _
      constructor
      · unfold Key.eq; rw [if_pos (show Key.id _ ≠ x.id from fun e => this e.symm)]
      · unfold Key.eq; rw [if_pos (show x.id ≠ Key.id _ from this)]
  exact ⟨f22, f23, f24⟩

/-- Both comparisons of a contact with what is read back. -/
private theorem compare_restored (E : ToolEnv) (v : Version) (ids : IdKind → Nat → QString) (c : Contact) (hR : Readable E v c) (hids : NewIds ids c)
    (hm : MediaAsKept c) :
    (c.eq E.toQtEnv (c.restored E v ids 0 0 0) = true ↔ AllKept E.toQtEnv v c) ∧ ((c.restored E v ids 0 0 0).eq E.toQtEnv c = true ↔ AllKept E.toQtEnv v c) := by
  have same : ∀ {α : Type} [DecidableEq α] (x : α), Says deq x x True := fun x => says_deq x x (iff_of_true rfl trivial)
  have sameL : ∀ {α : Type} [DecidableEq α] (x : List α), Says (listEquals deq) x x True :=
    fun x => says_true ⟨le_perm (.refl x), le_perm (.refl x)⟩ trivial
  have f1 : Says deq c.uid (c.restored E v ids 0 0 0).uid True := same _
  have f2 : Says deq c.name (c.restored E v ids 0 0 0).name (v = .v4_0 → c.name = []) := says_if _ _ _
  have f3 : Says deq c.formattedName (c.restored E v ids 0 0 0).formattedName True := same _
  have f4 : Says deq c.familyName (c.restored E v ids 0 0 0).familyName True := same _
  have f5 : Says deq c.givenName (c.restored E v ids 0 0 0).givenName True := same _
  have f6 : Says deq c.additionalName (c.restored E v ids 0 0 0).additionalName True := same _
  have f7 : Says deq c.prefix_ (c.restored E v ids 0 0 0).prefix_ True := same _
  have f8 : Says deq c.suffix (c.restored E v ids 0 0 0).suffix True := same _
  have f9 : Says (QDateTime.eq E.toQtEnv) c.birthday (c.restored E v ids 0 0 0).birthday
      (c.birthdayWithTime = false → QDateTime.eq E.toQtEnv c.birthday c.birthday.dateOnly = true) := by
    show Says _ c.birthday (if c.birthdayWithTime then c.birthday else c.birthday.dateOnly) _
    cases h : c.birthdayWithTime with
    | true => exact says_true ⟨(time_iff _ _ _).2 rfl, (time_iff _ _ _).2 rfl⟩ (by simp)
    | false =>
      rw [if_neg (by simp)]
      constructor
      · simp
      · rw [time_iff, time_iff]
        simp [eq_comm]
  have f10 : Says deq c.birthdayWithTime (c.restored E v ids 0 0 0).birthdayWithTime (c.birthdayWithTime = true → c.birthday ≠ none) := by
    apply says_deq
    show c.birthdayWithTime = (c.birthday.isSome && c.birthdayWithTime) ↔ _
    cases c.birthdayWithTime <;> cases c.birthday <;> simp
  have f11 : Says deq c.mailer (c.restored E v ids 0 0 0).mailer (v = .v4_0 → c.mailer = []) := says_if _ _ _
  have f12 : Says TimeZone.eq c.timeZone (c.restored E v ids 0 0 0).timeZone True := by
    have e : c.timeZone.shown = (c.restored E v ids 0 0 0).timeZone.shown := by
      show TimeZone.shown _ = TimeZone.shown (if c.timeZone.isValid then c.timeZone else {})
      cases h : c.timeZone.isValid with
      | true => rfl
      | false => simp [TimeZone.shown, h]
    exact says_true ⟨(timeZone_iff _ _).2 e, (timeZone_iff _ _).2 e.symm⟩ trivial
  have f13 : Says Geo.eq c.geo (c.restored E v ids 0 0 0).geo True :=
    says_true (geo_restored c.geo fun h _ => ⟨(le_both_iff _ _ _).1 (by simp [(hR.geo h).latRange]), (le_both_iff _ _ _).1 (by simp [(hR.geo h).longRange])⟩) trivial
  have f14 : Says deq c.department (c.restored E v ids 0 0 0).department (c.organizations = [] → c.department = []) := says_if _ _ _
  have f15 : Says deq c.note (c.restored E v ids 0 0 0).note True := same _
  have f16 : Says deq c.productId (c.restored E v ids 0 0 0).productId (v = .v2_1 → c.productId = []) := says_if _ _ _
  have f17 : Says deq c.sortString (c.restored E v ids 0 0 0).sortString (v = .v2_1 → c.sortString = []) := says_if _ _ _
  have f18 : Says deq c.secrecy (c.restored E v ids 0 0 0).secrecy (v ≠ .v3_0 → c.secrecy = .invalid) := says_if' _ _ _
  have hL : ((c.logo :: c.extraLogos).filter fun x => !x.isEmpty).map (Picture.restored E) = if c.logo.isEmpty = true then [] else c.logo.restored E :: c.extraLogos.map (Picture.restored E) :=
    media Picture.isEmpty _ _ _ (fun p hp => (hm.logo.2 p hp).2) hm.firstLogo
  have hP : ((c.photo :: c.extraPhotos).filter fun x => !x.isEmpty).map (Picture.restored E) = if c.photo.isEmpty = true then [] else c.photo.restored E :: c.extraPhotos.map (Picture.restored E) :=
    media Picture.isEmpty _ _ _ (fun p hp => (hm.photo.2 p hp).2) hm.firstPhoto
  have hS : ((c.sound :: c.extraSounds).filter fun x => !x.isEmpty).map Sound.restored = if c.sound.isEmpty = true then [] else c.sound.restored :: c.extraSounds.map Sound.restored :=
    media Sound.isEmpty _ _ _ (fun p hp => (hm.sound.2 p hp).2) hm.firstSound
  have f19 : Says (Picture.eq E.toQtEnv) c.logo (c.restored E v ids 0 0 0).logo True := by
    show Says _ _ (List.headD (((c.logo :: c.extraLogos).filter fun x => !x.isEmpty).map (Picture.restored E)) {}) _
    rw [hL]
    by_cases h : c.logo.isEmpty = true
    · rw [if_pos h]; exact says_true (picture_none _ _ hm.logo.1 h) trivial
    · rw [if_neg h]; exact says_true (picture_restored E _ hm.logo.1) trivial
  have f20 : Says (Picture.eq E.toQtEnv) c.photo (c.restored E v ids 0 0 0).photo True := by
    show Says _ _ (List.headD (((c.photo :: c.extraPhotos).filter fun x => !x.isEmpty).map (Picture.restored E)) {}) _
    rw [hP]
    by_cases h : c.photo.isEmpty = true
    · rw [if_pos h]; exact says_true (picture_none _ _ hm.photo.1 h) trivial
    · rw [if_neg h]; exact says_true (picture_restored E _ hm.photo.1) trivial
  have f21 : Says Sound.eq c.sound (c.restored E v ids 0 0 0).sound (v = .v4_0 → c.sound.isEmpty = true) := by
    show Says _ _ (List.headD (if v = .v4_0 then [] else ((c.sound :: c.extraSounds).filter fun x => !x.isEmpty).map Sound.restored) {}) _
    rw [hS]
    by_cases hv : v = .v4_0
    · rw [if_pos hv]
      have := sound_none c.sound hm.sound.1
      exact ⟨this.1.trans ⟨fun e _ => e, fun e => e hv⟩, this.2.trans ⟨fun e _ => e, fun e => e hv⟩⟩
    · rw [if_neg hv]
      by_cases h : c.sound.isEmpty = true
      · rw [if_pos h]; exact says_true ⟨(sound_none _ hm.sound.1).1.2 h, (sound_none _ hm.sound.1).2.2 h⟩ fun e => absurd e hv
      · rw [if_neg h]; exact says_true (sound_restored _ hm.sound.1) fun e => absurd e hv
  obtain ⟨f22, f23, f24⟩ := apart_restored E v ids c hids
  have f25 : Says (listEquals deq) c.emails (c.restored E v ids 0 0 0).emails True := sameL _
  have list4 : ∀ {α : Type} [DecidableEq α] (l : List α), Says (listEquals deq) l (if v = .v4_0 then l else []) (v ≠ .v4_0 → l = []) :=
    fun l => says_list (fun h => if_neg h) (fun h => by rw [if_pos h])
  have list2 : ∀ {α : Type} [DecidableEq α] (l : List α), Says (listEquals deq) l (if v = .v2_1 then [] else l) (v = .v2_1 → l = []) := by
    intro α _ l
    have := says_list (l := l) (m := if v = .v2_1 then [] else l) (P := v ≠ .v2_1) (fun h => if_pos (not_not.1 h)) (fun h => by rw [if_neg h])
    exact ⟨this.1.trans (by simp), this.2.trans (by simp)⟩
  have f26 : Says (listEquals deq) c.categories (c.restored E v ids 0 0 0).categories (v = .v2_1 → c.categories = []) := list2 _
  have f27 : Says deq c.customs (c.restored E v ids 0 0 0).customs True := same _
  have f28 : Says deq c.langs (c.restored E v ids 0 0 0).langs (v ≠ .v4_0 → c.langs = []) := says_if' _ _ _
  have f29 : Says deq c.impps (c.restored E v ids 0 0 0).impps True := same _
  have f30 : Says deq c.gender (c.restored E v ids 0 0 0).gender (v ≠ .v4_0 → c.gender = {}) := says_if' _ _ _
  have f31 : Says deq c.kind (c.restored E v ids 0 0 0).kind (v ≠ .v4_0 → c.kind = []) := says_if' _ _ _
  have f32 : Says (listEquals deq) c.calendarUrls (c.restored E v ids 0 0 0).calendarUrls (v ≠ .v4_0 → c.calendarUrls = []) := by
    refine says_list (fun h => if_neg h) fun h => ?_
    show List.Perm _ (if v = .v4_0 then _ else _)
    rw [if_pos h]
    refine calendars _ fun u hu => ?_
    obtain ⟨-, h2, h3, -⟩ := hR.calendarUrls h u hu
    exact ⟨by unfold CalendarUrl.isValid at h2; simp at h2; exact h2.1, h3⟩
  have fP : ∀ l : List Picture, (∀ p ∈ l, p.AsKept ∧ p.isEmpty = false) → Says (listEquals (Picture.eq E.toQtEnv)) l (l.map (Picture.restored E)) True :=
    fun l h => says_true (le_map _ _ l fun p hp => picture_restored E p (h p hp).1) trivial
  have f33 : Says (listEquals Sound.eq) c.extraSounds (c.restored E v ids 0 0 0).extraSounds (v = .v4_0 → c.extraSounds = []) := by
    show Says _ _ (List.tail (if v = .v4_0 then [] else ((c.sound :: c.extraSounds).filter fun x => !x.isEmpty).map Sound.restored)) _
    rw [hS]
    by_cases hv : v = .v4_0
    · rw [if_pos hv]
      exact ⟨(le_nil _ _).trans ⟨fun e _ => e, fun e => e hv⟩, (nil_le _ _).trans ⟨fun e _ => e, fun e => e hv⟩⟩
    · rw [if_neg hv]
      by_cases h : c.sound.isEmpty = true
      · rw [if_pos h, hm.firstSound h]; exact says_true ⟨rfl, rfl⟩ fun _ => rfl
      · rw [if_neg h]; exact says_true (le_map _ _ _ fun s hs => sound_restored s (hm.sound.2 s hs).1) fun e => absurd e hv
  have f34 : Says (listEquals (Picture.eq E.toQtEnv)) c.extraPhotos (c.restored E v ids 0 0 0).extraPhotos True := by
    show Says _ _ (List.tail (((c.photo :: c.extraPhotos).filter fun x => !x.isEmpty).map (Picture.restored E))) _
    rw [hP]
    by_cases h : c.photo.isEmpty = true
    · rw [if_pos h, hm.firstPhoto h]; exact says_true ⟨rfl, rfl⟩ trivial
    · rw [if_neg h]; exact fP _ hm.photo.2
  have f35 : Says (listEquals (Picture.eq E.toQtEnv)) c.extraLogos (c.restored E v ids 0 0 0).extraLogos True := by
    show Says _ _ (List.tail (((c.logo :: c.extraLogos).filter fun x => !x.isEmpty).map (Picture.restored E))) _
    rw [hL]
    by_cases h : c.logo.isEmpty = true
    · rw [if_pos h, hm.firstLogo h]; exact says_true ⟨rfl, rfl⟩ trivial
    · rw [if_neg h]; exact fP _ hm.logo.2
  have f36 : Says (listEquals deq) c.extraUrls (c.restored E v ids 0 0 0).extraUrls True := sameL _
  have f37 : Says (listEquals deq) c.members (c.restored E v ids 0 0 0).members (¬ (v = .v4_0 ∧ toLowerQ c.kind = q! "group") → c.members = []) := by
    refine says_list (fun h => if_neg h) fun h => ?_
    show List.Perm _ (if _ then _ else _)
    rw [if_pos h]
  have f38 : Says (listEquals deq) c.relationships (c.restored E v ids 0 0 0).relationships True := sameL _
  have f39 : Says (listEquals deq) c.sources (c.restored E v ids 0 0 0).sources True := sameL _
  have f40 : Says (listEquals deq) c.fieldGroups (c.restored E v ids 0 0 0).fieldGroups True := by
    have h : (byField c.fieldGroups).Perm c.fieldGroups := List.perm_insertionSort _ _
    exact says_true ⟨le_perm h.symm, le_perm h⟩ trivial
  have f41 : Says (listEquals deq) c.titles (c.restored E v ids 0 0 0).titles True := sameL _
  have f42 : Says (listEquals deq) c.roles (c.restored E v ids 0 0 0).roles True := sameL _
  have f43 : Says (listEquals deq) c.organizations (c.restored E v ids 0 0 0).organizations True := sameL _
  have f44 : Says (listEquals deq) c.nickNames (c.restored E v ids 0 0 0).nickNames (v = .v2_1 → c.nickNames = []) := list2 _
  have f45 : Says (listEquals deq) c.clientPidMaps (c.restored E v ids 0 0 0).clientPidMaps (v ≠ .v4_0 → c.clientPidMaps = []) := list4 _
  have f46 : Says (QDateTime.eq E.toQtEnv) c.deathDate (c.restored E v ids 0 0 0).deathDate (v ≠ .v4_0 → c.deathDate = none) := by
    show Says _ c.deathDate (if v = .v4_0 then c.deathDate else none) _
    by_cases hv : v = .v4_0
    · rw [if_pos hv]
      exact says_true ⟨(time_iff _ _ _).2 rfl, (time_iff _ _ _).2 rfl⟩ fun e => absurd hv e
    · rw [if_neg hv]
      constructor <;> cases c.deathDate <;> simp [QDateTime.eq, hv]
  constructor
  · unfold Contact.eq
    simp only [Bool.and_eq_true, f1.1, f2.1, f3.1, f4.1, f5.1, f6.1, f7.1, f8.1, f9.1, f10.1, f11.1, f12.1, f13.1, f14.1, f15.1, f16.1, f17.1, f18.1, f19.1, f20.1, f21.1,
      f22.1, f23.1, f24.1, f25.1, f26.1, f27.1, f28.1, f29.1, f30.1, f31.1, f32.1, f33.1, f34.1, f35.1, f36.1, f37.1, f38.1, f39.1, f40.1, f41.1, f42.1, f43.1, f44.1,
      f45.1, f46.1, and_true, true_and]
    constructor
    · rintro ⟨⟨⟨⟨⟨⟨⟨⟨⟨⟨⟨⟨⟨⟨⟨⟨⟨⟨⟨⟨⟨a1, a2⟩, a3⟩, a4⟩, a5⟩, a6⟩, a7⟩, a8⟩, a9⟩, a10⟩, a11⟩, a12⟩, a13⟩, a14⟩, a15⟩, a16⟩, a17⟩, a18⟩, a19⟩, a20⟩, a21⟩, a22⟩
      exact ⟨a10, a11, a12, a5, a2, a3, a6, a7, a13, a20, a8, a1, a4, fun h => ⟨a9 h, a18 h⟩, a14, a15, a16, a17, a21, a22, a19⟩
    · rintro ⟨a10, a11, a12, a5, a2, a3, a6, a7, a13, a20, a8, a1, a4, a918, a14, a15, a16, a17, a21, a22, a19⟩
      exact ⟨⟨⟨⟨⟨⟨⟨⟨⟨⟨⟨⟨⟨⟨⟨⟨⟨⟨⟨⟨⟨a1, a2⟩, a3⟩, a4⟩, a5⟩, a6⟩, a7⟩, a8⟩, fun h => (a918 h).1⟩, a10⟩, a11⟩, a12⟩, a13⟩, a14⟩, a15⟩, a16⟩, a17⟩, fun h => (a918 h).2⟩, a19⟩, a20⟩, a21⟩, a22⟩
  · unfold Contact.eq
    simp only [Bool.and_eq_true, f1.2, f2.2, f3.2, f4.2, f5.2, f6.2, f7.2, f8.2, f9.2, f10.2, f11.2, f12.2, f13.2, f14.2, f15.2, f16.2, f17.2, f18.2, f19.2, f20.2, f21.2,
      f22.2, f23.2, f24.2, f25.2, f26.2, f27.2, f28.2, f29.2, f30.2, f31.2, f32.2, f33.2, f34.2, f35.2, f36.2, f37.2, f38.2, f39.2, f40.2, f41.2, f42.2, f43.2, f44.2,
      f45.2, f46.2, and_true, true_and]
    constructor
    · rintro ⟨⟨⟨⟨⟨⟨⟨⟨⟨⟨⟨⟨⟨⟨⟨⟨⟨⟨⟨⟨⟨a1, a2⟩, a3⟩, a4⟩, a5⟩, a6⟩, a7⟩, a8⟩, a9⟩, a10⟩, a11⟩, a12⟩, a13⟩, a14⟩, a15⟩, a16⟩, a17⟩, a18⟩, a19⟩, a20⟩, a21⟩, a22⟩
      exact ⟨a10, a11, a12, a5, a2, a3, a6, a7, a13, a20, a8, a1, a4, fun h => ⟨a9 h, a18 h⟩, a14, a15, a16, a17, a21, a22, a19⟩
    · rintro ⟨a10, a11, a12, a5, a2, a3, a6, a7, a13, a20, a8, a1, a4, a918, a14, a15, a16, a17, a21, a22, a19⟩
      exact ⟨⟨⟨⟨⟨⟨⟨⟨⟨⟨⟨⟨⟨⟨⟨⟨⟨⟨⟨⟨⟨a1, a2⟩, a3⟩, a4⟩, a5⟩, a6⟩, a7⟩, a8⟩, fun h => (a918 h).1⟩, a10⟩, a11⟩, a12⟩, a13⟩, a14⟩, a15⟩, a16⟩, a17⟩, fun h => (a918 h).2⟩, a19⟩, a20⟩, a21⟩, a22⟩

/-- **C108.** A contact that a version of the vCard format can carry is written and read again. What is read compares equal with the contact, in either order,
    exactly if everything a comparison looks at comes through (`AllKept`): above all, there are no phone numbers, addresses and keys, which get new ids. -/
theorem C108_partial (E : ToolEnv) (v : Version) (ids : IdKind → Nat → QString) (hinj : ∀ k i j, ids k i = ids k j → i = j) (c : Contact)
    (hR : Readable E v c) (hu : ∀ i, c.uid ≠ ids .contact i) (hids : NewIds ids c) (hm : MediaAsKept c) :
    ∃ c', WrittenAndRead E v ids c c' ∧ (c.eq E.toQtEnv c' = true ↔ AllKept E.toQtEnv v c) ∧ (c'.eq E.toQtEnv c = true ↔ AllKept E.toQtEnv v c) :=
  ⟨_, C24_contact E v ids hinj c hR hu, compare_restored E v ids c hR hids hm⟩

/-- C108 as stated fails: a contact with a phone number, an address or a key never compares equal with what is read back, whatever its pictures. -/
theorem C108_ids_false (E : ToolEnv) (v : Version) (ids : IdKind → Nat → QString) (hinj : ∀ k i j, ids k i = ids k j → i = j) (c : Contact)
    (hR : Readable E v c) (hu : ∀ i, c.uid ≠ ids .contact i) (hids : NewIds ids c) (h : c.phoneNumbers ≠ [] ∨ c.addresses ≠ [] ∨ c.keys ≠ []) :
    ∃ c', WrittenAndRead E v ids c c' ∧ c.eq E.toQtEnv c' = false ∧ c'.eq E.toQtEnv c = false := by
  refine ⟨_, C24_contact E v ids hinj c hR hu, ?_⟩
  have f := apart_restored E v ids c hids
  constructor
  · rw [Bool.eq_false_iff]
    intro e
    unfold Contact.eq at e
    simp only [Bool.and_eq_true, and_assoc, f.1.1, f.2.1.1, f.2.2.1] at e
    tauto
  · rw [Bool.eq_false_iff]
    intro e
    unfold Contact.eq at e
    simp only [Bool.and_eq_true, and_assoc, f.1.2, f.2.1.2, f.2.2.2] at e
    tauto

private theorem sample_new : NewIds Sample.ids Sample.contact := by
  have hd : ∀ (s : QString) k i, s.head? ≠ (Sample.ids k 0).head? → s ≠ Sample.ids k i := by
    intro s k i h e
    apply h
    rw [e]
    cases k <;> rw [Sample.ids, Sample.ids, List.replicate_succ, List.replicate_succ, List.head?_cons, List.head?_cons]
  refine ⟨?_, ?_, ?_⟩
  · intro p hp i
    refine hd _ _ i ?_
    revert p
    decide
  · intro p hp i
    refine hd _ _ i ?_
    revert p
    decide
  · intro p hp i
    refine hd _ _ i ?_
    revert p
    decide

/-- Non-vacuity: the sample contact has phone numbers, addresses and a key. -/
example (v : Version) : ∃ c', WrittenAndRead Sample.env v Sample.ids Sample.contact c' ∧ Sample.contact.eq Sample.env.toQtEnv c' = false ∧
    c'.eq Sample.env.toQtEnv Sample.contact = false :=
  C108_ids_false _ v _ Sample.ids_inj _ (C24_sample_readable v) C24_sample_uid sample_new (Or.inl (by decide))

/-- the sample contact without phone numbers, addresses and keys, and without what version 3.0 does not have -/
private def bare : Contact :=
  { Sample.contact with phoneNumbers := [], addresses := [], keys := [], langs := [], gender := {}, kind := [], calendarUrls := [], clientPidMaps := [], deathDate := none }

/-- Non-vacuity: names, dates, e-mail addresses, pictures, sounds, custom fields and more, and everything is kept by version 3.0, not by the others. -/
example : (∃ c', WrittenAndRead Sample.env .v3_0 Sample.ids bare c' ∧ bare.eq Sample.env.toQtEnv c' = true ∧ c'.eq Sample.env.toQtEnv bare = true) ∧
    (∃ c', WrittenAndRead Sample.env .v2_1 Sample.ids bare c' ∧ bare.eq Sample.env.toQtEnv c' = false) := by
  have hr : ∀ v, Readable Sample.env v bare := by
    intro v
    have h := C24_sample_readable v
    refine { h with addresses := ?_, labels := ?_, phoneNumbers := ?_, keys := ?_, langs := ?_, gender := ?_, kind := ?_, calendarUrls := ?_, clientPidMaps := ?_, deathDate := ?_ }
    all_goals first
      | (intro a ha; exact (List.not_mem_nil ha).elim)
      | (intro _ a ha; exact (List.not_mem_nil ha).elim)
      | exact fun _ => List.Pairwise.nil
      | exact fun _ => ⟨fun t ht => (List.not_mem_nil ht).elim, List.nodup_nil⟩
      | exact fun _ => ⟨by decide, by decide, asciiSafe_safe (by decide), asciiSafe_safe (by decide)⟩
      | exact fun _ => asciiSafe_safe (by decide)
      | (intro _ x hx; cases hx; done)
  have hids : NewIds Sample.ids bare := ⟨fun p hp => (List.not_mem_nil hp).elim, fun p hp => (List.not_mem_nil hp).elim, fun p hp => (List.not_mem_nil hp).elim⟩
  have hm : MediaAsKept bare := by
    refine ⟨⟨?_, ?_⟩, ⟨?_, ?_⟩, ⟨?_, ?_⟩, ?_, ?_, ?_⟩ <;> first | decide | (simp [Picture.AsKept, Sound.AsKept, bare, Sample.contact, Picture.isEmpty, Sound.isEmpty])
  have hk : AllKept Sample.env.toQtEnv .v3_0 bare := by
    constructor <;> first | decide | (intro h; first | (cases h; done) | rfl | (exact absurd rfl h))
  obtain ⟨c', h1, h2, h3⟩ := C108_partial Sample.env .v3_0 Sample.ids Sample.ids_inj bare (hr _) C24_sample_uid hids hm
  obtain ⟨d', g1, g2, g3⟩ := C108_partial Sample.env .v2_1 Sample.ids Sample.ids_inj bare (hr _) C24_sample_uid hids hm
  refine ⟨⟨c', h1, h2.2 hk, h3.2 hk⟩, d', g1, ?_⟩
  rw [Bool.eq_false_iff]
  intro e
  exact absurd ((g2.1 e).nickNames rfl) (by decide)

end KC
