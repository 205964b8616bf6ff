import Verif.Lemmas.CardFields
/-
  The fields of a contact read from the lines of one card: dates, positions, pictures and sounds.
-/
namespace KC
open KC.Spec

/-! ### dates -/

theorem fold_dates {β : Type} (E : QtEnv) (f : β → QDateTime) (l : List β) (x d : QDateTime) (h : QDateTime.eq E x d = true) :
    QDateTime.eq E (l.foldl (fun x b => if QDateTime.eq E (f b) x = true then x else f b) x) ((l.map f).getLast?.getD d) = true := by
  induction l generalizing x d with
  | nil => exact h
  | cons b l ih =>
    rw [List.foldl_cons, List.map_cons, List.getLast?_cons, Option.getD_some]
    apply ih
    split
    · rename_i h'; exact QDateTime.eq_symm' E h'
    · exact QDateTime.eq_refl' E _

theorem fold_birthday {β : Type} (E : QtEnv) (f : β → QDateTime × Bool) (l : List β) (x d : QDateTime × Bool) (h : QDateTime.eq E x.1 d.1 = true) (h' : x.2 = d.2) :
    QDateTime.eq E (l.foldl (fun x b => if (QDateTime.eq E (f b).1 x.1 && x.2 = (f b).2) = true then x else f b) x).1 ((l.map fun b => (f b).1).getLast?.getD d.1) = true ∧
    (l.foldl (fun x b => if (QDateTime.eq E (f b).1 x.1 && x.2 = (f b).2) = true then x else f b) x).2 = (l.map fun b => (f b).2).getLast?.getD d.2 := by
  induction l generalizing x d with
  | nil => exact ⟨h, h'⟩
  | cons b l ih =>
    rw [List.foldl_cons, List.map_cons, List.map_cons, List.getLast?_cons, List.getLast?_cons, Option.getD_some, Option.getD_some]
    apply ih _ (f b)
    · split
      · rename_i h'
        simp only [Bool.and_eq_true, decide_eq_true_eq] at h'
        exact QDateTime.eq_symm' E h'.1
      · exact QDateTime.eq_refl' E _
    · split
      · rename_i h'
        simp only [Bool.and_eq_true, decide_eq_true_eq] at h'
        exact h'.2
      · rfl

theorem midnight_map (d : Option (Int × Nat × Nat)) (z : Option Int) (b : Bool) :
    QDateTime.midnight (if b = true then d.map fun d => { date := d, time := (0, 0, 0, 0), zone := z } else none) =
      if b = true then d.map fun d => { date := d, time := (0, 0, 0, 0), zone := z } else none := by
  cases b <;> cases d <;> rfl

theorem parse_midnight (v : QString) (h : (parseDateTime v).2 = false) : QDateTime.midnight (parseDateTime v).1 = (parseDateTime v).1 := by
  unfold parseDateTime at h ⊢
  simp only at h ⊢
  split
  · rename_i hp
    rw [if_pos hp] at h
    simp only at h ⊢
    rw [h]
    simp only [Bool.false_eq_true, if_false]
    exact midnight_map _ _ _
  · exact midnight_map _ _ true

section
variable (E : ToolEnv) (ids : IdKind → Nat → QString) (s0 : RState) (L : List VCardLine)

theorem part_deathDate (h0 : s0.c.deathDate = none) : QDateTime.eq E.toQtEnv (L.foldl (readLine E ids) s0).c.deathDate
    (((named L [q! "deathdate"]).map fun l => (parseDateTime (valueText l)).1).getLast?.getD none) = true := by
  have := read_part E ids (fun s => s.c.deathDate) [.deathdate]
    (fun x l => if QDateTime.eq E.toQtEnv (parseDateTime (valueText l)).1 x = true then x else (parseDateTime (valueText l)).1)
    (by other_lines (fun s : RState => s.c.deathDate))
    (by
      intro s l ht
      replace ht : tagOf l = .deathdate := by simpa using ht
      simp only [readLine, ht, Contact.setDeathDate]
      unfold valueText
      split <;> rfl) L s0
  rw [this, show named L [q! "deathdate"] = _ from named_eq_tags L [(q! "deathdate", .deathdate)] (by decide +kernel)]
  exact fold_dates _ _ _ _ _ (by rw [h0]; rfl)

theorem part_revision (h0 : s0.c.revision = none) : QDateTime.eq E.toQtEnv (L.foldl (readLine E ids) s0).c.revision
    (((named L [q! "rev"]).map fun l => (parseDateTime (valueText l)).1).getLast?.getD none) = true := by
  have := read_part E ids (fun s => s.c.revision) [.rev]
    (fun x l => if QDateTime.eq E.toQtEnv (parseDateTime (valueText l)).1 x = true then x else (parseDateTime (valueText l)).1)
    (by other_lines (fun s : RState => s.c.revision))
    (by
      intro s l ht
      replace ht : tagOf l = .rev := by simpa using ht
      simp only [readLine, ht, Contact.setRevision]
      unfold valueText
      split <;> rfl) L s0
  rw [this, show named L [q! "rev"] = _ from named_eq_tags L [(q! "rev", .rev)] (by decide +kernel)]
  exact fold_dates _ _ _ _ _ (by rw [h0]; rfl)

theorem part_birthday (h0 : s0.c.birthday = none) (h1 : s0.c.birthdayWithTime = false) :
    QDateTime.eq E.toQtEnv (L.foldl (readLine E ids) s0).c.birthday (((named L [q! "bday"]).map fun l => (parseDateTime (valueText l)).1).getLast?.getD none) = true ∧
    (L.foldl (readLine E ids) s0).c.birthdayWithTime = ((named L [q! "bday"]).map fun l => (parseDateTime (valueText l)).2).getLast?.getD false := by
  have := read_part E ids (fun s => (s.c.birthday, s.c.birthdayWithTime)) [.bday]
    (fun x l => if (QDateTime.eq E.toQtEnv (parseDateTime (valueText l)).1 x.1 && x.2 = (parseDateTime (valueText l)).2) = true then x else parseDateTime (valueText l))
    (by other_lines (fun s : RState => (s.c.birthday, s.c.birthdayWithTime)))
    (by
      intro s l ht
      replace ht : tagOf l = .bday := by simpa using ht
      simp only [readLine, ht, Contact.setBirthday]
      unfold valueText
      split
      · rfl
      · show (_, _) = _
        rw [Prod.ext_iff]
        refine ⟨?_, rfl⟩
        show (if (parseDateTime l.value.toString).2 = true then _ else _) = _
        split
        · rfl
        · rename_i h
          exact parse_midnight _ (by simpa using h)) L s0
  rw [Prod.ext_iff] at this
  dsimp only at this
  rw [this.1, this.2, show named L [q! "bday"] = _ from named_eq_tags L [(q! "bday", .bday)] (by decide +kernel)]
  exact fold_birthday _ (fun l => parseDateTime (valueText l)) _ _ (none, false) (by rw [h0]; rfl) h1

/-! ### time zone, position, gender -/

theorem timeZoneOf_eq (l : VCardLine) : timeZoneOf l = readTimeZone l.value.toString := by
  unfold timeZoneOf readTimeZone valueText
  cases h : l.value.toString with
  | nil => rfl
  | cons c s =>
    simp only [mid, List.drop_succ_cons, List.drop_zero, Option.some.injEq, TimeZone.mk.injEq, and_true]
    split
    · rw [Int.mul_one]
    · rw [Int.mul_neg, Int.mul_one]

theorem part_timeZone : (L.foldl (readLine E ids) s0).c.timeZone = ((named L [q! "tz"]).filterMap timeZoneOf).getLast?.getD s0.c.timeZone := by
  refine part_some E ids s0 L (fun s => s.c.timeZone) [(q! "tz", .tz)] (by decide +kernel) _ (by other_lines (fun s : RState => s.c.timeZone)) ?_
  intro s l ht
  replace ht : tagOf l = .tz := by simpa using ht
  have hv : ∀ t, readTimeZone l.value.toString = some t → t.isValid = true := by
    intro t h
    unfold readTimeZone at h
    split at h
    · exact absurd h (by simp)
    · simp only [Option.some.injEq] at h
      rw [← h]
  simp only [readLine, ht, timeZoneOf_eq]
  cases h : readTimeZone l.value.toString with
  | none => rfl
  | some t =>
    simp only [Contact.setTimeZone, Option.getD_some]
    split
    · rename_i he
      have := hv t h
      unfold TimeZone.eq at he
      obtain ⟨o, v⟩ := t
      cases hc : s.c.timeZone with
      | mk o' v' =>
      rw [hc] at he
      dsimp only at this
      subst this
      cases v' <;> simp at he
      rw [he]
    · rfl

theorem position_self (a b : Flt) : (position a b).eq (position a b) = true := by
  have key : ∀ (lo hi x : Flt), (lo.le x && x.le hi) = true → x.eq x = true := by
    intro lo hi x h
    cases x with
    | nan => cases lo <;> simp [Flt.le] at h
    | _ => simp [Flt.eq]
  unfold Geo.eq
  by_cases hv : (position a b).isValid = true
  · rw [hv]
    simp only [Bool.not_true, Bool.and_self, Bool.or_self, Bool.false_eq_true, if_false]
    unfold position Geo.setLatitude Geo.setLongitude at hv ⊢
    by_cases h1 : ((Flt.ofInt (-90)).le a && a.le (.ofInt 90)) = true
    · by_cases h2 : ((Flt.ofInt (-180)).le b && b.le (.ofInt 180)) = true
      · rw [if_pos h1, if_pos h2]
        simp [key _ _ _ h1, key _ _ _ h2]
      · rw [if_neg h2] at hv
        simp [Geo.isValid] at hv
    · rw [if_neg h1] at hv
      split at hv <;> simp [Geo.isValid] at hv
  · rw [Bool.not_eq_true] at hv
    rw [hv]
    rfl

theorem two_parts {α : Type} (p : List QString) (f : QString → QString → α) :
    (if p.length ≥ 2 then some (f (p.getD 0 []) (p.getD 1 [])) else none) = (match p with | a :: b :: _ => some (f a b) | _ => none) := by
  match p with
  | [] => rfl
  | [_] => rfl
  | _ :: _ :: _ => simp

theorem positionOf_eq (l : VCardLine) : positionOf E l = readGeo E l.value.toString := by
  unfold positionOf readGeo valueText
  exact (two_parts _ (fun a b => position (E.toFloat a) (E.toFloat b))).symm

theorem readGeo_self (v : QString) (g : Geo) (h : readGeo E v = some g) : g.eq g = true := by
  unfold readGeo at h
  generalize (if startsWith (q! "geo:") v = true then splitOn (qc! ',') (replaceStr (q! "geo:") [] v) else splitOn (qc! ';') v) = p at h
  by_cases hp : p.length ≥ 2
  · rw [if_pos hp, Option.some.injEq] at h
    rw [← h]
    exact position_self _ _
  · rw [if_neg hp] at h
    exact absurd h (by simp)

theorem part_geo (h0 : s0.c.geo = {}) : Geo.eq (((named L [q! "geo"]).filterMap (positionOf E)).getLast?.getD {}) (L.foldl (readLine E ids) s0).c.geo = true := by
  have := read_part E ids (fun s => s.c.geo) [.geo]
    (fun x l => (readGeo E l.value.toString).elim x fun g => if g.eq x = true then x else g)
    (by other_lines (fun s : RState => s.c.geo))
    (by
      intro s l ht
      replace ht : tagOf l = .geo := by simpa using ht
      simp only [readLine, ht]
      cases readGeo E l.value.toString with
      | none => rfl
      | some g =>
        simp only [Contact.setGeo, Option.elim]
        split <;> rfl) L s0
  rw [this, show named L [q! "geo"] = _ from named_eq_tags L [(q! "geo", .geo)] (by decide +kernel)]
  have gen : ∀ (l : List VCardLine) (x d : Geo), d.eq x = true →
      Geo.eq ((l.filterMap (positionOf E)).getLast?.getD d) (l.foldl (fun x l => (readGeo E l.value.toString).elim x fun g => if g.eq x = true then x else g) x) = true := by
    intro l
    induction l with
    | nil => intro x d h; exact h
    | cons b l ih =>
      intro x d h
      rw [List.foldl_cons]
      cases hb : readGeo E b.value.toString with
      | none =>
        rw [List.filterMap_cons_none (by rw [positionOf_eq, hb])]
        exact ih x d h
      | some g =>
        rw [List.filterMap_cons_some (by rw [positionOf_eq, hb]), List.getLast?_cons, Option.getD_some]
        apply ih
        simp only [Option.elim]
        split
        · assumption
        · exact readGeo_self E _ g hb
  exact gen _ _ _ (by rw [h0]; decide)

theorem genderOf_eq (l : VCardLine) : genderOf l = if l.value.toString = [] then none else some (readGender l.value.toString) := by
  unfold genderOf valueText
  generalize l.value.toString = v
  match v with
  | [] => rfl
  | [c] =>
    by_cases h : c = 59
    · subst h; rfl
    · rw [if_neg (by simp)]
      unfold readGender
      dsimp only
      rw [if_pos h]
      split
      · rename_i h'; exact absurd h' (by simp)
      · rename_i h'; simp at h'; exact absurd h'.1 h
      · simp_all
      · rename_i h'; simp at h'
      · rename_i h'; simp_all
  | c :: d :: r =>
    by_cases h : c = 59
    · subst h; rfl
    · rw [if_neg (by simp)]
      unfold readGender
      dsimp only
      rw [if_pos h]
      by_cases hd : d = 59
      · subst hd
        split
        · rename_i h'; exact absurd h' (by simp)
        · rename_i h'; simp at h'; exact absurd h'.1 h
        · rename_i h'; simp at h'
        · rename_i h'
          simp only [List.cons.injEq, true_and] at h'
          obtain ⟨rfl, rfl⟩ := h'
          cases r <;> simp
        · rename_i h3 h'
          simp only [List.cons.injEq] at h'
          exact absurd h'.2.symm (h3 r)
      · split <;> simp_all

theorem part_gender : (L.foldl (readLine E ids) s0).c.gender = ((named L [q! "gender"]).filterMap genderOf).getLast?.getD s0.c.gender := by
  refine part_some E ids s0 L (fun s => s.c.gender) [(q! "gender", .gender)] (by decide +kernel) _ (by other_lines (fun s : RState => s.c.gender)) ?_
  intro s l ht
  replace ht : tagOf l = .gender := by simpa using ht
  simp only [readLine, ht, genderOf_eq, List.isEmpty_iff]
  split
  · rfl
  · simp only [Contact.setGender, Option.getD_some]
    split
    · rename_i h; exact h.symm
    · rfl

/-! ### pictures and sounds -/

theorem card_fold_first {α β : Type} (isEmpty : α → Bool) (f : β → α) (same : α → α → Bool) (hs : ∀ a b, isEmpty a = false → isEmpty b = true → same a b = false)
    (he : ∀ a b, same a b = true → isEmpty b = true → isEmpty a = true) (l : List β) (x : α) (hx : isEmpty x = true) :
    FirstAndRest isEmpty (l.map f)
      (l.foldl (fun (x : α × List α) b => if isEmpty x.1 = true then (if same (f b) x.1 = true then x.1 else f b, x.2) else (x.1, x.2 ++ [f b])) (x, [])).1
      (l.foldl (fun (x : α × List α) b => if isEmpty x.1 = true then (if same (f b) x.1 = true then x.1 else f b, x.2) else (x.1, x.2 ++ [f b])) (x, [])).2 := by
  have full : ∀ (l : List β) (x : α) (r : List α), isEmpty x = false →
      l.foldl (fun (x : α × List α) b => if isEmpty x.1 = true then (if same (f b) x.1 = true then x.1 else f b, x.2) else (x.1, x.2 ++ [f b])) (x, r) = (x, r ++ l.map f) := by
    intro l
    induction l with
    | nil => intro x r _; simp
    | cons b l ih =>
      intro x r h
      rw [List.foldl_cons, if_neg (by simp [h]), ih _ _ h, List.map_cons, List.append_assoc]
      rfl
  induction l generalizing x with
  | nil => exact ⟨hx, rfl⟩
  | cons b l ih =>
    unfold FirstAndRest
    rw [List.foldl_cons, if_pos hx, List.map_cons]
    by_cases hb : isEmpty (f b) = true
    · rw [List.dropWhile_cons_of_pos hb]
      apply ih
      split
      · exact hx
      · exact hb
    · rw [List.dropWhile_cons_of_neg hb]
      rw [Bool.not_eq_true] at hb
      rw [hs _ _ hb hx, if_neg (by simp), full _ _ _ hb]
      exact ⟨rfl, by simp⟩

theorem picture_same (E : QtEnv) (a b : Picture) (ha : a.isEmpty = false) (hb : b.isEmpty = true) : a.eq E b = false := by
  unfold Picture.eq
  by_cases h1 : a.isIntern = b.isIntern
  · rw [if_neg (by simpa using h1)]
    by_cases h2 : a.type = b.type
    · rw [if_neg (by simpa using h2)]
      unfold Picture.isEmpty at ha hb
      cases hi : b.isIntern
      · rw [hi] at h1 hb
        rw [h1] at ha ⊢
        simp at ha hb ⊢
        rw [hb]
        exact ha
      · rw [hi] at h1 hb
        rw [h1] at ha ⊢
        simp at ha hb ⊢
        simp [hb.1, hb.2]
    · rw [if_pos (by simpa using h2)]
  · rw [if_pos (by simpa using h1)]

theorem sound_same (a b : Sound) (ha : a.isEmpty = false) (hb : b.isEmpty = true) : a.eq b = false := by
  unfold Sound.eq
  by_cases h1 : a.isIntern = b.isIntern
  · rw [if_neg (by simpa using h1)]
    by_cases h2 : a.type = b.type
    · rw [if_neg (by simpa using h2)]
      unfold Sound.isEmpty at ha hb
      cases hi : b.isIntern
      · rw [hi] at h1 hb
        rw [h1] at ha ⊢
        simp at ha hb ⊢
        rw [hb]
        exact ha
      · rw [hi] at h1 hb
        rw [h1] at ha ⊢
        simp at ha hb ⊢
        rw [hb]
        exact ha
    · rw [if_pos (by simpa using h2)]
  · rw [if_pos (by simpa using h1)]

theorem soundOf_eq (l : VCardLine) : soundOf l = parseSound l := by
  unfold soundOf parseSound
  simp only [Bool.and_eq_true, decide_eq_true_eq]
  rfl

theorem part_sound (h0 : s0.c.sound = {}) (h1 : s0.c.extraSounds = []) :
    FirstAndRest (·.isEmpty) ((named L [q! "sound"]).map soundOf) (L.foldl (readLine E ids) s0).c.sound (L.foldl (readLine E ids) s0).c.extraSounds := by
  have := read_part E ids (fun s => (s.c.sound, s.c.extraSounds)) [.sound]
    (fun x l => if x.1.isEmpty = true then (if (soundOf l).eq x.1 = true then x.1 else soundOf l, x.2) else (x.1, x.2 ++ [soundOf l]))
    (by other_lines (fun s : RState => (s.c.sound, s.c.extraSounds)))
    (by
      intro s l ht
      replace ht : tagOf l = .sound := by simpa using ht
      simp only [readLine, ht, Contact.setSound, Contact.insertExtraSound, soundOf_eq]
      split
      · split <;> rfl
      · rfl) L s0
  rw [Prod.ext_iff] at this
  dsimp only at this
  rw [this.1, this.2, show named L [q! "sound"] = _ from named_eq_tags L [(q! "sound", .sound)] (by decide +kernel), h0, h1]
  exact card_fold_first (fun s : Sound => s.isEmpty) soundOf (fun a b => a.eq b) sound_same
    (fun a b h hb => by cases ha : a.isEmpty with | true => rfl | false => rw [sound_same a b ha hb] at h; exact absurd h (by simp)) _ _ rfl

theorem fold_pictures (E : QtEnv) (l : List VCardLine) (x : Picture) (r : List Picture) :
    l.foldl (fun (x : Picture × List Picture) l => (parsePicture l).elim x fun p =>
      if x.1.isEmpty = true then (if p.eq E x.1 = true then x.1 else p, x.2) else (x.1, x.2 ++ [p])) (x, r) =
    (l.filterMap parsePicture).foldl (fun x p => if x.1.isEmpty = true then (if p.eq E x.1 = true then x.1 else p, x.2) else (x.1, x.2 ++ [p])) (x, r) := by
  induction l generalizing x r with
  | nil => rfl
  | cons b l ih =>
    rw [List.foldl_cons]
    cases h : parsePicture b with
    | none => rw [List.filterMap_cons_none h]; exact ih x r
    | some p => rw [List.filterMap_cons_some h, List.foldl_cons]; exact ih _ _

theorem part_photo (h0 : s0.c.photo = {}) (h1 : s0.c.extraPhotos = []) :
    FirstAndRest (·.isEmpty) ((named L [q! "photo"]).filterMap parsePicture) (L.foldl (readLine E ids) s0).c.photo (L.foldl (readLine E ids) s0).c.extraPhotos := by
  have := read_part E ids (fun s => (s.c.photo, s.c.extraPhotos)) [.photo]
    (fun x l => (parsePicture l).elim x fun p => if x.1.isEmpty = true then (if p.eq E.toQtEnv x.1 = true then x.1 else p, x.2) else (x.1, x.2 ++ [p]))
    (by other_lines (fun s : RState => (s.c.photo, s.c.extraPhotos)))
    (by
      intro s l ht
      replace ht : tagOf l = .photo := by simpa using ht
      simp only [readLine, ht, Contact.setPhoto, Contact.insertExtraPhoto]
      cases parsePicture l with
      | none => rfl
      | some p =>
        simp only [Option.elim]
        split
        · split <;> rfl
        · rfl) L s0
  rw [fold_pictures, Prod.ext_iff] at this
  dsimp only at this
  rw [this.1, this.2, show named L [q! "photo"] = _ from named_eq_tags L [(q! "photo", .photo)] (by decide +kernel), h0, h1]
  have := card_fold_first (fun s : Picture => s.isEmpty) id (fun a b => a.eq E.toQtEnv b) (picture_same E.toQtEnv)
    (fun a b h hb => by cases ha : a.isEmpty with | true => rfl | false => rw [picture_same _ a b ha hb] at h; exact absurd h (by simp))
    ((L.filter fun l => decide (tagOf l ∈ [Tag.photo])).filterMap parsePicture) {} rfl
  rw [List.map_id] at this
  exact this

theorem part_logo (h0 : s0.c.logo = {}) (h1 : s0.c.extraLogos = []) :
    FirstAndRest (·.isEmpty) ((named L [q! "logo"]).filterMap parsePicture) (L.foldl (readLine E ids) s0).c.logo (L.foldl (readLine E ids) s0).c.extraLogos := by
  have := read_part E ids (fun s => (s.c.logo, s.c.extraLogos)) [.logo]
    (fun x l => (parsePicture l).elim x fun p => if x.1.isEmpty = true then (if p.eq E.toQtEnv x.1 = true then x.1 else p, x.2) else (x.1, x.2 ++ [p]))
    (by other_lines (fun s : RState => (s.c.logo, s.c.extraLogos)))
    (by
      intro s l ht
      replace ht : tagOf l = .logo := by simpa using ht
      simp only [readLine, ht, Contact.setLogo, Contact.insertExtraLogo]
      cases parsePicture l with
      | none => rfl
      | some p =>
        simp only [Option.elim]
        split
        · split <;> rfl
        · rfl) L s0
  rw [fold_pictures, Prod.ext_iff] at this
  dsimp only at this
  rw [this.1, this.2, show named L [q! "logo"] = _ from named_eq_tags L [(q! "logo", .logo)] (by decide +kernel), h0, h1]
  have := card_fold_first (fun s : Picture => s.isEmpty) id (fun a b => a.eq E.toQtEnv b) (picture_same E.toQtEnv)
    (fun a b h hb => by cases ha : a.isEmpty with | true => rfl | false => rw [picture_same _ a b ha hb] at h; exact absurd h (by simp))
    ((L.filter fun l => decide (tagOf l ∈ [Tag.logo])).filterMap parsePicture) {} rfl
  rw [List.map_id] at this
  exact this

end
end KC
