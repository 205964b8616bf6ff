import Verif.Lemmas.Fields1
/- Helper lemmas: the fields of a contact after writing and reading, part 2: dates, time zone, position, gender, categories. -/
namespace KC
open Spec

/-! ### values -/

theorem tz_value (o : Int) (h : -6000 < o ∧ o < 6000) : readTimeZone (timeZoneText o) = some { offset := o, isValid := true } := by
  have h1 : o.natAbs / 60 < 100 := by omega
  have h2 : o.natAbs % 60 < 100 := by omega
  unfold timeZoneText readTimeZone
  rw [padded2 _ h1, padded2 _ h2]
  have e1 : mid ((if o ≥ 0 then qc! '+' else qc! '-') :: ([dig (o.natAbs / 60 / 10), dig (o.natAbs / 60 % 10)] ++ qc! ':' :: [dig (o.natAbs % 60 / 10), dig (o.natAbs % 60 % 10)])) 1 2
      = [dig (o.natAbs / 60 / 10), dig (o.natAbs / 60 % 10)] := rfl
  have e2 : mid ((if o ≥ 0 then qc! '+' else qc! '-') :: ([dig (o.natAbs / 60 / 10), dig (o.natAbs / 60 % 10)] ++ qc! ':' :: [dig (o.natAbs % 60 / 10), dig (o.natAbs % 60 % 10)])) 4 2
      = [dig (o.natAbs % 60 / 10), dig (o.natAbs % 60 % 10)] := rfl
  simp only [e1, e2, toIntQ2 _ h1, toIntQ2 _ h2]
  congr 2
  split
  · rw [if_pos rfl]; omega
  · rw [if_neg (by decide)]; omega

theorem tz_bare (o : Int) : Bare (timeZoneText o) := by
  unfold timeZoneText
  refine .cons ?_ ((Bare.padded _ _).append (.cons (by decide) (Bare.padded _ _)))
  split <;> decide

theorem number_bare {s : QString} (h : NumberText s) : Bare s := fun u hu => by
  rcases h.2 u hu with rfl | rfl | h
  · decide
  · decide
  · refine ⟨by omega, ?_⟩
    rintro rfl
    exact absurd h.2 (by decide)

theorem number_not_mem {s : QString} (h : NumberText s) {x : UInt16} (h1 : x ≠ qc! '-') (h2 : x ≠ qc! '.') (h3 : ¬ (48 ≤ x.toNat ∧ x.toNat ≤ 57)) : x ∉ s := fun hx => by
  rcases h.2 x hx with h | h | h
  · exact h1 h
  · exact h2 h
  · exact h3 h

theorem replaceAll_absent {x : UInt16} {p by_ : QString} : ∀ (n : Nat) (s : QString), x ∉ s → replaceAll (x :: p) by_ n s = s
  | 0, _, _ => rfl
  | _ + 1, [], _ => rfl
  | n + 1, y :: t, h => by
    unfold replaceAll
    rw [if_neg, replaceAll_absent n t (fun hm => h (by simp [hm]))]
    rintro ⟨-, hs⟩
    simp only [startsWith, List.length_cons, List.take_succ_cons, beq_iff_eq, List.cons.injEq] at hs
    exact h (by rw [hs.1]; simp)

theorem replaceStr_front {pat s : QString} (hp : pat ≠ []) (hs : ∀ u ∈ pat, u ∉ s) : replaceStr pat [] (pat ++ s) = s := by
  rcases pat with _ | ⟨x, p⟩
  · exact absurd rfl hp
  · unfold replaceStr
    rw [show ((x :: p) ++ s).length = (p ++ s).length + 1 from rfl, List.cons_append, replaceAll]
    rw [if_pos]
    · show [] ++ replaceAll (x :: p) [] _ (List.drop p.length (p ++ s)) = s
      rw [List.drop_left, replaceAll_absent _ _ (hs x (by simp))]; rfl
    · exact ⟨by simp, by simp [startsWith]⟩

theorem geo_of {E : ToolEnv} {read : QString → Flt} {g : Geo} (h : PositionOK E read g) (hv : g.isValid = true) :
    ((({} : Geo).setLatitude (read (E.fmt6 g.latitude))).setLongitude (read (E.fmt6 g.longitude))) = g := by
  rw [h.lat.1, h.long.1]
  unfold Geo.isValid at hv
  simp only [Bool.and_eq_true] at hv
  unfold Geo.setLatitude
  rw [if_pos (by simp [h.latRange])]
  unfold Geo.setLongitude
  rw [if_pos (by simp [h.longRange])]
  obtain ⟨a, b, c, d⟩ := g
  obtain ⟨rfl, rfl⟩ := hv
  rfl

theorem geo_value {E : ToolEnv} {g : Geo} (v : Version) (h : PositionOK E E.toFloat g) (hv : g.isValid = true) :
    readGeo E (if v = .v4_0 then q! "geo:" ++ E.fmt6 g.latitude ++ qc! ',' :: E.fmt6 g.longitude else E.fmt6 g.latitude ++ qc! ';' :: E.fmt6 g.longitude) = some g := by
  have hl := h.lat.2
  have hg := h.long.2
  unfold readGeo
  split
  · have hs : startsWith (q! "geo:") (q! "geo:" ++ E.fmt6 g.latitude ++ qc! ',' :: E.fmt6 g.longitude) = true := rfl
    rw [if_pos hs, List.append_assoc, replaceStr_front (by decide)]
    · rw [splitOn_append_sep, splitOn_of_not_mem _ _ (number_not_mem hl (by decide) (by decide) (by decide)), splitOn_of_not_mem _ _ (number_not_mem hg (by decide) (by decide) (by decide))]
      simp only [List.length_append, List.length_cons, List.length_nil]
      rw [if_pos (by omega)]
      exact congrArg some (geo_of h hv)
    · intro u hu hm
      have h' : u ≠ qc! '-' ∧ u ≠ qc! '.' ∧ ¬ (48 ≤ u.toNat ∧ u.toNat ≤ 57) ∧ u ≠ qc! ',' := by
        clear hm; revert u; decide
      rcases List.mem_append.1 hm with hm | hm
      · exact number_not_mem hl h'.1 h'.2.1 h'.2.2.1 hm
      · rcases List.mem_cons.1 hm with hm | hm
        · exact h'.2.2.2 hm
        · exact number_not_mem hg h'.1 h'.2.1 h'.2.2.1 hm
  · have hs : startsWith (q! "geo:") (E.fmt6 g.latitude ++ qc! ';' :: E.fmt6 g.longitude) = false := by
      rcases e : E.fmt6 g.latitude with _ | ⟨x, t⟩
      · exact absurd e hl.1
      · have : x ≠ qc! 'g' := by
          rintro rfl
          exact number_not_mem (x := qc! 'g') hl (by decide) (by decide) (by decide) (by rw [e]; simp)
        simp [startsWith, this]
    simp only [hs, Bool.false_eq_true, if_false]
    rw [splitOn_append_sep, splitOn_of_not_mem _ _ (number_not_mem hl (by decide) (by decide) (by decide)), splitOn_of_not_mem _ _ (number_not_mem hg (by decide) (by decide) (by decide))]
    simp only [List.length_append, List.length_cons, List.length_nil]
    rw [if_pos (by omega)]
    exact congrArg some (geo_of h hv)

theorem gender_value (g : Gender) (h1 : g.gender.length ≤ 1) (h2 : g.gender ≠ [qc! ';'])
    (hne : g.gender ++ (if g.comment.isEmpty then [] else qc! ';' :: g.comment) ≠ []) :
    readGender (g.gender ++ if g.comment.isEmpty then [] else qc! ';' :: g.comment) = g := by
  obtain ⟨a, b⟩ := g
  rcases a with _ | ⟨x, _ | ⟨y, a⟩⟩
  · rcases b with _ | ⟨z, b⟩
    · simp at hne
    · rfl
  · have hx : x ≠ qc! ';' := fun e => h2 (by rw [e])
    rcases b with _ | ⟨z, b⟩
    · simp [readGender, hx]
    · simp [readGender, hx]
  · simp at h1

variable {E : ToolEnv} {v : Version} {c : Contact}

section
variable (hR : Carriable E v c) (ids : IdKind → Nat → QString) (s : RState)
include hR

theorem bdayLines_eq : bdayLines v c = [mkLine (q! "BDAY") (.str (createDateTime c.birthday (v = .v4_0) c.birthdayWithTime))
    (if v = .v4_0 then [(q! "VALUE", q! "DATE")] else [])] := by
  unfold bdayLines
  simp only
  split
  · rw [textLine_eq, mkLine_add]; rfl
  · rw [textLine_eq]

theorem fine_bday : Fine E (bdayLines v c) := by
  rw [bdayLines_eq hR]
  refine fine_one (fine_text _ (nameGood_lit (by decide)) (datetime_safe _ _ _) ?_)
  split
  · intro p hp
    rw [List.mem_singleton] at hp; subst hp
    exact (pair_single (k := q! "value") (by decide) (by decide) (by decide)).1
  · simp

theorem back_birthday (h0 : s.c.birthday = none ∧ s.c.birthdayWithTime = false) :
    (back E v ids c s).c.birthday = (if c.birthdayWithTime then c.birthday else c.birthday.dateOnly) ∧
    (back E v ids c s).c.birthdayWithTime = (c.birthday.isSome && c.birthdayWithTime) := by
  suffices h : ((back E v ids c s).c.birthday, (back E v ids c s).c.birthdayWithTime) =
      ((if c.birthdayWithTime then c.birthday else c.birthday.dateOnly), (c.birthday.isSome && c.birthdayWithTime)) from
    ⟨congrArg Prod.fst h, congrArg Prod.snd h⟩
  rw [back, comp_birthday, sec_lines hR 2 (q! "BDAY") rfl (by decide) (named_bday v c)]
  show ((bdayLines v c).filterMap readBack).foldl _ _ = _
  rw [bdayLines_eq hR, fold_one (by decide)]
  cases hb : c.birthday with
  | none =>
    rw [if_pos (C15_none _ _).1, h0.1, h0.2]
    cases c.birthdayWithTime <;> rfl
  | some d =>
    obtain ⟨hd, ht⟩ := hR.birthday d hb
    have key : parseDateTime (createDateTime (some d) (decide (v = .v4_0)) c.birthdayWithTime) =
        (if c.birthdayWithTime then some d else QDateTime.dateOnly (some d), c.birthdayWithTime) := by
      cases hw : c.birthdayWithTime with
      | true => exact C15_datetime d _ hd (ht hw)
      | false => exact C15_date d _ hd
    rw [if_neg]
    · show (if _ then _ else _) = _
      simp only [rdLine, QVariant.toString, key, h0.1]
      have : ∀ q : QDateTime, q.isSome = true → QDateTime.eq E.toQtEnv q none = false := by
        intro q hq; cases q with
        | none => cases hq
        | some _ => rfl
      rw [this _ (by split <;> rfl)]
      simp only [Bool.false_and, Bool.false_eq_true, if_false, Option.isSome_some, Bool.true_and]
      cases c.birthdayWithTime <;> rfl
    · intro e
      rw [e] at key
      have : (parseDateTime []).1 = none := by decide
      rw [key] at this
      change (if c.birthdayWithTime then some d else QDateTime.dateOnly (some d)) = none at this
      split at this <;> cases this

theorem date_step (d : QDateTime) (v4 : Bool) (hd : DateTimeOK d) :
    (if createDateTime d v4 = [] then none else
      (if QDateTime.eq E.toQtEnv (parseDateTime (createDateTime d v4)).1 none then none else (parseDateTime (createDateTime d v4)).1)) = d := by
  cases d with
  | none => rfl
  | some d =>
    have key := C15_datetime d v4 (hd d rfl).1 (hd d rfl).2
    rw [if_neg, key]
    · rfl
    · intro e
      rw [e] at key
      exact absurd (congrArg Prod.fst key) (by show (parseDateTime []).1 ≠ some d; rw [show (parseDateTime []).1 = none by decide]; simp)

theorem back_revision (h0 : s.c.revision = none) : (back E v ids c s).c.revision = c.revision := by
  rw [back, comp_revision, sec_lines hR 24 (q! "REV") rfl (by decide) (named_rev v c)]
  show ((revLines v c).filterMap readBack).foldl _ _ = _
  unfold revLines
  rw [textLine_eq, fold_one (by decide), h0]
  exact date_step hR c.revision _ hR.revision

theorem fine_rev : Fine E (revLines v c) :=
  fine_one (by rw [textLine_eq]; exact fine_text _ (nameGood_lit (by decide)) (datetime_safe _ _ _) (by simp))

theorem back_deathDate (h0 : s.c.deathDate = none) : (back E v ids c s).c.deathDate = if v = .v4_0 then c.deathDate else none := by
  rw [back, comp_deathDate, sec_lines hR 3 (q! "DEATHDATE") rfl (by decide) (named_death v c)]
  show ((deathLines v c).filterMap readBack).foldl _ _ = _
  unfold deathLines
  split
  · rename_i hv
    rw [textLine_eq, fold_one (by decide), h0]
    exact date_step hR c.deathDate _ (hR.deathDate hv)
  · exact h0

theorem fine_death : Fine E (deathLines v c) := fine_ite (fun _ =>
  fine_one (by rw [textLine_eq]; exact fine_text _ (nameGood_lit (by decide)) (datetime_safe _ _ _) (by simp))) fun _ => fine_nil

theorem back_timeZone (h0 : s.c.timeZone = {}) : (back E v ids c s).c.timeZone = if c.timeZone.isValid then c.timeZone else {} := by
  rw [back, comp_timeZone, sec_lines hR 30 (q! "TZ") rfl (by decide) (named_tz c)]
  show ((tzLines c).filterMap readBack).foldl _ _ = _
  unfold tzLines
  split
  · rename_i hv
    rw [textLine_eq, fold_one (by decide), if_neg (by simp [timeZoneText]), h0]
    simp only [rdLine, QVariant.toString, tz_value _ (hR.timeZone hv)]
    rcases ht : c.timeZone with ⟨o, b⟩
    rw [ht] at hv
    cases hv
    rfl
  · exact h0

theorem fine_tz : Fine E (tzLines c) := fine_ite (fun _ =>
  fine_one (by rw [textLine_eq]; exact fine_text _ (nameGood_lit (by decide)) (safe_ascii (tz_bare _)) (by simp))) fun _ => fine_nil

theorem back_geo (h0 : s.c.geo = {}) : (back E v ids c s).c.geo = if c.geo.isValid then c.geo else {} := by
  rw [back, comp_geo, sec_lines hR 13 (q! "GEO") rfl (by decide) (named_geo E v c)]
  show ((geoLines E v c).filterMap readBack).foldl _ _ = _
  unfold geoLines
  split
  · rename_i hv
    have hg := hR.geo hv
    rw [textLine_eq, fold_one (by decide), if_neg, h0]
    · have := geo_value v hg hv
      simp only [rdLine, QVariant.toString, this]
      have : c.geo.eq {} = false := by
        unfold Geo.eq
        rw [show Geo.isValid {} = false from rfl, hv]; rfl
      simp [this]
    · split
      · simp
      · intro e; exact hg.lat.2.1 (by simpa using (List.append_eq_nil_iff.1 e).1)
  · exact h0

theorem fine_geo : Fine E (geoLines E v c) := fine_ite (fun hv => by
  have hg := hR.geo hv
  refine fine_one ?_
  rw [textLine_eq]
  refine fine_text _ (nameGood_lit (by decide)) (safe_ascii ?_) (by simp)
  exact Bare.ite (Bare.append (Bare.append (by unfold Bare; decide) (number_bare hg.lat.2)) (.cons (by decide) (number_bare hg.long.2)))
    (Bare.append (number_bare hg.lat.2) (.cons (by decide) (number_bare hg.long.2)))) fun _ => fine_nil

theorem back_gender (h0 : s.c.gender = {}) : (back E v ids c s).c.gender = if v = .v4_0 then c.gender else {} := by
  rw [back, comp_gender, sec_lines hR 33 (q! "GENDER") rfl (by decide) (named_gender v c)]
  show ((genderLines v c).filterMap readBack).foldl _ _ = _
  unfold genderLines
  by_cases hv : v = .v4_0
  · rw [if_pos hv]
    obtain ⟨h1, h2, -⟩ := hR.gender hv
    by_cases hg : c.gender.isValid = true
    · have hne : c.gender.gender ++ (if c.gender.comment.isEmpty then [] else qc! ';' :: c.gender.comment) ≠ [] := by
        unfold Gender.isValid at hg
        intro e
        obtain ⟨e1, e2⟩ := List.append_eq_nil_iff.1 e
        rw [e1] at hg
        cases hc : c.gender.comment with
        | nil => rw [hc] at hg; simp at hg
        | cons _ _ => rw [hc] at e2; simp at e2
      rw [if_pos (by simp [hv, hg]), textLine_eq, fold_one (by decide), if_neg hne]
      show (if List.isEmpty (c.gender.gender ++ _) then _ else readGender (c.gender.gender ++ _)) = _
      rw [if_neg (by simpa using hne), gender_value _ h1 h2 hne]
    · rw [if_neg (by simp [hg])]
      show s.c.gender = _
      rw [h0]
      unfold Gender.isValid at hg
      rcases h : c.gender with ⟨a, b⟩
      rw [h] at hg
      simp at hg
      rw [hg.1, hg.2]
  · rw [if_neg (by simp [hv]), if_neg hv]; exact h0

theorem fine_gender : Fine E (genderLines v c) := fine_ite (fun h => by
  simp only [Bool.and_eq_true, decide_eq_true_eq] at h
  obtain ⟨-, -, h3, h4⟩ := hR.gender h.1
  refine fine_one ?_
  rw [textLine_eq]
  refine fine_text _ (nameGood_lit (by decide)) ?_ (by simp)
  split
  · rw [List.append_nil]; exact h3
  · exact h4) fun _ => fine_nil

theorem back_categories (h0 : s.c.categories = []) : (back E v ids c s).c.categories = if v = .v2_1 then [] else c.merged.categories := by
  rw [back, comp_categories, sec_lines hR 4 (q! "CATEGORIES") rfl (by decide) (named_category v c)]
  show ((categoryLines v c).filterMap readBack).foldl _ _ = _
  unfold categoryLines
  by_cases hv : v = .v2_1
  · rw [if_neg (by simp [hv]), if_pos hv]; exact h0
  · have hm : c.merged.categories = if c.categories = [[]] then [] else merged (qc! ',') c.categories := rfl
    rw [if_pos hv, if_neg hv, textLine_eq, fold_one (by decide)]
    split
    · rename_i e
      rcases joinEscaped_eq_nil e with h | h
      · rw [h0, hm, h]; rfl
      · rw [h0, hm, if_pos h]
    · rename_i e
      rw [hm, if_neg (by intro h; exact e (by rw [h]; rfl))]
      exact split_merged (.inr rfl) (by intro h; exact e (by rw [h]; rfl))

theorem fine_categories : Fine E (categoryLines v c) := fine_ite (fun hv => by
  have := (hR.categories hv).coded (.inr rfl)
  unfold CodedText at this
  rw [if_neg (by simp [hv])] at this
  exact fine_one (by rw [textLine_eq]; exact fine_text _ (nameGood_lit (by decide)) this (by simp))) fun _ => fine_nil

end
end KC
