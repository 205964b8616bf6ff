import Verif.Lemmas.DateTime
import Verif.Spec.DateTime
import Mathlib.Tactic.Tauto
/-
  C15: dates and times survive the date format of vCards.
  (That the text reaches the reader unchanged inside a whole card is in Props/C24.lean.)
-/
namespace KC

/-! ### Proof -/

theorem daysInMonth_le (y m : Int) : daysInMonth y m ≤ 31 := by
  unfold daysInMonth; repeat' split
  all_goals omega

theorem DateOK.bounds {d : Int × Nat × Nat} (h : DateOK d) : 1 ≤ d.2.1 ∧ d.2.1 ≤ 12 ∧ 1 ≤ d.2.2 ∧ d.2.2 ≤ 31 := by
  have := h.valid
  simp only [validDate, Bool.and_eq_true, decide_eq_true_eq] at this
  have := daysInMonth_le d.1 d.2.1
  omega

theorem createDate_eq (d : Int × Nat × Nat) (h : DateOK d) (v4 : Bool) :
    createDate d v4 =
      (if d.1 > 0 then [dig (d.1.toNat / 1000), dig (d.1.toNat / 100 % 10), dig (d.1.toNat / 10 % 10), dig (d.1.toNat % 10)] ++
        (if v4 then [] else [qc! '-']) else [qc! '-', qc! '-']) ++ [dig (d.2.1 / 10), dig (d.2.1 % 10)] ++ (if v4 then [] else [qc! '-']) ++
        [dig (d.2.2 / 10), dig (d.2.2 % 10)] := by
  have hb := h.bounds
  unfold createDate
  have hy := h.year
  by_cases h0 : d.1 > 0
  · simp only [h0, if_true]
    rw [padded4 _ (by omega), padded2 _ (by omega), padded2 _ (by omega)]
  · simp only [h0, if_false]
    rw [padded2 _ (by omega), padded2 _ (by omega)]

theorem parseDatePart_create (d : Int × Nat × Nat) (h : DateOK d) (v4 : Bool) :
    parseDatePart (createDate d v4) = some d ∧ qc! 'T' ∉ createDate d v4 := by
  have hb := h.bounds
  have hy := h.year
  obtain ⟨y, m, dd⟩ := d
  simp only at hb hy
  have hval : validDate y m dd = true := h.valid
  rw [createDate_eq _ h]
  have fm1 := dig_facts (m / 10) (by omega)
  have fm2 := dig_facts (m % 10) (by omega)
  have fd1 := dig_facts (dd / 10) (by omega)
  have fd2 := dig_facts (dd % 10) (by omega)
  by_cases h0 : y > 0
  · have fy1 := dig_facts (y.toNat / 1000) (by omega)
    have fy2 := dig_facts (y.toNat / 100 % 10) (by omega)
    have fy3 := dig_facts (y.toNat / 10 % 10) (by omega)
    have fy4 := dig_facts (y.toNat % 10) (by omega)
    have hrem : removeChar (qc! '-') ([dig (y.toNat / 1000), dig (y.toNat / 100 % 10), dig (y.toNat / 10 % 10), dig (y.toNat % 10)] ++
        (if v4 then [] else [qc! '-']) ++ [dig (m / 10), dig (m % 10)] ++ (if v4 then [] else [qc! '-']) ++ [dig (dd / 10), dig (dd % 10)]) =
        [dig (y.toNat / 1000), dig (y.toNat / 100 % 10), dig (y.toNat / 10 % 10), dig (y.toNat % 10), dig (m / 10), dig (m % 10),
          dig (dd / 10), dig (dd % 10)] := by
      unfold removeChar
      cases v4 <;> simp [fy1.1, fy2.1, fy3.1, fy4.1, fm1.1, fm2.1, fd1.1, fd2.1]
    constructor
    · simp only [h0, if_true]
      unfold parseDatePart
      have hs : startsWith (q! "--") ([dig (y.toNat / 1000), dig (y.toNat / 100 % 10), dig (y.toNat / 10 % 10), dig (y.toNat % 10)] ++
        (if v4 then [] else [qc! '-']) ++ [dig (m / 10), dig (m % 10)] ++ (if v4 then [] else [qc! '-']) ++ [dig (dd / 10), dig (dd % 10)]) = false := by
        unfold startsWith
        cases v4 <;> simp [fy1.1]
      simp only [hs, hrem, Bool.false_eq_true, if_false, mid, List.drop_succ_cons, List.drop_zero, List.take_succ_cons, List.take_zero]
      rw [toIntQ4 _ (by omega), toIntQ2 _ (by omega), toIntQ2 _ (by omega), Int.toNat_of_nonneg (by omega)]
      simp [hval]
    · simp only [h0, if_true]
      cases v4 <;> simp [fy1.2.2.2.1.symm, fy2.2.2.2.1.symm, fy3.2.2.2.1.symm, fy4.2.2.2.1.symm, fm1.2.2.2.1.symm, fm2.2.2.2.1.symm, fd1.2.2.2.1.symm, fd2.2.2.2.1.symm]
  · have hy1 : y = -1 := by omega
    have hrem : removeChar (qc! '-') ([qc! '-', qc! '-'] ++ [dig (m / 10), dig (m % 10)] ++ (if v4 then [] else [qc! '-']) ++ [dig (dd / 10), dig (dd % 10)]) =
        [dig (m / 10), dig (m % 10), dig (dd / 10), dig (dd % 10)] := by
      unfold removeChar
      cases v4 <;> simp [fm1.1, fm2.1, fd1.1, fd2.1]
    constructor
    · simp only [h0, if_false]
      unfold parseDatePart
      have hs : startsWith (q! "--") ([qc! '-', qc! '-'] ++ [dig (m / 10), dig (m % 10)] ++ (if v4 then [] else [qc! '-']) ++ [dig (dd / 10), dig (dd % 10)]) = true := by
        unfold startsWith
        cases v4 <;> simp
      simp only [hs, hrem, if_true, mid, List.drop_succ_cons, List.drop_zero, List.take_succ_cons, List.take_zero]
      rw [toIntQ2 _ (by omega), toIntQ2 _ (by omega), ← hy1]
      simp [hval]
    · simp only [h0, if_false]
      cases v4 <;> simp [fm1.2.2.2.1.symm, fm2.2.2.2.1.symm, fd1.2.2.2.1.symm, fd2.2.2.2.1.symm]

theorem indexQ_append (c : UInt16) (l r : QString) (h : c ∉ l) : indexQ c (l ++ c :: r) = l.length := by
  unfold indexQ; rw [indexOf?_append c l r h]
theorem indexQ_none (c : UInt16) (l : QString) (h : c ∉ l) : indexQ c l = -1 := by
  unfold indexQ; rw [indexOf?_none c l h]

/-- the digits of a time of day -/
def hmsDigits (t : Nat × Nat × Nat × Nat) : QString :=
  [dig (t.1 / 10), dig (t.1 % 10), dig (t.2.1 / 10), dig (t.2.1 % 10), dig (t.2.2.1 / 10), dig (t.2.2.1 % 10)]

/-- the zone without colons -/
def zoneText : Option Int → QString
  | none => []
  | some o =>
    if o = 0 then [qc! 'Z']
    else (if o ≥ 0 then qc! '+' else qc! '-') :: [dig (o.natAbs / 3600 / 10), dig (o.natAbs / 3600 % 10), dig (o.natAbs / 60 % 60 / 10), dig (o.natAbs / 60 % 60 % 10)]

theorem digs_no (c x : UInt16) (a b d e : Nat) (ha : a < 10) (hb : b < 10) (hd : d < 10) (he : e < 10) (hx : c ≠ x)
    (hc : ∀ n < 10, dig n ≠ c) : c ∉ x :: [dig a, dig b, dig d, dig e] := by
  intro h
  simp only [List.mem_cons, List.not_mem_nil, or_false] at h
  rcases h with h | h | h | h | h
  · exact hx h
  · exact hc _ ha h.symm
  · exact hc _ hb h.symm
  · exact hc _ hd h.symm
  · exact hc _ he h.symm

theorem create_eq (d : DT) (v4 : Bool) (ht : TimeOK d.time d.zone) :
    ∃ z, createDateTime (some d) v4 true = createDate d.date v4 ++ qc! 'T' :: z ∧ removeChar (qc! ':') z = hmsDigits d.time ++ zoneText d.zone := by
  obtain ⟨date, ⟨h, m, s, ms⟩, zone⟩ := d
  obtain ⟨h1, h2, h3, h4, h5⟩ := ht
  simp only at h1 h2 h3 h4 h5
  have f1 := dig_facts (h / 10) (by omega)
  have f2 := dig_facts (h % 10) (by omega)
  have f3 := dig_facts (m / 10) (by omega)
  have f4 := dig_facts (m % 10) (by omega)
  have f5 := dig_facts (s / 10) (by omega)
  have f6 := dig_facts (s % 10) (by omega)
  cases zone with
  | none =>
    refine Exists.intro ?z0 (And.intro ?a0 ?b0)
    case a0 =>
      simp only [createDateTime, createTime]
      rfl
    case b0 =>
      rw [padded2 _ (by omega), padded2 _ (by omega), padded2 _ (by omega)]
      unfold removeChar hmsDigits zoneText
      cases v4 <;> simp [f1.2.2.1, f2.2.2.1, f3.2.2.1, f4.2.2.1, f5.2.2.1, f6.2.2.1]
  | some o =>
    by_cases h0 : o = 0
    · subst h0
      refine Exists.intro ?z1 (And.intro ?a1 ?b1)
      case a1 =>
        simp only [createDateTime, createTime, if_true, Bool.not_true, Bool.false_eq_true, if_false, List.append_assoc, List.cons_append]
        rfl
      case b1 =>
        rw [padded2 _ (by omega), padded2 _ (by omega), padded2 _ (by omega)]
        unfold removeChar hmsDigits zoneText
        cases v4 <;> simp [f1.2.2.1, f2.2.2.1, f3.2.2.1, f4.2.2.1, f5.2.2.1, f6.2.2.1]
    · have ho := h5 o rfl
      have e1 : o.natAbs % 86400 = o.natAbs := by omega
      have f7 := dig_facts (o.natAbs / 3600 / 10) (by omega)
      have f8 := dig_facts (o.natAbs / 3600 % 10) (by omega)
      have f9 := dig_facts (o.natAbs / 60 % 60 / 10) (by omega)
      have f10 := dig_facts (o.natAbs / 60 % 60 % 10) (by omega)
      refine Exists.intro ?z2 (And.intro ?a2 ?b2)
      case a2 =>
        simp only [createDateTime, createTime, h0, Bool.not_true, Bool.false_eq_true, if_false, List.append_assoc, List.cons_append, e1]
        rfl
      case b2 =>
        rw [padded2 _ (by omega), padded2 _ (by omega), padded2 _ (by omega), padded2 _ (by omega), padded2 _ (by omega)]
        unfold removeChar hmsDigits zoneText
        simp only [h0, if_false]
        clear e1
        generalize dig (o.natAbs / 3600 / 10) = x7 at *
        generalize dig (o.natAbs / 3600 % 10) = x8 at *
        generalize dig (o.natAbs / 60 % 60 / 10) = x9 at *
        generalize dig (o.natAbs / 60 % 60 % 10) = x10 at *
        by_cases hp : o ≥ 0 <;> cases v4 <;>
          simp [hp, h0, f1.2.2.1, f2.2.2.1, f3.2.2.1, f4.2.2.1, f5.2.2.1, f6.2.2.1, f7.2.2.1, f8.2.2.1, f9.2.2.1, f10.2.2.1]

theorem zone_facts (o : Int) (h0 : o ≠ 0) (ho : -57600 ≤ o ∧ o ≤ 57600 ∧ o % 60 = 0) :
    ∃ sgn zs, zoneText (some o) = sgn :: zs ∧ (sgn = qc! '+' ∨ sgn = qc! '-') ∧ qc! 'Z' ∉ zs ∧ qc! '+' ∉ zs ∧ qc! '-' ∉ zs ∧
      parseOffset zs (decide (sgn = qc! '-')) = o := by
  have hno : ∀ c x : UInt16, c ≠ x → (∀ n < 10, dig n ≠ c) → c ∉ [dig (o.natAbs / 3600 / 10), dig (o.natAbs / 3600 % 10), dig (o.natAbs / 60 % 60 / 10), dig (o.natAbs / 60 % 60 % 10)] := by
    intro c x hx hc h
    exact digs_no c x _ _ _ _ (by omega) (by omega) (by omega) (by omega) hx hc (List.mem_cons_of_mem _ h)
  have hZ := hno (qc! 'Z') 0 (by decide) (fun n hn => (dig_facts n hn).2.2.2.2.1)
  have hP := hno (qc! '+') 0 (by decide) (fun n hn => (dig_facts n hn).2.1)
  have hM := hno (qc! '-') 0 (by decide) (fun n hn => (dig_facts n hn).1)
  have hoff : ∀ b : Bool, parseOffset [dig (o.natAbs / 3600 / 10), dig (o.natAbs / 3600 % 10), dig (o.natAbs / 60 % 60 / 10), dig (o.natAbs / 60 % 60 % 10)] b =
      if b then -(o.natAbs : Int) else o.natAbs := by
    intro b
    simp only [parseOffset, List.length_cons, List.length_nil, mid, List.drop_succ_cons, List.drop_zero, List.take_succ_cons, List.take_zero]
    rw [toIntQ2 _ (by omega), toIntQ2 _ (by omega)]
    cases b
    · simp only [Bool.false_eq_true, if_false]; omega
    · simp only [if_true]; omega
  refine ⟨if o ≥ 0 then qc! '+' else qc! '-', _, if_neg h0, by split <;> simp, hZ, hP, hM, ?_⟩
  rw [hoff]
  by_cases hp : o ≥ 0
  · simp only [hp, if_true]
    rw [if_neg (by decide)]; omega
  · simp only [hp, if_false]
    rw [if_pos (by decide)]; omega

/-- C15: date, time and zone survive, in each version of the format (3.0 and 2.1 write dates alike). -/
theorem C15_datetime (d : DT) (v4 : Bool) (hd : DateOK d.date) (ht : TimeOK d.time d.zone) :
    parseDateTime (createDateTime (some d) v4) = (some d, true) := by
  obtain ⟨z, hz, hr⟩ := create_eq d v4 ht
  obtain ⟨hp, hT⟩ := parseDatePart_create d.date hd v4
  rw [hz]
  unfold parseDateTime
  rw [indexQ_append _ _ _ hT]
  have hdrop : (createDate d.date v4 ++ qc! 'T' :: z).drop ((createDate d.date v4).length + 1) = z := by
    rw [← List.drop_drop, List.drop_left]; rfl
  simp only [Int.natCast_nonneg, ge_iff_le, if_true, Int.toNat_natCast, List.take_left, hp, hdrop, hr]
  obtain ⟨date, ⟨h, m, s, ms⟩, zone⟩ := d
  obtain ⟨h1, h2, h3, h4, h5⟩ := ht
  simp only at h1 h2 h3 h4 h5
  subst h4
  have f1 := dig_facts (h / 10) (by omega)
  have f2 := dig_facts (h % 10) (by omega)
  have f3 := dig_facts (m / 10) (by omega)
  have f4 := dig_facts (m % 10) (by omega)
  have f5 := dig_facts (s / 10) (by omega)
  have f6 := dig_facts (s % 10) (by omega)
  have hno : ∀ c, (c = qc! '-' ∨ c = qc! '+' ∨ c = qc! 'Z') → c ∉ hmsDigits (h, m, s, 0) := by
    unfold hmsDigits
    rintro c (rfl | rfl | rfl) <;>
      simp [f1.1.symm, f2.1.symm, f3.1.symm, f4.1.symm, f5.1.symm, f6.1.symm, f1.2.1.symm, f2.2.1.symm, f3.2.1.symm, f4.2.1.symm, f5.2.1.symm,
        f6.2.1.symm, f1.2.2.2.2.1.symm, f2.2.2.2.2.1.symm, f3.2.2.2.2.1.symm, f4.2.2.2.2.1.symm, f5.2.2.2.2.1.symm, f6.2.2.2.2.1.symm]
  have hhms : parseHms (hmsDigits (h, m, s, 0)) = ((h : Int), (m : Int), (s : Int)) := by
    unfold parseHms hmsDigits
    simp only [List.length_cons, List.length_nil, mid, List.drop_succ_cons, List.drop_zero, List.take_succ_cons, List.take_zero]
    rw [toIntQ2 _ (by omega), toIntQ2 _ (by omega), toIntQ2 _ (by omega)]
  have hvt : validTime (h : Int) (m : Int) (s : Int) = true := by
    simp only [validTime, Bool.and_eq_true, decide_eq_true_eq]; omega
  cases zone with
  | none =>
    have hz' : zoneText none = [] := rfl
    rw [hz', List.append_nil, indexQ_none _ _ (hno _ (by simp)), indexQ_none _ _ (hno _ (by simp)), indexQ_none _ _ (hno _ (by simp))]
    simp [hhms, hvt]
  | some o =>
    by_cases h0 : o = 0
    · subst h0
      have hz' : zoneText (some 0) = [qc! 'Z'] := rfl
      rw [hz', indexQ_append _ _ _ (hno _ (by simp)), indexQ_none (qc! '+') _ (by
          rw [List.mem_append]; rintro (hc | hc)
          · exact hno _ (by simp) hc
          · exact absurd hc (by decide)), indexQ_none (qc! '-') _ (by
          rw [List.mem_append]; rintro (hc | hc)
          · exact hno _ (by simp) hc
          · exact absurd hc (by decide))]
      have hl : (hmsDigits (h, m, s, 0)).length = 6 := rfl
      have e : max (max ((hmsDigits (h, m, s, 0)).length : Int) (-1)) (-1) = (hmsDigits (h, m, s, 0)).length := by rw [hl]; rfl
      simp [e, hhms, hvt]
    · have ho := h5 o rfl
      obtain ⟨sgn, zs, hz', hs, hZ, hP, hM, hoff⟩ := zone_facts o h0 ho
      rw [hz']
      have hl : (hmsDigits (h, m, s, 0)).length = 6 := rfl
      have hdr : (hmsDigits (h, m, s, 0) ++ sgn :: zs).drop ((hmsDigits (h, m, s, 0)).length + 1) = zs := by
        rw [← List.drop_drop, List.drop_left]; rfl
      have hnone : ∀ c : UInt16, (c = qc! '-' ∨ c = qc! '+' ∨ c = qc! 'Z') → c ≠ sgn → c ∉ zs → indexQ c (hmsDigits (h, m, s, 0) ++ sgn :: zs) = -1 := by
        intro c hc hne hzs
        apply indexQ_none
        rw [List.mem_append, List.mem_cons]
        rintro (h' | h' | h')
        · exact hno c hc h'
        · exact hne h'
        · exact hzs h'
      rcases hs with rfl | rfl
      · rw [indexQ_append _ _ _ (hno _ (by simp)), hnone (qc! 'Z') (by simp) (by decide) hZ, hnone (qc! '-') (by simp) (by decide) hM]
        have e : max (max (-1) ((hmsDigits (h, m, s, 0)).length : Int)) (-1) = (hmsDigits (h, m, s, 0)).length := by rw [hl]; rfl
        have e2 : decide ((43 : UInt16) = 45) = false := by decide
        rw [e2] at hoff
        simp only [e, Int.natCast_nonneg, ge_iff_le, if_true, Int.toNat_natCast, List.take_left, hhms, hvt, hdr]
        simp [hoff, ho.1, ho.2.1]
      · rw [indexQ_append _ _ _ (hno _ (by simp)), hnone (qc! 'Z') (by simp) (by decide) hZ, hnone (qc! '+') (by simp) (by decide) hP]
        have e : max (max (-1) (-1)) ((hmsDigits (h, m, s, 0)).length : Int) = (hmsDigits (h, m, s, 0)).length := by rw [hl]; rfl
        have e2 : decide ((45 : UInt16) = 45) = true := by decide
        rw [e2] at hoff
        simp only [e, Int.natCast_nonneg, ge_iff_le, if_true, Int.toNat_natCast, List.take_left, hhms, hvt, hdr]
        simp [hoff, ho.1, ho.2.1]

/-- C15 for dates without a time: the date survives, and it is known that there is no time. -/
theorem C15_date (d : DT) (v4 : Bool) (hd : DateOK d.date) :
    parseDateTime (createDateTime (some d) v4 false) = (some { date := d.date, time := (0, 0, 0, 0), zone := none }, false) := by
  obtain ⟨hp, hT⟩ := parseDatePart_create d.date hd v4
  have : createDateTime (some d) v4 false = createDate d.date v4 := rfl
  rw [this]
  unfold parseDateTime
  rw [indexQ_none _ _ hT]
  simp [hp]

/-- No date is read from what is written for no date. -/
theorem C15_none (v4 w : Bool) : createDateTime none v4 w = [] ∧ (parseDateTime []).1 = none := ⟨rfl, by decide⟩

/-- Non-vacuity: leap days with and without year, the largest offset, an offset with minutes west of Greenwich. -/
example : DateOK (2000, 2, 29) ∧ DateOK (-1, 2, 29) ∧ DateOK (9999, 12, 31) ∧ ¬ DateOK (1900, 2, 29) ∧
    TimeOK (23, 59, 59, 0) (some 57600) ∧ TimeOK (0, 0, 0, 0) (some (-12600)) ∧ TimeOK (12, 30, 0, 0) none := by
  refine ⟨⟨by decide, by decide⟩, ⟨by decide, by decide⟩, ⟨by decide, by decide⟩, fun h => absurd h.day (by decide),
    ⟨by decide, by decide, by decide, by decide, ?_⟩, ⟨by decide, by decide, by decide, by decide, ?_⟩, ⟨by decide, by decide, by decide, by decide, ?_⟩⟩
  · rintro o h; cases h; decide
  · rintro o h; cases h; decide
  · rintro o h; cases h
example : parseDateTime (createDateTime (some ⟨(2016, 1, 20), (8, 5, 3, 0), some (-12600)⟩) false) =
    (some ⟨(2016, 1, 20), (8, 5, 3, 0), some (-12600)⟩, true) := by decide

/-! ### Outside of this range: milliseconds, seconds of an offset, years before 1 and after 9999 are lost. -/

theorem C15_milliseconds_false : ¬ ∀ d : DT, (parseDateTime (createDateTime (some d) true)).1 = some d := by
  intro h; exact absurd (h ⟨(2016, 1, 20), (8, 5, 3, 7), none⟩) (by decide)
theorem C15_offset_seconds_false : ¬ ∀ d : DT, d.time.2.2.2 = 0 → (parseDateTime (createDateTime (some d) true)).1 = some d := by
  intro h; exact absurd (h ⟨(2016, 1, 20), (8, 5, 3, 0), some 3601⟩ rfl) (by decide)
theorem C15_year_false : ¬ ∀ d : DT, d.time = (0, 0, 0, 0) → d.zone = none → RealDay d.date →
    (parseDateTime (createDateTime (some d) true)).1 = some d := by
  intro h; exact absurd (h ⟨(10000, 1, 20), (0, 0, 0, 0), none⟩ rfl rfl (by decide)) (by decide)

end KC
