import Verif.Props.C15
import Verif.Model.LdifConverter
/-
  C73: time stamps in the forms other programs write (ISO 8601: with or without separators, truncated times, the forms of a zone)
  are read as the moment they name.
-/
namespace KC

namespace Spec

/-- Two decimal digits. -/
def two (n : Nat) : QString := [UInt16.ofNat (48 + n / 10), UInt16.ofNat (48 + n % 10)]
/-- Four decimal digits. -/
def four (n : Nat) : QString := two (n / 100) ++ two (n % 100)

/-- The forms of a zone: none (local time), `Z`, `+hh` or `-hh`, `+hhmm`, `+hh:mm` and the same with `-`. -/
inductive StampZone where
  | none_
  | utc
  | hours (west : Bool) (h : Nat)
  | minutes (west : Bool) (h m : Nat) (colon : Bool)
deriving DecidableEq

/-- The forms of a time: `hh`, `hhmm`, `hhmmss`, the latter two also with colons. -/
inductive StampTime where
  | toHour (h : Nat)
  | toMinute (h m : Nat) (colon : Bool)
  | toSecond (h m s : Nat) (colon : Bool)
deriving DecidableEq

/-- A time stamp; year -1 is a date without year (`--MM-dd`). -/
structure Stamp where
  date : Int × Nat × Nat
  dashes : Bool
  time : StampTime
  zone : StampZone
deriving DecidableEq

def sign (west : Bool) : QString := if west then q! "-" else q! "+"
def colonIf (b : Bool) : QString := if b then q! ":" else []
def dashIf (b : Bool) : QString := if b then q! "-" else []

def StampZone.text : StampZone → QString
  | .none_ => []
  | .utc => q! "Z"
  | .hours w h => sign w ++ two h
  | .minutes w h m c => sign w ++ two h ++ colonIf c ++ two m

def StampTime.text : StampTime → QString
  | .toHour h => two h
  | .toMinute h m c => two h ++ colonIf c ++ two m
  | .toSecond h m s c => two h ++ colonIf c ++ two m ++ colonIf c ++ two s

def dateText (d : Int × Nat × Nat) (dashes : Bool) : QString :=
  (if d.1 = -1 then q! "--" else four d.1.toNat ++ dashIf dashes) ++ two d.2.1 ++ dashIf dashes ++ two d.2.2

def Stamp.text (t : Stamp) : QString := dateText t.date t.dashes ++ q! "T" ++ t.time.text ++ t.zone.text

/-- Seconds ahead of UTC; `none` is local time. -/
def StampZone.offset : StampZone → Option Int
  | .none_ => none
  | .utc => some 0
  | .hours w h => some (if w then -(h * 3600 : Int) else h * 3600)
  | .minutes w h m _ => some (if w then -(h * 3600 + m * 60 : Int) else h * 3600 + m * 60)

/-- Hour, minute, second; what is not given is 0. -/
def StampTime.clock : StampTime → Nat × Nat × Nat
  | .toHour h => (h, 0, 0)
  | .toMinute h m _ => (h, m, 0)
  | .toSecond h m s _ => (h, m, s)

def StampZone.OK : StampZone → Prop
  | .none_ => True
  | .utc => True
  | .hours _ h => h ≤ 16
  | .minutes _ h m _ => h * 60 + m ≤ 16 * 60 ∧ m < 60

/-- The stamp names a moment: an existing day, a time of day, and a zone of at most 16 hours. -/
structure Stamp.OK (t : Stamp) : Prop where
  year : t.date.1 = -1 ∨ (1 ≤ t.date.1 ∧ t.date.1 ≤ 9999)
  day : RealDay t.date
  hour : t.time.clock.1 < 24
  minute : t.time.clock.2.1 < 60
  second : t.time.clock.2.2 < 60
  zone : t.zone.OK

end Spec

open Spec

private theorem stamp_core (d : Int × Nat × Nat) (dp z D Z : QString) (h m s : Nat) (zone : Option Int)
    (hp : parseDatePart dp = some d) (hT : qc! 'T' ∉ dp) (hr : removeChar (qc! ':') z = D ++ Z)
    (hno : ∀ c, (c = qc! '-' ∨ c = qc! '+' ∨ c = qc! 'Z') → c ∉ D)
    (hhms : parseHms D = ((h : Int), (m : Int), (s : Int))) (hvt : h < 24 ∧ m < 60 ∧ s < 60)
    (hz : (Z = [] ∧ zone = none) ∨ (Z = [qc! 'Z'] ∧ zone = some 0) ∨
      ∃ sgn zs o, Z = sgn :: zs ∧ zone = some o ∧ (sgn = qc! '+' ∨ sgn = qc! '-') ∧ qc! 'Z' ∉ zs ∧ qc! '+' ∉ zs ∧ qc! '-' ∉ zs ∧
        parseOffset zs (decide (sgn = qc! '-')) = o ∧ -57600 ≤ o ∧ o ≤ 57600) :
    parseDateTime (dp ++ qc! 'T' :: z) = (some { date := d, time := (h, m, s, 0), zone := zone }, true) := by
  unfold parseDateTime
  rw [indexQ_append _ _ _ hT]
  have hdrop : (dp ++ qc! 'T' :: z).drop (dp.length + 1) = z := by
    rw [← List.drop_drop, List.drop_left]; rfl
  simp only [Int.natCast_nonneg, ge_iff_le, if_true, Int.toNat_natCast, List.take_left, hp, hdrop, hr]
  have hvt : validTime (h : Int) (m : Int) (s : Int) = true := by
    simp only [validTime, Bool.and_eq_true, decide_eq_true_eq]; omega
  rcases hz with ⟨rfl, rfl⟩ | ⟨rfl, rfl⟩ | ⟨sgn, zs, o, rfl, rfl, hs, hZ, hP, hM, hoff, ho⟩
  · rw [List.append_nil, indexQ_none _ _ (hno _ (by simp)), indexQ_none _ _ (hno _ (by simp)), indexQ_none _ _ (hno _ (by simp))]
    simp [hhms, hvt]
  · rw [indexQ_append _ _ _ (hno _ (by simp)), indexQ_none (qc! '+') _ (by
          rw [List.mem_append]; rintro (hc | hc)
          · exact hno _ (by simp) hc
          · exact absurd hc (by decide)), indexQ_none (qc! '-') _ (by
          rw [List.mem_append]; rintro (hc | hc)
          · exact hno _ (by simp) hc
          · exact absurd hc (by decide))]
    have e : max (max (D.length : Int) (-1)) (-1) = D.length := by omega
    simp [e, hhms, hvt]
  · have hdr : (D ++ sgn :: zs).drop (D.length + 1) = zs := by
      rw [← List.drop_drop, List.drop_left]; rfl
    have hnone : ∀ c : UInt16, (c = qc! '-' ∨ c = qc! '+' ∨ c = qc! 'Z') → c ≠ sgn → c ∉ zs → indexQ c (D ++ sgn :: zs) = -1 := by
      intro c hc hne hzs
      apply indexQ_none
      rw [List.mem_append, List.mem_cons]
      rintro (h' | h' | h')
      · exact hno c hc h'
      · exact hne h'
      · exact hzs h'
    rcases hs with rfl | rfl
    · rw [indexQ_append _ _ _ (hno _ (by simp)), hnone (qc! 'Z') (by simp) (by decide) hZ, hnone (qc! '-') (by simp) (by decide) hM]
      have e : max (max (-1) (D.length : Int)) (-1) = D.length := by omega
      have e2 : decide ((43 : UInt16) = 45) = false := by decide
      rw [e2] at hoff
      simp only [e, Int.natCast_nonneg, ge_iff_le, if_true, Int.toNat_natCast, List.take_left, hhms, hvt, hdr]
      simp [hoff, ho.1, ho.2]
    · rw [indexQ_append _ _ _ (hno _ (by simp)), hnone (qc! 'Z') (by simp) (by decide) hZ, hnone (qc! '+') (by simp) (by decide) hP]
      have e : max (max (-1) (-1)) (D.length : Int) = D.length := by omega
      have e2 : decide ((45 : UInt16) = 45) = true := by decide
      rw [e2] at hoff
      simp only [e, Int.natCast_nonneg, ge_iff_le, if_true, Int.toNat_natCast, List.take_left, hhms, hvt, hdr]
      simp [hoff, ho.1, ho.2]

private theorem two_eq (n : Nat) : two n = [dig (n / 10), dig (n % 10)] := rfl

/-- a character that is not a digit does not occur in two digits -/
private theorem two_no (n : Nat) (hn : n < 100) (c : UInt16) (hc : ∀ k < 10, dig k ≠ c) : c ∉ two n := by
  rw [two_eq]
  simp only [List.mem_cons, List.not_mem_nil, or_false, not_or]
  exact ⟨fun h => hc _ (by omega) h.symm, fun h => hc _ (by omega) h.symm⟩

private theorem no_minus (n : Nat) (h : n < 10) : dig n ≠ qc! '-' := (dig_facts n h).1
private theorem no_plus (n : Nat) (h : n < 10) : dig n ≠ qc! '+' := (dig_facts n h).2.1
private theorem no_colon (n : Nat) (h : n < 10) : dig n ≠ qc! ':' := (dig_facts n h).2.2.1
private theorem no_T (n : Nat) (h : n < 10) : dig n ≠ qc! 'T' := (dig_facts n h).2.2.2.1
private theorem no_Z (n : Nat) (h : n < 10) : dig n ≠ qc! 'Z' := (dig_facts n h).2.2.2.2.1

private theorem remove_append (c : UInt16) (a b : QString) : removeChar c (a ++ b) = removeChar c a ++ removeChar c b := by
  simp [removeChar]
private theorem remove_two (n : Nat) (hn : n < 100) : removeChar (qc! ':') (two n) = two n := by
  unfold removeChar
  rw [List.filter_eq_self]
  intro a ha
  have := two_no n hn _ no_colon
  by_cases e : a = qc! ':'
  · subst e; exact absurd ha this
  · simpa using e
private theorem remove_colon (b : Bool) : removeChar (qc! ':') (colonIf b) = [] := by cases b <;> decide
private theorem remove_sign (b : Bool) : removeChar (qc! ':') (sign b) = sign b := by cases b <;> decide

private theorem dateText_eq (d : Int × Nat × Nat) (h : DateOK d) (dashes : Bool) : dateText d dashes = createDate d (!dashes) := by
  have hy := h.year
  rw [createDate_eq d h]
  unfold dateText
  rcases hy with hy | hy
  · rw [if_pos hy, if_neg (by omega)]
    cases dashes <;> rfl
  · rw [if_neg (by omega), if_pos (by omega)]
    have e1 : d.1.toNat / 100 / 10 = d.1.toNat / 1000 := by omega
    have e2 : d.1.toNat % 100 / 10 = d.1.toNat / 10 % 10 := by omega
    have e3 : d.1.toNat % 100 % 10 = d.1.toNat % 10 := by omega
    simp only [four, two_eq, e1, e2, e3]
    cases dashes <;> rfl

/-- Every time stamp in these forms is read as the moment it names, and its time counts as valid. -/
theorem C73_partial (t : Stamp) (h : t.OK) :
    parseDateTime t.text =
      (some { date := t.date, time := (t.time.clock.1, t.time.clock.2.1, t.time.clock.2.2, 0), zone := t.zone.offset }, true) := by
  obtain ⟨date, dashes, time, zone⟩ := t
  obtain ⟨h1, h2, h3, h4, h5, h6⟩ := h
  have hd : DateOK date := ⟨h1, h2⟩
  obtain ⟨hp, hT⟩ := parseDatePart_create date hd (!dashes)
  rw [← dateText_eq date hd] at hp hT
  have e : Stamp.text ⟨date, dashes, time, zone⟩ = dateText date dashes ++ qc! 'T' :: (time.text ++ zone.text) := by
    simp [Stamp.text]
  rw [e]
  simp only at h3 h4 h5 h6 ⊢
  -- the time without colons
  obtain ⟨D, hD, hno, hhms⟩ : ∃ D, removeChar (qc! ':') time.text = D ∧ (∀ c, (c = qc! '-' ∨ c = qc! '+' ∨ c = qc! 'Z') → c ∉ D) ∧
      parseHms D = ((time.clock.1 : Int), (time.clock.2.1 : Int), (time.clock.2.2 : Int)) := by
    have hdig : ∀ c, (c = qc! '-' ∨ c = qc! '+' ∨ c = qc! 'Z') → ∀ k < 10, dig k ≠ c := by
      rintro c (rfl | rfl | rfl)
      · exact no_minus
      · exact no_plus
      · exact no_Z
    cases time with
    | toHour h =>
      simp only [StampTime.clock] at h3
      refine ⟨two h, remove_two h (by omega), fun c hc => two_no h (by omega) c (hdig c hc), ?_⟩
      rw [two_eq]
      unfold parseHms
      simp only [List.length_cons, List.length_nil]
      rw [toIntQ2 _ (by omega)]; rfl
    | toMinute h m c =>
      simp only [StampTime.clock] at h3 h4
      refine ⟨two h ++ two m, ?_, ?_, ?_⟩
      · simp only [StampTime.text, remove_append, remove_two h (by omega), remove_two m (by omega), remove_colon, List.append_nil]
      · intro c hc
        rw [List.mem_append]
        rintro (hh | hh)
        · exact two_no h (by omega) c (hdig c hc) hh
        · exact two_no m (by omega) c (hdig c hc) hh
      · rw [two_eq, two_eq]
        unfold parseHms
        simp only [List.length_cons, List.length_nil, List.length_append, mid, List.cons_append, List.nil_append, List.drop_succ_cons, List.drop_zero, List.take_succ_cons, List.take_zero]
        rw [toIntQ2 _ (by omega), toIntQ2 _ (by omega)]; rfl
    | toSecond h m s c =>
      simp only [StampTime.clock] at h3 h4 h5
      refine ⟨two h ++ two m ++ two s, ?_, ?_, ?_⟩
      · simp only [StampTime.text, remove_append, remove_two h (by omega), remove_two m (by omega), remove_two s (by omega), remove_colon, List.append_nil]
      · intro c hc
        rw [List.mem_append, List.mem_append]
        rintro ((hh | hh) | hh)
        · exact two_no h (by omega) c (hdig c hc) hh
        · exact two_no m (by omega) c (hdig c hc) hh
        · exact two_no s (by omega) c (hdig c hc) hh
      · rw [two_eq, two_eq, two_eq]
        unfold parseHms
        simp only [List.length_cons, List.length_nil, List.length_append, mid, List.cons_append, List.nil_append, List.drop_succ_cons, List.drop_zero, List.take_succ_cons, List.take_zero]
        rw [toIntQ2 _ (by omega), toIntQ2 _ (by omega), toIntQ2 _ (by omega)]; rfl
  refine stamp_core date _ _ D (removeChar (qc! ':') zone.text) _ _ _ _ hp hT (by rw [remove_append, hD]) hno hhms ⟨h3, h4, h5⟩ ?_
  cases zone with
  | none_ => exact Or.inl ⟨rfl, rfl⟩
  | utc => exact Or.inr (Or.inl ⟨by decide, rfl⟩)
  | hours w h =>
    have h6 : h ≤ 16 := h6
    refine Or.inr (Or.inr ⟨if w then qc! '-' else qc! '+', two h, _, ?_, rfl, by cases w <;> simp, two_no h (by omega) _ no_Z,
      two_no h (by omega) _ no_plus, two_no h (by omega) _ no_minus, ?_, ?_⟩)
    · simp only [StampZone.text, remove_append, remove_sign, remove_two h (by omega)]
      cases w <;> rfl
    · rw [two_eq]
      simp only [parseOffset, List.length_cons, List.length_nil, List.take_succ_cons, List.take_zero]
      rw [toIntQ2 _ (by omega)]
      cases w <;> simp
    · cases w
      · simp only [Bool.false_eq_true, if_false]; omega
      · simp only [if_true]; omega
  | minutes w h m c =>
    have h6 : h * 60 + m ≤ 16 * 60 ∧ m < 60 := h6
    have hno' : ∀ x, (∀ k < 10, dig k ≠ x) → x ∉ two h ++ two m := by
      intro x hx
      rw [List.mem_append]
      rintro (hh | hh)
      · exact two_no h (by omega) x hx hh
      · exact two_no m (by omega) x hx hh
    refine Or.inr (Or.inr ⟨if w then qc! '-' else qc! '+', two h ++ two m, _, ?_, rfl, by cases w <;> simp, hno' _ no_Z,
      hno' _ no_plus, hno' _ no_minus, ?_, ?_⟩)
    · simp only [StampZone.text, remove_append, remove_sign, remove_two h (by omega), remove_two m (by omega), remove_colon, List.append_nil]
      cases w <;> rfl
    · rw [two_eq, two_eq]
      simp only [parseOffset, List.length_cons, List.length_nil, mid, List.cons_append, List.nil_append, List.drop_succ_cons, List.drop_zero, List.take_succ_cons, List.take_zero]
      rw [toIntQ2 _ (by omega), toIntQ2 _ (by omega)]
      cases w <;> simp
    · cases w
      · simp only [Bool.false_eq_true, if_false]; omega
      · simp only [if_true]; omega

/-- A date alone, with or without dashes, is read as that day without a time. -/
theorem C73_date (d : Int × Nat × Nat) (h : DateOK d) (dashes : Bool) :
    parseDateTime (dateText d dashes) = (some { date := d, time := (0, 0, 0, 0), zone := none }, false) := by
  obtain ⟨hp, hT⟩ := parseDatePart_create d h (!dashes)
  rw [dateText_eq d h]
  unfold parseDateTime
  rw [indexQ_none _ _ hT]
  simp [hp]

/-- Non-vacuity: a stamp of each kind and its text. -/
example : (⟨(2016, 1, 20), true, .toMinute 8 5 true, .minutes true 3 30 true⟩ : Stamp).text = q! "2016-01-20T08:05-03:30" ∧
    (⟨(-1, 2, 29), false, .toHour 23, .hours false 1⟩ : Stamp).text = q! "--0229T23+01" ∧
    (⟨(1985, 4, 12), false, .toSecond 23 20 50 false, .utc⟩ : Stamp).text = q! "19850412T232050Z" ∧
    (⟨(2016, 1, 20), true, .toMinute 8 5 true, .minutes true 3 30 true⟩ : Stamp).OK := by
  refine ⟨by decide, by decide, by decide, ⟨by decide, by decide, by decide, by decide, by decide, ?_⟩⟩
  exact ⟨by decide, by decide⟩

/-- The property fails for fractions of a second, which are allowed in such stamps: the time becomes midnight, and counts as valid. -/
theorem C73_false : parseDateTime (q! "2016-01-20T08:05:03.5Z") = (some { date := (2016, 1, 20), time := (0, 0, 0, 0), zone := some 0 }, true) := by
  decide

/-- Truncated dates, also allowed, are not read: a month of a year, and a day of a month, give no date. -/
theorem C73_truncated_false : parseDateTime (q! "1985-04") = (none, false) ∧ parseDateTime (q! "---12") = (none, false) := by decide

/-! ### what is read is a moment -/

/-- Whatever the text, a date that is read from it in a vCard is a day of the calendar with a time of day, in local time or with an offset of at
    most 16 hours. -/
theorem C73_real (text : QString) (d : DT) (ok : Bool) (h : parseDateTime text = (some d, ok)) :
    RealDay d.date ∧ d.time.1 < 24 ∧ d.time.2.1 < 60 ∧ d.time.2.2.1 < 60 ∧ d.time.2.2.2 = 0 ∧ ∀ o, d.zone = some o → -57600 ≤ o ∧ o ≤ 57600 := by
  have hdate : ∀ (s : QString) (e : Int × Nat × Nat), parseDatePart s = some e → RealDay e := by
    intro s e he
    unfold parseDatePart at he
    simp only at he
    generalize (if startsWith (q! "--") s = true then _ else _ : Int × Int × Int) = ymd at he
    split at he
    · rename_i hv
      cases he
      obtain ⟨y, m, d⟩ := ymd
      have hv2 := hv
      simp only [validDate, Bool.and_eq_true, decide_eq_true_eq] at hv2
      apply (validDate_iff _ _ _).1
      have e1 : ((m.toNat : Nat) : Int) = m := by omega
      have e2 : ((d.toNat : Nat) : Int) = d := by omega
      simp only [e1, e2]
      exact hv
    · cases he
  unfold parseDateTime at h
  simp only at h
  split at h
  · generalize hz : (if max (max (indexQ (qc! 'Z') _) _) _ ≥ 0 then _ else _ : Option Int) = zone at h
    generalize hhms : parseHms _ = hms at h
    clear hz hhms
    simp only [Prod.mk.injEq] at h
    obtain ⟨h, -⟩ := h
    have fin : (∀ o, zone = some o → -57600 ≤ o ∧ o ≤ 57600) → ∀ e, parseDatePart (text.take (indexQ (qc! 'T') text).toNat) = some e →
        d = { date := e, time := if validTime hms.1 hms.2.1 hms.2.2 = true then (hms.1.toNat, hms.2.1.toNat, hms.2.2.toNat, 0) else (0, 0, 0, 0), zone := zone } →
        RealDay d.date ∧ d.time.1 < 24 ∧ d.time.2.1 < 60 ∧ d.time.2.2.1 < 60 ∧ d.time.2.2.2 = 0 ∧ ∀ o, d.zone = some o → -57600 ≤ o ∧ o ≤ 57600 := by
      rintro hzone e he rfl
      refine ⟨hdate _ _ he, ?_⟩
      by_cases hv : validTime hms.1 hms.2.1 hms.2.2 = true
      · simp only [hv, if_true]
        simp only [validTime, Bool.and_eq_true, decide_eq_true_eq] at hv
        exact ⟨by omega, by omega, by omega, trivial, hzone⟩
      · simp only [hv]
        exact ⟨Nat.zero_lt_succ _, Nat.zero_lt_succ _, Nat.zero_lt_succ _, rfl, hzone⟩
    cases zone with
    | none =>
      obtain ⟨e, he, h⟩ := Option.map_eq_some_iff.1 h
      exact fin (by intro o ho; cases ho) e he h.symm
    | some o =>
      simp only at h
      split at h
      · rename_i hb
        obtain ⟨e, he, h⟩ := Option.map_eq_some_iff.1 h
        exact fin (by intro o' ho; cases ho; simpa using hb) e he h.symm
      · cases h
  · simp only [Prod.mk.injEq] at h
    obtain ⟨e, he, rfl⟩ := Option.map_eq_some_iff.1 h.1
    exact ⟨hdate _ _ he, Nat.zero_lt_succ _, Nat.zero_lt_succ _, Nat.zero_lt_succ _, rfl, by intro o ho; cases ho⟩

/-- The same for the reader of time stamps in LDIF, which has local times only. -/
theorem C73_real_ldif (text : QString) (d : DT) (h : vCardStringToDate text = some d) :
    RealDay d.date ∧ d.time.1 < 24 ∧ d.time.2.1 < 60 ∧ d.time.2.2.1 < 60 ∧ d.time.2.2.2 = 0 ∧ d.zone = none := by
  unfold vCardStringToDate at h
  simp only at h
  generalize removeChar (qc! ':') (removeChar (qc! '-') text) = t at h
  split at h
  · split at h
    · rename_i hv
      cases h
      simp only
      generalize toIntQ (midQ t 0 4) = y at hv ⊢
      generalize toIntQ (midQ t 4 2) = m at hv ⊢
      generalize toIntQ (midQ t 6 2) = e at hv ⊢
      have hv2 := hv
      simp only [validDate, Bool.and_eq_true, decide_eq_true_eq] at hv2
      refine ⟨?_, ?_⟩
      · apply (validDate_iff _ _ _).1
        have e1 : ((m.toNat : Nat) : Int) = m := by omega
        have e2 : ((e.toNat : Nat) : Int) = e := by omega
        rw [e1, e2]
        exact hv
      · generalize toIntQ (midQ t 9 2) = a
        generalize toIntQ (midQ t 11 2) = b
        generalize toIntQ (midQ t 13 2) = c
        split
        · split
          · rename_i hv
            simp only [validTime, Bool.and_eq_true, decide_eq_true_eq] at hv
            refine ⟨?_, ?_, ?_, rfl, trivial⟩
            · show a.toNat < 24; omega
            · show b.toNat < 60; omega
            · show c.toNat < 60; omega
          · exact ⟨by decide, by decide, by decide, rfl, trivial⟩
        · exact ⟨by decide, by decide, by decide, rfl, trivial⟩
    · cases h
  · cases h

/-- What is not a day of the calendar is not read. -/
example : parseDateTime (q! "2023-02-29T10:00:00Z") = (none, true) ∧ vCardStringToDate (q! "20230229T100000Z") = none ∧
    (parseDateTime (q! "1985-04-12T23:20:50Z")).1.isSome = true ∧ (vCardStringToDate (q! "19850412T232050Z")).isSome = true := by decide

private theorem remove_two' (c : UInt16) (hc : ∀ k < 10, dig k ≠ c) (n : Nat) (hn : n < 100) : removeChar c (two n) = two n := by
  unfold removeChar
  rw [List.filter_eq_self]
  intro a ha
  have := two_no n hn _ hc
  by_cases e : a = c
  · subst e; exact absurd ha this
  · simpa using e

/-- The time stamps of LDIF: a stamp with a year and with seconds, in all these forms, is read as its day and time of day. -/
theorem C73_ldif_partial (t : Stamp) (h : t.OK) (hy : 1 ≤ t.date.1) (hs : ∃ h m s c, t.time = .toSecond h m s c) :
    vCardStringToDate t.text = some { date := t.date, time := (t.time.clock.1, t.time.clock.2.1, t.time.clock.2.2, 0), zone := none } := by
  obtain ⟨⟨y, mo, dd⟩, dashes, time, zone⟩ := t
  obtain ⟨h1, h2, h3, h4, h5, -⟩ := h
  obtain ⟨h, m, s, c, rfl⟩ := hs
  simp only [StampTime.clock] at hy h1 h2 h3 h4 h5 ⊢
  obtain ⟨n, rfl⟩ : ∃ n : Nat, y = n := ⟨y.toNat, by omega⟩
  have hv := h2.valid
  have hb := (DateOK.mk (d := ((n : Int), mo, dd)) h1 h2).bounds
  simp only at hv hb
  have hn : n < 10000 := by omega
  obtain ⟨Z, hZ⟩ : ∃ Z, removeChar (qc! ':') (removeChar (qc! '-') zone.text) = Z := ⟨_, rfl⟩
  have rd : ∀ k, k < 100 → removeChar (qc! ':') (removeChar (qc! '-') (two k)) = two k := by
    intro k hk
    rw [remove_two' _ no_minus k hk, remove_two k hk]
  have rdash : ∀ b, removeChar (qc! ':') (removeChar (qc! '-') (dashIf b)) = [] := by intro b; cases b <;> decide
  have rcol : ∀ b, removeChar (qc! ':') (removeChar (qc! '-') (colonIf b)) = [] := by intro b; cases b <;> decide
  have rT : removeChar (qc! ':') (removeChar (qc! '-') (q! "T")) = q! "T" := by decide
  have hneg : ¬ ((n : Int) = -1) := by omega
  have htext : removeChar (qc! ':') (removeChar (qc! '-') (Stamp.text ⟨((n : Int), mo, dd), dashes, .toSecond h m s c, zone⟩)) =
      two (n / 100) ++ two (n % 100) ++ two mo ++ two dd ++ q! "T" ++ two h ++ two m ++ two s ++ Z := by
    simp only [Stamp.text, dateText, if_neg hneg, Int.toNat_natCast, four, StampTime.text, remove_append, rdash, rcol, rT, hZ, rd (n / 100) (by omega),
      rd (n % 100) (by omega), rd mo (by omega), rd dd (by omega), rd h (by omega), rd m (by omega), rd s (by omega), List.append_nil, List.nil_append, List.append_assoc]
  unfold vCardStringToDate
  rw [htext]
  have e1 : n / 100 / 10 = n / 1000 := by omega
  have e2 : n / 100 % 10 = n / 100 % 10 := rfl
  have e3 : n % 100 / 10 = n / 10 % 10 := by omega
  have e4 : n % 100 % 10 = n % 10 := by omega
  simp only [two_eq, e1, e3, e4]
  generalize hL : ([dig (n / 1000), dig (n / 100 % 10)] ++ [dig (n / 10 % 10), dig (n % 10)] ++ [dig (mo / 10), dig (mo % 10)] ++ [dig (dd / 10), dig (dd % 10)] ++
    q! "T" ++ [dig (h / 10), dig (h % 10)] ++ [dig (m / 10), dig (m % 10)] ++ [dig (s / 10), dig (s % 10)] ++ Z) = L
  have l1 : midQ L 0 4 = [dig (n / 1000), dig (n / 100 % 10), dig (n / 10 % 10), dig (n % 10)] := by subst hL; rfl
  have l2 : midQ L 4 2 = [dig (mo / 10), dig (mo % 10)] := by subst hL; rfl
  have l3 : midQ L 6 2 = [dig (dd / 10), dig (dd % 10)] := by subst hL; rfl
  have l4 : midQ L 9 2 = [dig (h / 10), dig (h % 10)] := by subst hL; rfl
  have l5 : midQ L 11 2 = [dig (m / 10), dig (m % 10)] := by subst hL; rfl
  have l6 : midQ L 13 2 = [dig (s / 10), dig (s % 10)] := by subst hL; rfl
  have l7 : 15 ≤ L.length := by subst hL; simp
  have l8 : L.getD 8 0 = qc! 'T' := by subst hL; rfl
  have hvt : validTime h m s = true := by
    simp only [validTime, Bool.and_eq_true, decide_eq_true_eq]
    omega
  have hup : (decide (9 < L.length) && decide (upperQ (qc! 'T') = qc! 'T')) = true := by
    have : upperQ (qc! 'T') = qc! 'T' := by decide
    simp [this]; omega
  have h8 : 8 ≤ L.length := by omega
  simp only [l1, l2, l3, l4, l5, l6, l8, toIntQ4 n (by omega), toIntQ2 mo (by omega), toIntQ2 dd (by omega), toIntQ2 h (by omega), toIntQ2 m (by omega),
    toIntQ2 s (by omega), hv, hvt, hup, h8, if_true, Int.toNat_natCast]

/-- A day alone, or with a time of day that does not exist, is read as its midnight. -/
theorem C73_ldif_midnight (d : Int × Nat × Nat) (h : DateOK d) (hy : 1 ≤ d.1) (dashes : Bool) (rest : QString)
    (hr : rest = [] ∨ ∃ h m s z, h < 100 ∧ m < 100 ∧ s < 100 ∧ ¬ (h < 24 ∧ m < 60 ∧ s < 60) ∧ rest = q! "T" ++ two h ++ two m ++ two s ++ z) :
    vCardStringToDate (dateText d dashes ++ rest) = some { date := d, time := (0, 0, 0, 0), zone := none } := by
  obtain ⟨y, mo, dd⟩ := d
  simp only at hy
  obtain ⟨n, rfl⟩ : ∃ n : Nat, y = n := ⟨y.toNat, by omega⟩
  have hv := h.2.valid
  have hb := h.bounds
  simp only at hv hb
  have hn : n < 10000 := by have := h.1; simp only at this; omega
  have rd : ∀ k, k < 100 → removeChar (qc! ':') (removeChar (qc! '-') (two k)) = two k := by
    intro k hk
    rw [remove_two' _ no_minus k hk, remove_two k hk]
  have rdash : ∀ b, removeChar (qc! ':') (removeChar (qc! '-') (dashIf b)) = [] := by intro b; cases b <;> decide
  have rT : removeChar (qc! ':') (removeChar (qc! '-') (q! "T")) = q! "T" := by decide
  have hneg : ¬ ((n : Int) = -1) := by omega
  have hdate : removeChar (qc! ':') (removeChar (qc! '-') (dateText ((n : Int), mo, dd) dashes)) = two (n / 100) ++ two (n % 100) ++ two mo ++ two dd := by
    simp only [dateText, if_neg hneg, Int.toNat_natCast, four, remove_append, rdash, rd (n / 100) (by omega),
      rd (n % 100) (by omega), rd mo (by omega), rd dd (by omega), List.append_nil, List.nil_append, List.append_assoc]
  have e1 : n / 100 / 10 = n / 1000 := by omega
  have e3 : n % 100 / 10 = n / 10 % 10 := by omega
  have e4 : n % 100 % 10 = n % 10 := by omega
  unfold vCardStringToDate
  rw [remove_append, remove_append, hdate]
  rcases hr with rfl | ⟨h, m, s, z, hh, hm, hs, hbad, rfl⟩
  · simp only [two_eq, e1, e3, e4]
    have er : removeChar (qc! ':') (removeChar (qc! '-') ([] : QString)) = [] := rfl
    rw [er, List.append_nil]
    generalize hL : ([dig (n / 1000), dig (n / 100 % 10)] ++ [dig (n / 10 % 10), dig (n % 10)] ++ [dig (mo / 10), dig (mo % 10)] ++ [dig (dd / 10), dig (dd % 10)]) = L
    have l1 : midQ L 0 4 = [dig (n / 1000), dig (n / 100 % 10), dig (n / 10 % 10), dig (n % 10)] := by subst hL; rfl
    have l2 : midQ L 4 2 = [dig (mo / 10), dig (mo % 10)] := by subst hL; rfl
    have l3 : midQ L 6 2 = [dig (dd / 10), dig (dd % 10)] := by subst hL; rfl
    have l7 : L.length = 8 := by subst hL; rfl
    simp [l1, l2, l3, toIntQ4 n (by omega), toIntQ2 mo (by omega), toIntQ2 dd (by omega), hv, l7]
  · have hrest : removeChar (qc! ':') (removeChar (qc! '-') (q! "T" ++ two h ++ two m ++ two s ++ z)) =
        q! "T" ++ two h ++ two m ++ two s ++ removeChar (qc! ':') (removeChar (qc! '-') z) := by
      simp only [remove_append, rT, rd h hh, rd m hm, rd s hs]
    rw [hrest]
    generalize removeChar (qc! ':') (removeChar (qc! '-') z) = Z
    simp only [two_eq, e1, e3, e4]
    generalize hL : ([dig (n / 1000), dig (n / 100 % 10)] ++ [dig (n / 10 % 10), dig (n % 10)] ++ [dig (mo / 10), dig (mo % 10)] ++ [dig (dd / 10), dig (dd % 10)] ++
      (q! "T" ++ [dig (h / 10), dig (h % 10)] ++ [dig (m / 10), dig (m % 10)] ++ [dig (s / 10), dig (s % 10)] ++ Z)) = L
    have l1 : midQ L 0 4 = [dig (n / 1000), dig (n / 100 % 10), dig (n / 10 % 10), dig (n % 10)] := by subst hL; rfl
    have l2 : midQ L 4 2 = [dig (mo / 10), dig (mo % 10)] := by subst hL; rfl
    have l3 : midQ L 6 2 = [dig (dd / 10), dig (dd % 10)] := by subst hL; rfl
    have l4 : midQ L 9 2 = [dig (h / 10), dig (h % 10)] := by subst hL; rfl
    have l5 : midQ L 11 2 = [dig (m / 10), dig (m % 10)] := by subst hL; rfl
    have l6 : midQ L 13 2 = [dig (s / 10), dig (s % 10)] := by subst hL; rfl
    have l7 : 15 ≤ L.length := by subst hL; simp
    have hvt : validTime h m s = false := by
      rw [Bool.eq_false_iff]
      simp only [validTime, ne_eq, Bool.and_eq_true, decide_eq_true_eq]
      omega
    have h8 : 8 ≤ L.length := by omega
    simp [l1, l2, l3, l4, l5, l6, toIntQ4 n (by omega), toIntQ2 mo (by omega), toIntQ2 dd (by omega), toIntQ2 h (by omega), toIntQ2 m (by omega),
      toIntQ2 s (by omega), hv, hvt, h8]

example : vCardStringToDate (q! "2024-02-29") = some { date := (2024, 2, 29), time := (0, 0, 0, 0), zone := none } ∧
    vCardStringToDate (q! "20240229T246100Z") = some { date := (2024, 2, 29), time := (0, 0, 0, 0), zone := none } := by decide

/-- But the zone is lost: a stamp in UTC becomes the same time of day in the local zone. -/
theorem C73_ldif_zone_false : ∃ t : Stamp, t.OK ∧ t.text = q! "20240229T120000Z" ∧
    vCardStringToDate t.text = some { date := (2024, 2, 29), time := (12, 0, 0, 0), zone := none } ∧
    parseDateTime t.text = (some { date := (2024, 2, 29), time := (12, 0, 0, 0), zone := some 0 }, true) :=
  ⟨⟨(2024, 2, 29), false, .toSecond 12 0 0 false, .utc⟩, ⟨by decide, by decide, by decide, by decide, by decide, trivial⟩, by decide, by decide, by decide⟩

/-- And without seconds, the hours of a zone west of Greenwich are read as seconds. -/
theorem C73_ldif_seconds_false : ∃ t : Stamp, t.OK ∧ t.text = q! "2024-02-29T12:33-0200" ∧
    vCardStringToDate t.text = some { date := (2024, 2, 29), time := (12, 33, 2, 0), zone := none } :=
  ⟨⟨(2024, 2, 29), true, .toMinute 12 33 true, .minutes true 2 0 false⟩, ⟨by decide, by decide, by decide, by decide, by decide, by decide, by decide⟩, by decide, by decide⟩

end KC
