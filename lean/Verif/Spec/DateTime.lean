import Verif.Model.DateTime
/-
  Specification: the dates and times that the vCard date format can express.
-/
namespace KC

/-- The leap years of the Gregorian calendar, the year before the year 1 being 0. -/
def LeapYear (y : Int) : Prop := (y % 4 = 0 ∧ y % 100 ≠ 0) ∨ y % 400 = 0
instance (y : Int) : Decidable (LeapYear y) := inferInstanceAs (Decidable (_ ∨ _))

/-- The days of the months of a year. -/
def monthDays (y : Int) : List Nat := [31, if LeapYear y then 29 else 28, 31, 30, 31, 30, 31, 31, 30, 31, 30, 31]

/-- Year, month and day are a day of the calendar. The year before the year 1 is called -1. -/
def RealDay (d : Int × Nat × Nat) : Prop :=
  d.1 ≠ 0 ∧ 1 ≤ d.2.1 ∧ d.2.1 ≤ 12 ∧ 1 ≤ d.2.2 ∧ d.2.2 ≤ (monthDays (if d.1 < 0 then d.1 + 1 else d.1)).getD (d.2.1 - 1) 0
instance (d : Int × Nat × Nat) : Decidable (RealDay d) := inferInstanceAs (Decidable (_ ∧ _ ∧ _ ∧ _ ∧ _))

/-- The dates the format can express: with a year 1..9999, or without a year (year -1 in this library). -/
structure DateOK (d : Int × Nat × Nat) : Prop where
  year : d.1 = -1 ∨ (1 ≤ d.1 ∧ d.1 ≤ 9999)
  day : RealDay d

/-- The times the format can express: whole seconds; local time or an offset of whole minutes up to 16 hours. -/
structure TimeOK (t : Nat × Nat × Nat × Nat) (zone : Option Int) : Prop where
  hour : t.1 < 24
  minute : t.2.1 < 60
  second : t.2.2.1 < 60
  millis : t.2.2.2 = 0
  zone : ∀ o, zone = some o → -57600 ≤ o ∧ o ≤ 57600 ∧ o % 60 = 0

end KC
