import Verif.Model.GeoLink
import Mathlib.Data.Rat.Lemmas
import Mathlib.Algebra.Order.Field.Rat
import Mathlib.Algebra.Order.Ring.Abs
/- Specification: numbers in a link to a place. -/
namespace KC.Spec

/-- The number written with these digits. -/
def digitsNumber (s : QString) : Nat := s.foldl (fun n c => 10 * n + (c.toNat - 48)) 0

/-- The text is a number as in a `geo:` link (RFC 5870: an optional minus sign, digits, and optionally a point and digits), and stands for `x`. -/
def WritesNumber (s : QString) (x : ℚ) : Prop :=
  ∃ (negative : Bool) (whole places : QString), whole ≠ [] ∧ (∀ c ∈ whole ++ places, 48 ≤ c.toNat ∧ c.toNat ≤ 57) ∧
    s = (if negative then [qc! '-'] else []) ++ whole ++ (if places = [] then [] else qc! '.' :: places) ∧
    x = (if negative then -1 else 1) * ((digitsNumber (whole ++ places) : ℚ) / 10 ^ places.length)

/-- The degrees a coordinate stands for. -/
def degrees : Flt → ℚ
  | .fin n => (n : ℚ) / 2 ^ 149
  | _ => 0

/-- The number is right to six digits: off by at most 1/200000 of it, for up to 180 degrees by at most 0.0005, and below 100 degrees by at most 0.00005. -/
def CloseTo (x d : ℚ) : Prop := |x - d| ≤ |d| / 200000 ∧ (|d| ≤ 180 → |x - d| ≤ 1 / 2000) ∧ (|d| < 100 → |x - d| ≤ 1 / 20000)

/-- The coordinate is zero or, rounded to six digits, not below 0.0001. -/
def NotTiny (x : Flt) : Prop := degrees x = 0 ∨ 1 / 10000 - 1 / 20000000000 ≤ |degrees x|

/-- A part is searched for as it is or in upper case. -/
def SearchShows (E : FormatEnv) (part text : QString) : Prop := part <:+: text ∨ E.upper part <:+: text

/-- The parts of an address that say where it is. -/
def samePlace (a b : Address) : Prop :=
  a.street = b.street ∧ a.extended = b.extended ∧ a.locality = b.locality ∧ a.region = b.region ∧ a.postalCode = b.postalCode ∧ a.country = b.country

end KC.Spec
