import Verif.Model.AddressFormat
import Verif.Model.DateTime
/-
  Links that show an address on a map: `Address::geoUri`, src/address.cpp:414-433.
-/
namespace KC

/-! ### `QString::number(double)` -/

/-- How many places behind the decimal point (from `k` on, at most `fuel` more) give six digits for the number `a * 2^-149`. -/
def sixDigitPlaces (a : Nat) : Nat → Nat → Nat
  | 0, k => k
  | fuel + 1, k => if 10 ^ 5 * 2 ^ 149 ≤ a * 10 ^ k then k else sixDigitPlaces a fuel (k + 1)

/-- The digits behind the decimal point of `r / 10^k`. -/
def placesOf : Nat → Nat → QString
  | 0, _ => []
  | k + 1, r => UInt16.ofNat (48 + r / 10 ^ k % 10) :: placesOf k r

/-- Without zeros at the end. -/
def noZerosAtEnd (s : QString) : QString := (s.reverse.dropWhile (· = 48)).reverse

/-- A decimal point before the digits, nothing without digits. -/
def withPoint (s : QString) : QString := if s.isEmpty then [] else qc! '.' :: s

/-- `m / 10^k` in digits, without zeros at the end. -/
def plainNumber (m k : Nat) : QString := dec (m / 10 ^ k) ++ withPoint (noZerosAtEnd (placesOf k (m % 10 ^ k)))

/-- `m / 10^k` with an exponent of at least two digits, for numbers below 1. -/
def scientific (m k : Nat) : QString :=
  let d := dec m
  d.take 1 ++ withPoint (noZerosAtEnd (d.drop 1)) ++ q! "e-" ++ padded 2 (k + 1 - d.length)

/-- `QString::number(x)` for a double, that is format 'g' with six digits (Qt: qlocale.cpp, `QLocaleData::doubleToString`, `DFSignificantDigits`): the
    number rounded to six digits, without zeros at the end; with an exponent if it is below 0.0001. Simplifications: numbers of a million and more, which get an
    exponent as well, are not among the coordinates; -0 is 0 (see `Flt`). -/
def numberText (n : Int) : QString :=
  if n = 0 then q! "0"
  else
    let a := n.natAbs
    let k := sixDigitPlaces a 50 0
    let m := (2 * (a * 10 ^ k) + 2 ^ 149) / (2 * 2 ^ 149)
    (if n < 0 then [qc! '-'] else []) ++ (if m * 10 ^ 4 < 10 ^ k then scientific m k else plainNumber m k)

/-- `QString::number` of a float. -/
def Flt.numberText : Flt → QString
  | .nan => q! "nan"
  | .negInf => q! "-inf"
  | .posInf => q! "inf"
  | .fin n => KC.numberText n

/-- The parts of a `QUrl` that are set here; empty for `QUrl()`. -/
structure MapLink where
  scheme : QString := []
  path : QString := []
  query : List (QString × QString) := []
deriving DecidableEq

/-- `Address::geoUri`, address.cpp:414-433. -/
def Address.geoUri (E : FormatEnv) (a : Address) : MapLink :=
  if a.geo.isValid then { scheme := q! "geo", path := a.geo.latitude.numberText ++ q! "," ++ a.geo.longitude.numberText }
  else if !a.empty then { scheme := q! "geo", path := q! "0,0", query := [(q! "q", a.formatted E .geoUriQuery [] [])] }
  else {}

end KC
