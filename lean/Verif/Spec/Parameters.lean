import Verif.Props.C65
import Verif.Spec.Maps
/-
  The ways in which the parameters of a vCard property can be written (C105).
-/
namespace KC.Spec

/-- A value of a parameter that needs no quotes: without ';', ':' and ',', not beginning with a quote. -/
def PlainValue (v : List UInt8) : Prop := c! ';' ∉ v ∧ c! ':' ∉ v ∧ c! ',' ∉ v ∧ v.head? ≠ some (c! '"')

/-- The name of a parameter: without ';', ':' and '='. -/
def ParameterName (k : List UInt8) : Prop := c! ';' ∉ k ∧ c! ':' ∉ k ∧ c! '=' ∉ k

/-- values with commas between them -/
def commaList : List (List UInt8) → List UInt8
  | [] => []
  | [v] => v
  | v :: vs => v ++ c! ',' :: commaList vs

/-- `SpelledParameters params t`: the text `t` between the name of a property and the colon gives the property these parameters - pairs of a name, in
    small letters, and a value. -/
inductive SpelledParameters : List (List UInt8 × List UInt8) → List UInt8 → Prop
  | nil : SpelledParameters [] []
  /-- `;KEY=value,value,...`, the name in any letter case -/
  | plain {l : List (List UInt8 × List UInt8)} {t : List UInt8} (k : List UInt8) (vs : List (List UInt8)) : ParameterName k → vs ≠ [] → (∀ v ∈ vs, PlainValue v) →
      SpelledParameters l t → SpelledParameters (vs.map (fun v => (k.map lowerByte, v)) ++ l) (c! ';' :: k ++ c! '=' :: commaList vs ++ t)
  /-- `;KEY="value"`, or `;KEY=value,...,"value"` with plain values in front: the last is any value without a quote; commas are part of it unless the
      parameter is TYPE -/
  | quoted {l : List (List UInt8 × List UInt8)} {t : List UInt8} (k : List UInt8) (vs : List (List UInt8)) (v : List UInt8) : ParameterName k →
      (∀ w ∈ vs, PlainValue w) → c! '"' ∉ v → (k.map lowerByte = b! "type" → c! ',' ∉ v) → SpelledParameters l t →
      SpelledParameters (vs.map (fun w => (k.map lowerByte, w)) ++ (k.map lowerByte, v) :: l)
        (c! ';' :: k ++ c! '=' :: vs.flatMap (· ++ [c! ',']) ++ c! '"' :: v ++ c! '"' :: t)
  /-- `;TYPE="value,value,..."`, or with plain values in front -/
  | quotedTypes {l : List (List UInt8 × List UInt8)} {t : List UInt8} (k : List UInt8) (us vs : List (List UInt8)) : k.map lowerByte = b! "type" →
      (∀ w ∈ us, PlainValue w) → vs ≠ [] → (∀ v ∈ vs, c! '"' ∉ v ∧ c! ',' ∉ v) → SpelledParameters l t →
      SpelledParameters (us.map (fun v => (b! "type", v)) ++ vs.map (fun v => (b! "type", v)) ++ l)
        (c! ';' :: k ++ c! '=' :: us.flatMap (· ++ [c! ',']) ++ c! '"' :: commaList vs ++ c! '"' :: t)
  /-- `;value` as in version 2.1: a type -/
  | bareType {l : List (List UInt8 × List UInt8)} {t : List UInt8} (v : List UInt8) : ParameterName v → v.map lowerByte ≠ b! "quoted-printable" →
      v.map lowerByte ≠ b! "base64" → SpelledParameters l t → SpelledParameters ((b! "type", v) :: l) (c! ';' :: v ++ t)
  /-- `;QUOTED-PRINTABLE` and `;BASE64` as in version 2.1: an encoding -/
  | bareEncoding {l : List (List UInt8 × List UInt8)} {t : List UInt8} (v : List UInt8) : v.map lowerByte = b! "quoted-printable" ∨ v.map lowerByte = b! "base64" →
      SpelledParameters l t → SpelledParameters ((b! "encoding", v) :: l) (c! ';' :: v ++ t)

/-- A property (folded in whatever way) with this name - with its group, if it has one -, these parameters and this value. -/
def WrittenProperty.Says (p : WrittenProperty) (name : List UInt8) (params : List (List UInt8 × List UInt8)) (value : List UInt8) : Prop :=
  c! ';' ∉ name ∧ c! ':' ∉ name ∧ ∃ t, SpelledParameters params t ∧ p.unfolded = name ++ t ++ c! ':' :: value

/-- Two ways of writing the same property: the name and the value are the same, and every parameter has the same values in the same order. -/
def WrittenProperty.SameButParameters (p q : WrittenProperty) : Prop :=
  p.unfolded = q.unfolded ∨ ∃ name a b value, p.Says name a value ∧ q.Says name b value ∧ ∀ k, valuesOf a k = valuesOf b k

end KC.Spec
