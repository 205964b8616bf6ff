import Verif.Props.C65
import Verif.Spec.CardEntry
/-
  Specification: the letter case of the names in a vCard (C84).
-/
namespace KC.Spec

/-- The same letters, in whatever case. -/
def SameLetters (s t : List UInt8) : Prop := s.map lowerByte = t.map lowerByte

instance (s t : List UInt8) : Decidable (SameLetters s t) := inferInstanceAs (Decidable (_ = _))

/-- An unfolded property without a group: its name, its parameters (name and value as they stand in the text), its value. -/
structure SpelledProperty where
  name : List UInt8
  params : List (List UInt8 × List UInt8)
  value : List UInt8

/-- `NAME;PARAM=value;PARAM=value:value` -/
def SpelledProperty.line (a : SpelledProperty) : List UInt8 :=
  a.name ++ a.params.flatMap (fun p => c! ';' :: p.1 ++ c! '=' :: p.2) ++ c! ':' :: a.value

/-- The value of a parameter: a text without quotes, ':' and ';', or anything without quotes between quotes. -/
def ParameterText (v : List UInt8) : Prop :=
  (∀ c ∈ v, c ≠ c! ':' ∧ c ≠ c! ';' ∧ c ≠ c! '"') ∨ ∃ w, v = c! '"' :: w ++ [c! '"'] ∧ c! '"' ∉ w

/-- The characters with a meaning of their own do not stand in names. -/
structure SpelledProperty.Wellformed (a : SpelledProperty) : Prop where
  name : ∀ c ∈ a.name, c ≠ c! ':' ∧ c ≠ c! ';' ∧ c ≠ c! '.'
  params : ∀ p ∈ a.params, (∀ c ∈ p.1, c ≠ c! ':' ∧ c ≠ c! ';' ∧ c ≠ c! '=') ∧ ParameterText p.2

/-- The names are the same up to letter case, the values are the same. A name of one's own ("X-…"), other than those of known programs, is
    spelled in the same way. -/
structure SpelledProperty.OtherCase (a b : SpelledProperty) : Prop where
  name : SameLetters a.name b.name
  params : List.Forall₂ (fun p q => SameLetters p.1 q.1 ∧ p.2 = q.2) a.params b.params
  value : a.value = b.value
  own : (a.name.map lowerByte).take 2 = b! "x-" → a.name = b.name ∨ fromLatin1 (a.name.map lowerByte) ∈ foreignNames.flatMap (·.2)

/-- The same for properties as they stand in a text, folded in whatever way. -/
def WrittenProperty.OtherCase (p q : WrittenProperty) : Prop :=
  p.unfolded = q.unfolded ∨ ∃ a b : SpelledProperty, a.Wellformed ∧ p.unfolded = a.line ∧ q.unfolded = b.line ∧ a.OtherCase b

/-- Corresponding names stand in the same alphabetical order (that of the character codes: capitals before small letters) in both texts. -/
def SameNameOrder (ps qs : List WrittenProperty) : Prop :=
  ∀ x ∈ ps.zip qs, ∀ y ∈ ps.zip qs, (x.1.name = y.1.name ↔ x.2.name = y.2.name) ∧ (x.1.name < y.1.name ↔ x.2.name < y.2.name)

/-- What a property with this name (in small letters) is about; `sortAs`: it may say how to sort the contact. A delivery label is about the address,
    the three kinds of calendars share a list, own names ("x-…") stand for messaging addresses and custom fields, and among the custom fields
    is the anniversary. -/
def topicsOf (n : List UInt8) (sortAs : Bool) : List (List UInt8) :=
  if n = b! "label" then [b! "adr"]
  else if n = b! "fburl" ∨ n = b! "caladruri" then [b! "caluri"]
  else if n.take 2 = b! "x-" then [b! "impp", b! "anniversary"]
  else if (n = b! "n" ∨ n = b! "org") ∧ sortAs = true then [n, b! "sort-string"]
  else [n]

/-- What a property is about: grouped properties are (also) about the list of grouped properties. -/
def WrittenProperty.topics (p : WrittenProperty) : List (List UInt8) :=
  (if c! '.' ∈ p.head then [b! "."] else []) ++ topicsOf (p.name.map lowerByte) (decide (b! "sort-as" <:+: p.unfolded.map lowerByte))

/-- Corresponding names of properties about the same thing stand in the same alphabetical order in both texts. -/
def SameTopicOrder (ps qs : List WrittenProperty) : Prop :=
  ∀ x ∈ ps.zip qs, ∀ y ∈ ps.zip qs, (∃ t ∈ x.1.topics, t ∈ y.1.topics) →
    (x.1.name = y.1.name ↔ x.2.name = y.2.name) ∧ (x.1.name < y.1.name ↔ x.2.name < y.2.name)

/-- The text of a vCard with these lines for BEGIN and END. -/
def markedText (b e : List UInt8) (ps : List WrittenProperty) : List UInt8 :=
  ((b :: ps.flatMap fun p => p.first :: p.rest) ++ [e]).flatMap (· ++ [13, 10])

end KC.Spec
