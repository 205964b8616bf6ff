import Verif.Model.AddressFormat
/-
  What format strings mean, independent of the parser.
-/
namespace KC

/-- The letter of a field in format strings, as documented in addressformatrc and libaddressinput. -/
def AField.letter : AField → UInt16
  | .country => qc! 'R'
  | .region => qc! 'S'
  | .locality => qc! 'C'
  | .dependentLocality => qc! 'D'
  | .sortingCode => qc! 'X'
  | .postalCode => qc! 'Z'
  | .streetAddress => qc! 'A'
  | .organization => qc! 'O'
  | .name => qc! 'N'
  | .postOfficeBox => qc! 'P'

namespace Spec

/-- How an element is written in a format string. -/
def printElem : FormatElem → QString
  | .sep => q! "%n"
  | .field f => [qc! '%', f.letter]
  | .lit s => s

/-- How a list of elements is written. -/
def printFormat (es : List FormatElem) : QString := es.flatMap printElem

/-- A format string without invalid placeholders: ordinary characters, "%n", '%' with the letter of a field, and possibly a lone '%' at the end. -/
inductive ValidFormat : QString → Prop
  | nil : ValidFormat []
  | percent : ValidFormat [qc! '%']
  | char (c : UInt16) (s : QString) : c ≠ qc! '%' → ValidFormat s → ValidFormat (c :: s)
  | sep (s : QString) : ValidFormat s → ValidFormat (qc! '%' :: qc! 'n' :: s)
  | field (f : AField) (s : QString) : ValidFormat s → ValidFormat (qc! '%' :: f.letter :: s)

/-- The format string mentions the field: reading from the left, with each '%' taking the character after it, '%' and its letter come up. -/
inductive Mentions (f : AField) : QString → Prop
  | here (s : QString) : Mentions f (qc! '%' :: f.letter :: s)
  | char (c : UInt16) (s : QString) : c ≠ qc! '%' → Mentions f s → Mentions f (c :: s)
  | pair (d : UInt16) (s : QString) : Mentions f s → Mentions f (qc! '%' :: d :: s)

/-- A list of elements that says what a format string can say: literals are not empty, do not follow each other, and have no '%' (except as the
    last character of all). -/
inductive Canonical : List FormatElem → Prop
  | nil : Canonical []
  | sep (es : List FormatElem) : Canonical es → Canonical (.sep :: es)
  | field (f : AField) (es : List FormatElem) : Canonical es → Canonical (.field f :: es)
  | lit (s : QString) (es : List FormatElem) : s ≠ [] → qc! '%' ∉ s → Canonical es → (∀ t r, es ≠ .lit t :: r) → Canonical (.lit s :: es)
  | percent (s : QString) : qc! '%' ∉ s → Canonical [.lit (s ++ [qc! '%'])]

end Spec
end KC

/-! ### Formatting -/

namespace KC.Spec

/-- The fields a style prints: everything for the international styles; all but the country for the domestic ones and for postal addresses (where
    the country is added separately); the places for a geo query. -/
def printsField (style : AStyle) (f : AField) : Bool :=
  match style with
  | .multiLineInternational => true
  | .singleLineInternational => true
  | .postal => f != .country
  | .multiLineDomestic => f != .country
  | .singleLineDomestic => f != .country
  | .geoUriQuery => f ∈ [AField.streetAddress, .postalCode, .locality, .dependentLocality, .region, .country]

/-- The styles that print upper-case fields in upper case. -/
def printsUpper (style : AStyle) : Bool := style = .postal || style = .geoUriQuery

/-- The styles that print one line of the format per line. -/
def multiLine (style : AStyle) : Bool := style ∈ [AStyle.postal, .multiLineDomestic, .multiLineInternational]

/-- The address, name or organization has something for the field. -/
def filled (A : FormatArgs) (f : AField) : Bool :=
  match f with
  | .name => A.name ≠ []
  | .organization => A.organization ≠ []
  | .postOfficeBox => A.a.postOfficeBox ≠ []
  | .streetAddress => A.a.street ≠ [] || (A.a.extended ≠ [] && A.style ≠ .geoUriQuery)
  | .postalCode => A.a.postalCode ≠ []
  | .locality => A.a.locality ≠ []
  | .region => A.a.region ≠ []
  | .country => A.a.country ≠ []
  | .dependentLocality => false
  | .sortingCode => false

/-- A field that is printed: the style prints it and there is something for it. -/
def present (A : FormatArgs) (f : AField) : Bool := printsField A.style f && filled A f

/-- The name of the country of the format, or its code in a geo query. -/
def countryText (A : FormatArgs) : QString :=
  if A.a.country = [] then [] else if A.style = .geoUriQuery then A.format.country else A.E.countryName A.format.country

/-- The text for a field, before upper-casing. -/
def content (A : FormatArgs) (f : AField) : QString :=
  match f with
  | .name => A.name
  | .organization => A.organization
  | .postOfficeBox => A.a.postOfficeBox
  | .streetAddress => if A.a.street = [] then A.a.extended else A.a.street
  | .postalCode => A.a.postalCode
  | .locality => A.a.locality
  | .region => A.a.region
  | .country => countryText A
  | .dependentLocality => []
  | .sortingCode => []

/-- The text printed for a field. -/
def value (A : FormatArgs) (f : AField) : QString :=
  if printsUpper A.style && hasField A.format.upper f then A.E.upper (content A f) else content A f

/-- Street and extended address are both printed. -/
def twoStreetLines (A : FormatArgs) : Bool := A.a.street ≠ [] && A.a.extended ≠ [] && A.style ≠ .geoUriQuery

/-- The element is a printed field. -/
def printed (A : FormatArgs) : FormatElem → Bool
  | .field f => present A f
  | _ => false

/-- A field that is not printed comes next. -/
def unprintedNext (A : FormatArgs) : List FormatElem → Bool
  | .field f :: _ => !present A f
  | _ => false

/-- What an element of a line adds to it; `pre` are the elements before it in its line and `post` those after it. A literal is printed at the start of
    its line or when a printed field precedes it in its line, and not directly before a field that is not printed. -/
def piece (A : FormatArgs) (pre : List FormatElem) (e : FormatElem) (post : List FormatElem) : QString :=
  match e with
  | .sep => []
  | .field f => if printsField A.style f then value A f else []
  | .lit l => if (pre = [] || pre.any (printed A)) && !unprintedNext A post then l else []

/-- The text of one line of the format (its elements between two separators). -/
def lineText (A : FormatArgs) : List FormatElem → List FormatElem → QString
  | _, [] => []
  | pre, e :: r => piece A pre e r ++ lineText A (pre ++ [e]) r

/-- The lines of the extended address that belong to a line of the format. -/
def extendedLines (A : FormatArgs) (seg : List FormatElem) : List QString :=
  if twoStreetLines A && printsField A.style .streetAddress then (seg.filter (· = .field .streetAddress)).map fun _ => A.a.extended else []

/-- The format begins with the country. -/
def countryFirst (f : AddressFormat) : Bool := decide (f.elements.head? = some (.field .country))

/-- What is printed for one line of the format: the extended address before the line (after it for countries that write the country first), and the
    line itself unless it is empty. `blank`: print it even so. -/
def segmentLines (A : FormatArgs) (blank : Bool) (seg : List FormatElem) : List QString :=
  (if countryFirst A.format then [] else extendedLines A seg)
    ++ (if lineText A [] seg ≠ [] then [lineText A [] seg] else if blank then [[]] else [])
    ++ (if countryFirst A.format then (extendedLines A seg).take 1 else [])

/-- All lines but the added country. A blank line is printed for a line of the format without any elements (neither the first nor the last) by
    the styles with several lines. -/
def linesFrom (A : FormatArgs) (first : Bool) : List (List FormatElem) → List QString
  | [] => []
  | [seg] => segmentLines A false seg
  | seg :: s :: r => segmentLines A (!first && seg = [] && multiLine A.style) seg ++ linesFrom A false (s :: r)

/-- Upper-casing leaves something of a text, and makes nothing from nothing. -/
def UpperKeeps (A : FormatArgs) : Prop := ∀ s, A.E.upper s = [] ↔ s = []

end KC.Spec
