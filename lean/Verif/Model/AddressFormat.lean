import Verif.Model.Values
/-
  Address formats: the format strings, the choice of a format for a country, and the formatting of an address.
  Modelled: addressformatparser.cpp, addressformat.cpp:64-157, addressformatscript.cpp, addressformatter.cpp, address.cpp:402-412.
-/
namespace KC

/-- `AddressFormatField` without `NoField`, addressformat.h. -/
inductive AField where
  | country | region | locality | dependentLocality | sortingCode | postalCode | streetAddress | organization | name | postOfficeBox
deriving DecidableEq, Repr

/-- The position of the field's bit in `AddressFormatFields`, addressformat.h. -/
def AField.index : AField → Nat
  | .country => 0 | .region => 1 | .locality => 2 | .dependentLocality => 3 | .sortingCode => 4 | .postalCode => 5 | .streetAddress => 6
  | .organization => 7 | .name => 8 | .postOfficeBox => 9

/-- The value of the enumerator. -/
def AField.bit (f : AField) : Nat := 2 ^ f.index

/-- `fields & f` as a condition. -/
def hasField (fields : Nat) (f : AField) : Bool := fields &&& f.bit != 0

/-- `field_map`, addressformatparser.cpp:13-27. -/
def fieldMap : List (Nat × AField) :=
  [(65, .streetAddress), (67, .locality), (68, .dependentLocality), (78, .name), (79, .organization), (80, .postOfficeBox), (82, .country),
   (83, .region), (88, .sortingCode), (90, .postalCode)]

/-- `std::lower_bound` over the sorted `field_map`: the first entry whose character is not less than `x`. -/
def fieldLowerBound (x : Nat) : List (Nat × AField) → Option (Nat × AField)
  | [] => none
  | e :: r => if e.1 < x then fieldLowerBound x r else some e

/-- `AddressFormatParser::parseField`, addressformatparser.cpp:29-38; `none` is `NoField`. `c.cell()` and `c.row()` are the low and the high byte. -/
def parseField (c : UInt16) : Option AField :=
  match fieldLowerBound (c.toNat % 256) fieldMap with
  | none => none
  | some e => if e.1 != c.toNat % 256 || c.toNat / 256 != 0 then none else some e.2

/-- `AddressFormatParser::parseFields`, addressformatparser.cpp:40-47. -/
def parseFields (s : QString) : Nat :=
  s.foldl (fun acc c => acc ||| (match parseField c with | some f => f.bit | none => 0)) 0

/-- `AddressFormatElement`, addressformat.cpp:15-45: a field, a literal or (neither) a separator. Literals made by the parser are not empty. -/
inductive FormatElem where
  | sep
  | field (f : AField)
  | lit (s : QString)
deriving DecidableEq, Repr

/-- An element for the literal collected so far, if there is one, addressformatparser.cpp:55-60 and 79-84. -/
def flushLiteral (l : QString) : List FormatElem := if l.isEmpty then [] else [.lit l]

/-- The element of a placeholder `%c`, addressformatparser.cpp:61-73; an unknown one is dropped with a warning. -/
def placeholder (c : UInt16) : List FormatElem :=
  if c = qc! 'n' then [.sep] else match parseField c with
    | none => []
    | some f => [.field f]

/-- The loop of `AddressFormatParser::parseElements`, addressformatparser.cpp:49-86; `lit` is the literal collected so far. A '%' at the end
    (`std::next(it) == s.end()`) is an ordinary character. -/
def parseElementsLoop : QString → QString → List FormatElem
  | [], lit => flushLiteral lit
  | [c], lit => flushLiteral (lit ++ [c])
  | c :: d :: r, lit =>
    if c = qc! '%' then flushLiteral lit ++ placeholder d ++ parseElementsLoop r []
    else parseElementsLoop (d :: r) (lit ++ [c])

/-- `AddressFormatParser::parseElements`. -/
def parseElements (s : QString) : List FormatElem := parseElementsLoop s []

/-- `AddressFormat`. -/
structure AddressFormat where
  elements : List FormatElem
  required : Nat
  upper : Nat
  postalCodeFormat : QString
  country : QString
deriving DecidableEq

/-- `AddressFormatElement::field()`; 0 is `NoField`. -/
def FormatElem.fieldBit : FormatElem → Nat
  | .field f => f.bit
  | _ => 0

/-- `AddressFormat::usedFields`, addressformat.cpp:74-79. -/
def AddressFormat.usedFields (f : AddressFormat) : Nat := f.elements.foldl (fun acc e => acc ||| e.fieldBit) 0

/-- What the formatter takes from outside: the configuration with the formats (`KConfigGroup::readEntry` of a country's group), `KCountry`, the
    current locale's country, `QString::toUpper` and the script class of a character. -/
structure FormatEnv where
  /-- the entry of a country's group, if there is one -/
  config : QString → QString → Option QString
  /-- `KCountry::fromAlpha2(code)`: the alpha2 code, or `none` if the country is not valid -/
  fromAlpha2 : QString → Option QString
  /-- `KCountry::fromName(name)`: the alpha2 code, or `none` if the country is not valid -/
  fromName : QString → Option QString
  /-- `KCountry::fromQLocale(QLocale().territory()).alpha2()`, empty if there is none -/
  ownCountry : QString
  /-- `KCountry::fromAlpha2(code).name()`, empty if there is none -/
  countryName : QString → QString
  /-- `QString::toUpper` -/
  upper : QString → QString
  /-- the class of a character's script: 0 Latin-like (the default), 1 Arabic, 2 Han, 3 Hangul and Thai -/
  script : UInt16 → Fin 4

/-- `AddressFormatScript::detect(QString)`, addressformatscript.cpp:11-27. -/
def FormatEnv.detectText (E : FormatEnv) : QString → Fin 4
  | [] => 0
  | c :: r => if E.script c = 0 then E.detectText r else E.script c

/-- `AddressFormatScript::detect(Address)`, addressformatscript.cpp:29-32. -/
def FormatEnv.detect (E : FormatEnv) (a : Address) : Fin 4 := if E.detectText a.street < E.detectText a.locality then E.detectText a.locality else E.detectText a.street

/-- The default format, addressformat.cpp:132. -/
def defaultFormat : QString := q! "%N%n%O%n%A%nPO BOX %P%n%C %S %Z"

/-- `group.readEntry(key, QString())`. -/
def FormatEnv.entry (E : FormatEnv) (code key : QString) : QString := (E.config code key).getD []

/-- The choice of the format string, addressformat.cpp:121-133. `latin` is `AddressFormatScriptPreference::Latin`, `business` is
    `AddressFormatPreference::Business`. -/
def FormatEnv.formatString (E : FormatEnv) (code : QString) (latin business : Bool) : QString :=
  let s : QString := []
  let s := if latin && business then E.entry code (q! "LatinBusinessAddressFormat") else s
  let s := if s.isEmpty && latin then E.entry code (q! "LatinAddressFormat") else s
  let s := if s.isEmpty && business then E.entry code (q! "BusinessAddressFormat") else s
  if s.isEmpty then (E.config code (q! "AddressFormat")).getD defaultFormat else s

/-- `AddressFormatRepository::formatForCountry`, addressformat.cpp:110-138. -/
def FormatEnv.formatForCountry (E : FormatEnv) (code : QString) (latin business : Bool) : AddressFormat :=
  { elements := parseElements (E.formatString code latin business)
    required := parseFields (E.entry code (q! "Required"))
    upper := parseFields (E.entry code (q! "Upper"))
    postalCodeFormat := E.entry code (q! "PostalCodeFormat")
    country := code }

/-- The country an address is formatted for, addressformat.cpp:142-152. -/
def FormatEnv.countryFor (E : FormatEnv) (a : Address) : QString :=
  let c := if a.country.length = 2 then E.fromAlpha2 a.country else none
  let c := match c with | some x => some x | none => E.fromName a.country
  match c with
  | some x => x
  | none => E.ownCountry

/-- `AddressFormatRepository::formatForAddress`, addressformat.cpp:140-157. -/
def FormatEnv.formatForAddress (E : FormatEnv) (a : Address) (business : Bool) : AddressFormat :=
  E.formatForCountry (E.countryFor a) (decide (E.detect a = 0)) business

/-! ### The formatter -/

/-- `AddressFormatStyle`. -/
inductive AStyle where
  | postal | multiLineDomestic | multiLineInternational | singleLineDomestic | singleLineInternational | geoUriQuery
deriving DecidableEq, Repr

/-- `Separator`, addressformatter.cpp:27. -/
inductive ASeparator where
  | newline | comma | native
deriving DecidableEq, Repr

/-- An entry of `style_map`, addressformatter.cpp:30-42. -/
structure StyleData where
  separator : ASeparator
  honorUpper : Bool
  forceCountry : Bool
  includeFields : Nat

/-- `AllFields`, `AllDomesticFields`, `GeoUriFields`, addressformatter.cpp:20-25. -/
def allFields : Nat := 1023
@[inherit_doc allFields] def allDomesticFields : Nat := 1022
@[inherit_doc allFields] def geoUriFields : Nat := 64 + 32 + 4 + 8 + 2 + 1

/-- `style_map`, addressformatter.cpp:35-42. -/
def AStyle.data : AStyle → StyleData
  | .postal => ⟨.newline, true, true, allDomesticFields⟩
  | .multiLineDomestic => ⟨.newline, false, false, allDomesticFields⟩
  | .multiLineInternational => ⟨.newline, false, true, allFields⟩
  | .singleLineDomestic => ⟨.native, false, false, allDomesticFields⟩
  | .singleLineInternational => ⟨.native, false, true, allFields⟩
  | .geoUriQuery => ⟨.comma, true, true, geoUriFields⟩

/-- `isReverseOrder`, addressformatter.cpp:47-50. -/
def AddressFormat.isReverseOrder (f : AddressFormat) : Bool :=
  match f.elements with
  | .field .country :: _ => true
  | _ => false

/-- The arguments of `AddressFormatter::format` and the outside world. -/
structure FormatArgs where
  E : FormatEnv
  a : Address
  name : QString
  organization : QString
  format : AddressFormat
  style : AStyle

/-- `styleData.includeFields & f`. -/
def FormatArgs.included (A : FormatArgs) (f : AField) : Bool := hasField A.style.data.includeFields f

/-- `isFieldEmpty`, addressformatter.cpp:56-83. -/
def FormatArgs.isFieldEmpty (A : FormatArgs) (f : AField) : Bool :=
  if !A.included f then true else match f with
    | .dependentLocality => true
    | .sortingCode => true
    | .name => A.name.isEmpty
    | .organization => A.organization.isEmpty
    | .postOfficeBox => A.a.postOfficeBox.isEmpty
    | .streetAddress => A.a.street.isEmpty && (A.a.extended.isEmpty || A.style = .geoUriQuery)
    | .postalCode => A.a.postalCode.isEmpty
    | .locality => A.a.locality.isEmpty
    | .region => A.a.region.isEmpty
    | .country => A.a.country.isEmpty

/-- `countryName`, addressformatter.cpp:84-91. -/
def FormatArgs.countryName (A : FormatArgs) : QString :=
  if A.a.country.isEmpty then [] else if A.style = .geoUriQuery then A.format.country else A.E.countryName A.format.country

/-- The variables of the loop, addressformatter.cpp:93-94. -/
structure FormatState where
  lines : List QString := []
  line : QString := []
  secondaryLine : QString := []
deriving DecidableEq

/-- The element is a non-empty field. -/
def FormatArgs.hasContent (A : FormatArgs) : FormatElem → Bool
  | .field f => !A.isFieldEmpty f
  | _ => false

/-- The walk back from the current element, addressformatter.cpp:116-124, over the current element and those before it (nearest first). -/
def FormatArgs.walkBack (A : FormatArgs) : List FormatElem → Bool
  | [] => false
  | .sep :: _ => false
  | e :: r => A.hasContent e || A.walkBack r

/-- The value of a field, addressformatter.cpp:132-172 (without the extra line for the extended address). -/
def FormatArgs.fieldValue (A : FormatArgs) (f : AField) : QString :=
  let v := match f with
    | .dependentLocality => []
    | .sortingCode => []
    | .name => A.name
    | .organization => A.organization
    | .postOfficeBox => A.a.postOfficeBox
    | .streetAddress => if A.a.street.isEmpty then A.a.extended else A.a.street
    | .postalCode => A.a.postalCode
    | .locality => A.a.locality
    | .region => A.a.region
    | .country => A.countryName
  if A.style.data.honorUpper && hasField A.format.upper f then A.E.upper v else v

/-- The nearest of the preceding elements is a separator, addressformatter.cpp:100 and 115. -/
def afterSeparator : List FormatElem → Bool
  | .sep :: _ => true
  | _ => false

/-- `followingFieldEmpty`, addressformatter.cpp:125. -/
def FormatArgs.nextEmpty (A : FormatArgs) : List FormatElem → Bool
  | .field f :: _ => A.isFieldEmpty f
  | _ => false

/-- One element, addressformatter.cpp:97-174. `prev` are the elements before it, nearest first; `next` those after it. -/
def FormatArgs.step (A : FormatArgs) (prev : List FormatElem) (e : FormatElem) (next : List FormatElem) (s : FormatState) : FormatState :=
  let precedingSeparator := afterSeparator prev
  if e = .sep && (!s.line.isEmpty || (precedingSeparator && A.style.data.separator = .newline)) then
    if !s.secondaryLine.isEmpty then { lines := s.lines ++ [s.line] ++ [s.secondaryLine], line := [], secondaryLine := [] }
    else { s with lines := s.lines ++ [s.line], line := [] }
  else
    let precedingFieldHasContent := prev.isEmpty || precedingSeparator || A.walkBack (e :: prev)
    let followingFieldEmpty := A.nextEmpty next
    match e with
    | .sep => s
    | .lit l => if precedingFieldHasContent && !followingFieldEmpty then { s with line := s.line ++ l } else s
    | .field f =>
      if A.included f then
        let extra := f = .streetAddress && !A.a.street.isEmpty && !A.a.extended.isEmpty && A.style != .geoUriQuery
        let s := if extra then
            (if A.format.isReverseOrder then { s with secondaryLine := A.a.extended } else { s with lines := s.lines ++ [A.a.extended] })
          else s
        { s with line := s.line ++ A.fieldValue f }
      else s

/-- The loop over the elements, addressformatter.cpp:96-175. -/
def FormatArgs.loop (A : FormatArgs) : List FormatElem → List FormatElem → FormatState → FormatState
  | _, [], s => s
  | prev, e :: next, s => A.loop (e :: prev) next (A.step prev e next s)

/-- The lines before the country is added, addressformatter.cpp:93-181. -/
def FormatArgs.bodyLines (A : FormatArgs) : List QString :=
  let s := A.loop [] A.format.elements {}
  let lines := if s.line.isEmpty then s.lines else s.lines ++ [s.line]
  if s.secondaryLine.isEmpty then lines else lines ++ [s.secondaryLine]

/-- The country has to be added, addressformatter.cpp:184. -/
def FormatArgs.addCountry (A : FormatArgs) : Bool :=
  A.style.data.forceCountry && (A.format.usedFields &&& AField.country.bit &&& A.style.data.includeFields == 0) && !A.a.country.isEmpty

/-- All lines, addressformatter.cpp:93-204. -/
def FormatArgs.allLines (A : FormatArgs) : List QString :=
  let lines := A.bodyLines
  if A.addCountry then
    let c := A.countryName
    if A.style = .postal then
      let sourceFmt := A.E.formatForCountry A.E.ownCountry false false
      let shouldPrepend := sourceFmt.isReverseOrder
      let lines := if lines.isEmpty then lines else if shouldPrepend then [] :: lines else lines ++ [[]]
      let c := if A.style.data.honorUpper && hasField sourceFmt.upper .country then A.E.upper c else c
      if shouldPrepend then c :: lines else lines ++ [c]
    else
      let c := if A.style.data.honorUpper && hasField A.format.upper .country then A.E.upper c else c
      lines ++ [c]
  else lines

/-- `native_separator_map`, addressformatter.cpp:45 (the second is U+060C and a space). -/
def nativeSeparator (i : Fin 4) : QString :=
  match i with
  | 0 => q! ", "
  | 1 => [0x60c, qc! ' ']
  | 2 => []
  | 3 => q! " "

/-- The text between the lines, addressformatter.cpp:44-45 and 206-210. -/
def FormatArgs.separatorText (A : FormatArgs) : QString :=
  match A.style.data.separator with
  | .newline => [10]
  | .comma => q! ","
  | .native => nativeSeparator (A.E.detect A.a)

/-- `AddressFormatter::format`, addressformatter.cpp:52-211. -/
def FormatArgs.text (A : FormatArgs) : QString := join A.separatorText A.allLines

/-- `Address::formatted`, address.cpp:402-407. -/
def Address.formatted (E : FormatEnv) (a : Address) (style : AStyle) (realName orgaName : QString) : QString :=
  let business := !(orgaName.isEmpty || style != .postal)
  FormatArgs.text ⟨E, a, realName, orgaName, E.formatForAddress a business, style⟩

end KC
