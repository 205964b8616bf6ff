import Verif.Qt.Basic
import Verif.Qt.Utf
/-
  Content lines, parameter maps and cards:
  src/parametermap_p.h, src/vcardparser/vcardline.cpp, src/vcardparser/vcard.cpp, src/vcardparser/vcard_p.h
-/
namespace KC

/-- The sorted vectors of the code (`ParameterMap`, `VCard::LineMap`): a list of (key, entry) pairs. -/
abbrev SMap (ν : Type) := List (QString × ν)

section
variable {ν : Type}

/-- `findParam` / `findByLineId`, parametermap_p.h:33-45, vcard_p.h:31-43: first entry with the key (`std::find_if`). -/
def SMap.find (m : SMap ν) (k : QString) : Option ν :=
  match m with
  | [] => none
  | (k', v) :: t => if k' = k then some v else SMap.find t k

/-- `std::lower_bound` followed by `insert`, parametermap_p.h:51-55, vcard.cpp:58-59: insert before the first entry that is not
    less than the key. (On a sorted vector this is what the binary search finds.) -/
def SMap.insertSorted (m : SMap ν) (k : QString) (v : ν) : SMap ν :=
  match m with
  | [] => [(k, v)]
  | (k', v') :: t => if qlt k' k then (k', v') :: SMap.insertSorted t k v else (k, v) :: (k', v') :: t

/-- Modify the first entry with the key (through the iterator returned by find). -/
def SMap.modify (m : SMap ν) (k : QString) (f : ν → ν) : SMap ν :=
  match m with
  | [] => []
  | (k', v) :: t => if k' = k then (k', f v) :: t else (k', v) :: SMap.modify t k f

end

/-- `ParameterMap`, parametermap_p.h:29-89: parameter name to values. -/
abbrev ParameterMap := SMap (List QString)

/-- `QVariant` as far as `VCardLine` uses it. A QUrl value is represented by its string form. -/
inductive QVariant where
  | invalid
  | str (s : QString)
  | bytes (b : QByteArray)
deriving DecidableEq

/-- `QVariant::toString()`; a byte array converts as UTF-8 in Qt 6. -/
def QVariant.toString : QVariant → QString
  | .str s => s
  | .bytes b => fromUtf8 b
  | .invalid => []

/-- `QVariant::toByteArray()`; a string converts as UTF-8 in Qt 6. -/
def QVariant.toByteArray : QVariant → QByteArray
  | .str s => toUtf8 s
  | .bytes b => b
  | .invalid => []

/-- `VCardLine`, vcardline_p.h. -/
structure VCardLine where
  identifier : QString := []
  group : QString := []
  value : QVariant := .invalid
  params : ParameterMap := []
  base64Value : QByteArray := []
deriving DecidableEq

/-- Adding one value to a parameter map: body of `VCardLine::addParameter`, vcardline.cpp:121-131. -/
def ParameterMap.add (m : ParameterMap) (param value : QString) : ParameterMap :=
  match m.find param with
  | some _ => m.modify param fun vs => if value ∈ vs then vs else vs ++ [value]
  | none => m.insertSorted param [value]

/-- `VCardLine::addParameter`, vcardline.cpp:121-131. -/
def VCardLine.addParameter (l : VCardLine) (param value : QString) : VCardLine :=
  { l with params := ParameterMap.add l.params param value }

/-- `VCardLine::addParameters`, vcardline.cpp:114-119. -/
def VCardLine.addParameters (l : VCardLine) (ps : ParameterMap) : VCardLine :=
  ps.foldl (fun l p => l.addParameter p.1 (join [qc! ','] p.2)) l

/-- `VCardLine::parameterList`, vcardline.cpp:103-112. -/
def VCardLine.parameterList (l : VCardLine) : List QString := l.params.map (·.1)

/-- `VCardLine::parameters`, vcardline.cpp:133-137. -/
def VCardLine.parameters (l : VCardLine) (param : QString) : List QString := (l.params.find param).getD []

/-- `VCardLine::parameter`, vcardline.cpp:139-143. -/
def VCardLine.parameter (l : VCardLine) (param : QString) : QString :=
  match l.params.find param with
  | some (v :: _) => v
  | _ => []

/-- `VCard`: `mLineMap`, vcard_p.h:24-29. -/
abbrev VCard := SMap (List VCardLine)

/-- `VCard::addLine`, vcard.cpp:51-61. -/
def VCard.addLine (c : VCard) (line : VCardLine) : VCard :=
  match c.find line.identifier with
  | some _ => c.modify line.identifier (· ++ [line])
  | none => c.insertSorted line.identifier [line]

/-- `VCard::identifiers`, vcard.cpp:41-49. -/
def VCard.identifiers (c : VCard) : List QString := c.map (·.1)

/-- `VCard::lines`, vcard.cpp:63-67. -/
def VCard.lines (c : VCard) (id : QString) : List VCardLine := (c.find id).getD []

/-- `VCard::line`, vcard.cpp:69-73. -/
def VCard.line (c : VCard) (id : QString) : VCardLine :=
  match c.find id with
  | some (l :: _) => l
  | _ => {}

/-- `VCard::Version`, vcard_p.h:45-49. -/
inductive Version where
  | v2_1 | v3_0 | v4_0
deriving DecidableEq

/-- `VCard::version`, vcard.cpp:99-115. -/
def VCard.version (c : VCard) : Version :=
  match c.find (q! "VERSION") with
  | none => .v3_0
  | some [] => .v4_0        -- `list.at(0)` on an empty list cannot happen: entries always hold at least one line
  | some (l :: _) =>
    if l.value = .str (q! "2.1") then .v2_1 else if l.value = .str (q! "3.0") then .v3_0 else .v4_0

/-- `VCard::setVersion`, vcard.cpp:77-97: the line's *identifier* is overwritten with the number, as in the source. -/
def VCard.setVersion (c : VCard) (v : Version) : VCard :=
  let line : VCardLine := { identifier := match v with | .v2_1 => q! "2.1" | .v3_0 => q! "3.0" | .v4_0 => q! "4.0" }
  match c.find (q! "VERSION") with
  | some _ => c.modify (q! "VERSION") (· ++ [line])
  | none => c.insertSorted (q! "VERSION") [line]

end KC
