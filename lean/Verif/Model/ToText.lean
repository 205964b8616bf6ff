import Verif.Model.Labels
import Verif.Model.Setters
import Verif.Model.VCardTool
/-
  Model of the text representations: the `toString()` functions of src/addressee.cpp, address.cpp, phonenumber.cpp, email.cpp, key.cpp, sound.cpp,
  picture.cpp, geo.cpp, timezone.cpp, gender.cpp, secrecy.cpp, impp.cpp, calendarurl.cpp, resourcelocatorurl.cpp, fieldgroup.cpp, lang.cpp, related.cpp,
  nickname.cpp, note.cpp, org.cpp, role.cpp, title.cpp, clientpidmap.cpp and parametermap_p.h.
-/
namespace KC

/-! ### `QString::arg` -/

/-- Value of a digit of a place marker (`qArgDigitValue`). Simplification: ASCII digits only. -/
def argDigit (c : UInt16) : Option Nat := if 48 ≤ c.toNat ∧ c.toNat ≤ 57 then some (c.toNat - 48) else none

/-- The digits of a place marker: its number and how many characters they take. -/
def markerDigits : QString → Option (Nat × Nat)
  | [] => none
  | d :: t =>
    match argDigit d, t.head?.bind argDigit with
    | none, _ => none
    | some n, none => some (n, 1)
    | some n, some k => some (10 * n + k, 2)

/-- A place marker at the head of the text (`%1`, `%L1`, `%12`): its number and length (`findArgEscapes` in qstring.cpp). -/
def markerAt : QString → Option (Nat × Nat)
  | [] => none
  | c :: t =>
    if c ≠ qc! '%' then none
    else if t.head? = some (qc! 'L') then (markerDigits (t.drop 1)).map fun p => (p.1, p.2 + 2)
    else (markerDigits t).map fun p => (p.1, p.2 + 1)

/-- The lowest number of the place markers in the text. -/
def lowestMarker : QString → Option Nat
  | [] => none
  | c :: t =>
    match markerAt (c :: t), lowestMarker t with
    | none, r => r
    | some p, none => some p.1
    | some p, some n => some (min p.1 n)

/-- Replace the place markers with number `m`; the first argument counts the characters of a marker that are still to be skipped. -/
def replaceMarkers (m : Nat) (a : QString) : Nat → QString → QString
  | _, [] => []
  | k + 1, _ :: t => replaceMarkers m a k t
  | 0, c :: t =>
    match markerAt (c :: t) with
    | some p => if p.1 = m then a ++ replaceMarkers m a (p.2 - 1) t else c :: replaceMarkers m a 0 t
    | none => c :: replaceMarkers m a 0 t

/-- `QString::arg(a)`: every place marker with the lowest number is replaced; without a place marker the text stays as it is. -/
def arg (fmt a : QString) : QString :=
  match lowestMarker fmt with
  | none => fmt
  | some m => replaceMarkers m a 0 fmt

/-! ### values -/

/-- What the text representations take from Qt and the translations. -/
structure TextEnv extends ToolEnv where
  /-- `i18nc` -/
  tr : Translation
  /-- `QDateTime::toString()` -/
  dateText : QDateTime → QString
  /-- `QString::arg(float)` -/
  fltText : Flt → QString

/-- `QString::arg(int)`. -/
def intText (n : Int) : QString := if n < 0 then qc! '-' :: dec n.natAbs else dec n.natAbs
/-- `b ? "true" : "false"`. -/
def boolText (b : Bool) : QString := if b then q! "true" else q! "false"

/-- `ParameterMap::toString`, parametermap_p.h:63-75 (`arg` with two texts replaces both markers at once). -/
def paramsText (m : ParameterMap) : QString :=
  if m.isEmpty then [] else q! "    parameters: " ++ (m.flatMap fun p => p.1 ++ qc! ' ' :: join [qc! ','] p.2) ++ [10]

/-- `Lang::toString`, lang.cpp:96-103. -/
def langText (t : ParamText) : QString := q! "Lang {\n" ++ arg (q! "    language: %1\n") t.text ++ paramsText t.params ++ q! "}\n"
/-- `Related::toString`, related.cpp:96-103. -/
def relatedText (t : ParamText) : QString := q! "Related {\n" ++ arg (q! "    relatedTo: %1\n") t.text ++ paramsText t.params ++ q! "}\n"
/-- `NickName::toString`, nickname.cpp:96-103. -/
def nickNameText (t : ParamText) : QString := q! "NickName {\n" ++ arg (q! "    nickname: %1\n") t.text ++ paramsText t.params ++ q! "}\n"
/-- `Note::toString`, note.cpp:96-103. -/
def noteText (t : ParamText) : QString := q! "Note {\n" ++ arg (q! "    note: %1\n") t.text ++ paramsText t.params ++ q! "}\n"
/-- `Org::toString`, org.cpp:96-103. -/
def orgText (t : ParamText) : QString := q! "Org {\n" ++ arg (q! "    organization: %1\n") t.text ++ paramsText t.params ++ q! "}\n"
/-- `Role::toString`, role.cpp:96-103. -/
def roleText (t : ParamText) : QString := q! "Role {\n" ++ arg (q! "    role: %1\n") t.text ++ paramsText t.params ++ q! "}\n"
/-- `Title::toString`, title.cpp:96-103. -/
def titleText (t : ParamText) : QString := q! "Title {\n" ++ arg (q! "    title: %1\n") t.text ++ paramsText t.params ++ q! "}\n"
/-- `ClientPidMap::toString`, clientpidmap.cpp:98-105. -/
def clientPidMapText (t : ParamText) : QString := q! "ClientPidMap {\n" ++ arg (q! "    clientpidmap: %1\n") t.text ++ paramsText t.params ++ q! "}\n"
/-- `Email::toString`, email.cpp:74-81. -/
def Email.toText (e : Email) : QString := q! "Email {\n" ++ arg (q! "    mail: %1\n") e.mail ++ paramsText e.params ++ q! "}\n"
/-- `FieldGroup::toString`, fieldgroup.cpp:110-117: two calls of `arg`. -/
def FieldGroup.toText (g : FieldGroup) : QString :=
  q! "FieldGroup {\n" ++ arg (arg (q! "    FieldGroupName: %1 Value %2\n") g.fieldGroupName) g.value ++ paramsText g.params ++ q! "}\n"
/-- `ResourceLocatorUrl::toString`, resourcelocatorurl.cpp:173-180. -/
def resourceLocatorUrlText (u : ParamUrl) : QString := q! "ResourceLocatorUrl {\n" ++ arg (q! "    url: %1\n") u.url ++ paramsText u.params ++ q! "}\n"
/-- `Impp::toString`, impp.cpp:144-152; `serviceType`, 74-77. -/
def imppText (E : QtEnv) (u : ParamUrl) : QString :=
  q! "Impp {\n" ++ arg (q! "    type: %1\n") (E.urlScheme u.url) ++ arg (q! "    address: %1\n") u.url ++ paramsText u.params ++ q! "}\n"
/-- `CalendarUrl::Private::typeToString`, calendarurl.cpp:39-58. -/
def calendarTypeText (t : Nat) : QString :=
  if t = 1 then q! "FreeBusy" else if t = 2 then q! "CalUri" else if t = 3 then q! "Caladruri" else q! "Unknown"
/-- `CalendarUrl::toString`, calendarurl.cpp:100-108. -/
def CalendarUrl.toText (u : CalendarUrl) : QString :=
  q! "CalendarUrl {\n" ++ arg (q! "    url: %1\n") u.url ++ arg (q! "    type: %1\n") (calendarTypeText u.type) ++ paramsText u.params ++ q! "}\n"
/-- `Gender::toString`, gender.cpp:70-77. -/
def Gender.toText (g : Gender) : QString := q! "Gender {\n" ++ arg (q! "    gender: %1\n") g.gender ++ arg (q! "    comment: %1\n") g.comment ++ q! "}\n"
/-- `Geo::toString`, geo.cpp:129-138. -/
def Geo.toText (E : TextEnv) (g : Geo) : QString :=
  q! "Geo {\n" ++ arg (q! "  Valid: %1\n") (boolText g.isValid) ++ arg (q! "  Latitude: %1\n") (E.fltText g.latitude) ++
  arg (q! "  Longitude: %1\n") (E.fltText g.longitude) ++ q! "}\n"
/-- `TimeZone::toString`, timezone.cpp:99-106. -/
def TimeZone.toText (t : TimeZone) : QString := q! "TimeZone {\n" ++ arg (q! "  Offset: %1\n") (intText t.offset) ++ q! "}\n"
/-- `Secrecy::typeLabel`, secrecy.cpp:92-108. -/
def secrecyLabel (tr : Translation) : Secrecy → QString
  | .pub => tr (q! "access is for everyone") (q! "Public")
  | .priv => tr (q! "access is by owner only") (q! "Private")
  | .confidential => tr (q! "access is by owner and a controlled group") (q! "Confidential")
  | .invalid => tr (q! "unknown secrecy type") (q! "Unknown type")
/-- `Secrecy::toString`, secrecy.cpp:110-117. -/
def Secrecy.toText (E : TextEnv) (s : Secrecy) : QString := q! "Secrecy {\n" ++ arg (q! "  Type: %1\n") (secrecyLabel E.tr s) ++ q! "}\n"
/-- `Key::typeLabel`, key.cpp:192-208. -/
def keyTypeLabel (tr : Translation) : KeyType → QString
  | .x509 => tr (q! "X.509 public key") (q! "X509")
  | .pgp => tr (q! "Pretty Good Privacy key") (q! "PGP")
  | .custom => tr (q! "A custom key") (q! "Custom")
/-- `Key::toString`, key.cpp:162-179. -/
def Key.toText (E : TextEnv) (k : Key) : QString :=
  q! "Key {\n" ++ arg (q! "  Id: %1\n") k.id ++ arg (q! "  Type: %1\n") (keyTypeLabel E.tr k.type) ++
  (if k.type = .custom then arg (q! "  CustomType: %1\n") k.customTypeString else []) ++
  arg (q! "  IsBinary: %1\n") (boolText k.isBinary) ++
  (if k.isBinary then arg (q! "  Binary: %1\n") (fromLatin1 (toBase64 k.binaryData)) else arg (q! "  Text: %1\n") k.textData) ++ q! "}\n"
/-- `Picture::toString`, picture.cpp:200-213. -/
def Picture.toText (E : TextEnv) (p : Picture) : QString :=
  q! "Picture {\n" ++ arg (q! "  Type: %1\n") p.type ++ arg (q! "  IsIntern: %1\n") (boolText p.isIntern) ++
  (if p.isIntern then arg (q! "  Data: %1\n") (fromLatin1 (toBase64 (p.rawBytes E.toToolEnv))) else arg (q! "  Url: %1\n") p.url) ++ q! "}\n"
/-- `Sound::toString`, sound.cpp:138-151. -/
def Sound.toText (s : Sound) : QString :=
  q! "Sound {\n" ++ arg (q! "  Type: %1\n") s.type ++ arg (q! "  IsIntern: %1\n") (boolText s.isIntern) ++
  (if s.isIntern then arg (q! "  Data: %1\n") (fromLatin1 (toBase64 s.data)) else arg (q! "  Url: %1\n") s.url) ++ q! "}\n"
/-- `PhoneNumber::toString`, phonenumber.cpp:258-268: the third statement replaces the text of the first two. -/
def PhoneNumber.toText (p : PhoneNumber) : QString := paramsText p.params ++ arg (q! "    Number: %1\n") p.number ++ q! "}\n"
/-- `Address::toString`, address.cpp:382-400. -/
def Address.toText (E : TextEnv) (a : Address) : QString :=
  q! "Address {\n" ++ arg (q! "  IsEmpty: %1\n") (boolText a.empty) ++ arg (q! "  Id: %1\n") a.id ++ arg (q! "  Type: %1\n") (addressTypeLabel E.tr a.type) ++
  arg (q! "  Post office box: %1\n") a.postOfficeBox ++ arg (q! "  Extended: %1\n") a.extended ++ arg (q! "  Street: %1\n") a.street ++
  arg (q! "  Locality: %1\n") a.locality ++ arg (q! "  Region: %1\n") a.region ++ arg (q! "  Postal code: %1\n") a.postalCode ++
  arg (q! "  Country: %1\n") a.country ++ arg (q! "  Label: %1\n") a.label ++ arg (q! "  Geo: %1\n") (a.geo.toText E) ++ q! "}\n"

/-- The lines of `Addressee::toString` for the single fields, addressee.cpp:1935-1966. -/
def Contact.fieldsText (E : TextEnv) (c : Contact) : QString :=
  arg (q! "  Uid: %1\n") c.uid ++
  arg (q! "  Name: %1\n") c.name ++
  arg (q! "  FormattedName: %1\n") c.formattedName ++
  arg (q! "  FamilyName: %1\n") c.familyName ++
  arg (q! "  GivenName: %1\n") c.givenName ++
  arg (q! "  AdditionalName: %1\n") c.additionalName ++
  arg (q! "  Prefix: %1\n") c.prefix_ ++
  arg (q! "  Suffix: %1\n") c.suffix ++
  arg (q! "  NickName: %1\n") (c.text .nickName) ++
  arg (q! "  Birthday: %1\n") (E.dateText c.birthday) ++
  arg (q! "  Mailer: %1\n") c.mailer ++
  arg (q! "  TimeZone: %1\n") c.timeZone.toText ++
  arg (q! "  Geo: %1\n") (c.geo.toText E) ++
  arg (q! "  Title: %1\n") (c.text .title) ++
  arg (q! "  Role: %1\n") (c.text .role) ++
  arg (q! "  Organization: %1\n") (c.text .organization) ++
  arg (q! "  Department: %1\n") c.department ++
  arg (q! "  Note: %1\n") c.note ++
  arg (q! "  ProductId: %1\n") c.productId ++
  arg (q! "  Revision: %1\n") (E.dateText c.revision) ++
  arg (q! "  SortString: %1\n") c.sortString ++
  arg (q! "  Url: %1\n") c.url.url ++
  arg (q! "  Secrecy: %1\n") (c.secrecy.toText E) ++
  arg (q! "  Logo: %1\n") (c.logo.toText E) ++
  arg (q! "  Photo: %1\n") (c.photo.toText E) ++
  arg (q! "  Sound: %1\n") c.sound.toText ++
  arg (q! "  Gender: %1\n") c.gender.toText ++
  arg (q! "  Kind: %1\n") c.kind
/-- `Addressee::toString`, addressee.cpp:1933-2004. -/
def Contact.toText (E : TextEnv) (c : Contact) : QString :=
  q! "Addressee {\n" ++ c.fieldsText E ++
  (q! "  Emails {\n" ++ c.emails.flatMap Email.toText ++ q! "  }\n") ++
  (q! "  Langs {\n" ++ c.langs.flatMap langText ++ q! "  }\n") ++
  (q! "  PhoneNumbers {\n" ++ c.phoneNumbers.flatMap PhoneNumber.toText ++ q! "  }\n") ++
  (q! "  Addresses {\n" ++ c.addresses.flatMap (Address.toText E) ++ q! "  }\n") ++
  (q! "  Keys {\n" ++ c.keys.flatMap (Key.toText E) ++ q! "  }\n") ++ q! "}\n"

end KC
