import Verif.Spec.Coded
import Verif.Spec.DateTime
import Mathlib.Data.List.Sort
/-
  Specification: the contacts that a vCard of a given version can carry (`Readable`), and the contact that a reader then gets
  (`restored`): the same content, with new ids for addresses, phone numbers and keys, without what that version does not write.

  Every condition is about one field; Props/C24.lean shows for most of them what happens without it.
-/
namespace KC
open Spec

/-- Several texts in one value (a name, an address, categories): no text but the last ends in a backslash; and each can be written,
    or, coded as quoted-printable in version 2.1, all of them together. -/
structure Compound (E : Codecs) (v : Version) (sep : UInt16) (texts : List QString) : Prop where
  backslash : ∀ s ∈ texts.dropLast, s.getLast? ≠ some (qc! '\\')
  text : if v = .v2_1 ∧ ∃ s ∈ texts, ¬ PlainAscii s then Quotable E (joinEscaped sep texts) else ∀ s ∈ texts, SafeText s

/-- A date and time that can be written; also no date. -/
def DateTimeOK (d : QDateTime) : Prop := ∀ x, d = some x → DateOK x.date ∧ TimeOK x.time x.zone

/-- The decimal form of a coordinate, with the characters of a decimal number. -/
def NumberText (s : QString) : Prop := s ≠ [] ∧ ∀ u ∈ s, u = qc! '-' ∨ u = qc! '.' ∨ (48 ≤ u.toNat ∧ u.toNat ≤ 57)

/-- A position in range, each coordinate of which is the value of its six-digit decimal form (read with `read`). -/
structure PositionOK (E : ToolEnv) (read : QString → Flt) (g : Geo) : Prop where
  latRange : (Flt.ofInt (-90)).le g.latitude = true ∧ g.latitude.le (.ofInt 90) = true
  longRange : (Flt.ofInt (-180)).le g.longitude = true ∧ g.longitude.le (.ofInt 180) = true
  lat : read (E.fmt6 g.latitude) = g.latitude ∧ NumberText (E.fmt6 g.latitude)
  long : read (E.fmt6 g.longitude) = g.longitude ∧ NumberText (E.fmt6 g.longitude)

/-- A text with parameters: not empty. -/
structure TextOK (t : ParamText) : Prop where
  text : SafeText t.text ∧ t.text ≠ []
  params : ParamsOK t.params

/-- The URL made from the text of a URL is that URL. -/
def UrlText (E : ToolEnv) (u : QString) : Prop := SafeText u ∧ u ≠ [] ∧ E.urlOf u = u

/-! ### entries with their own rules -/

/-- The seven components of an address. -/
def Address.parts (a : Address) : List QString := [a.postOfficeBox, a.extended, a.street, a.locality, a.region, a.postalCode, a.country]

/-- An address: not without any component; its label is a text of its own before version 4, a quoted parameter in version 4. -/
structure AddressOK (E : ToolEnv) (v : Version) (a : Address) : Prop where
  some : ∃ s ∈ a.parts, s ≠ []
  parts : Compound E.toCodecs v (qc! ';') a.parts
  label : v ≠ .v4_0 → CodedText E.toCodecs v a.label
  label4 : v = .v4_0 → Latin1 a.label ∧ qc! '"' ∉ a.label ∧ (10 : UInt16) ∉ a.label
  geo : v = .v4_0 → a.geo.isValid → PositionOK E E.toDouble a.geo

/-- The type flags that have a name. -/
def Address.named (a : Address) : Nat := a.type &&& 127
def PhoneNumber.named (p : PhoneNumber) : Nat := p.type &&& 16383

/-- A phone number: trimmed, not empty; the `type` parameter does not matter. -/
structure PhoneOK (p : PhoneNumber) : Prop where
  number : SafeText p.number ∧ p.number ≠ [] ∧ simplified p.number = p.number
  params : ParamsOK (p.params.filter fun q => q.1 ≠ q! "type")

/-- A type name written on its own, as version 2.1 does: capital letters. -/
def CapitalName (s : QString) : Prop := s ≠ [] ∧ ∀ u ∈ s, 65 ≤ u.toNat ∧ u.toNat ≤ 90

/-- An e-mail address. Version 2.1 writes the types as parameters without value, in alphabetical order. -/
structure EmailOK (v : Version) (e : Email) : Prop where
  mail : SafeText e.mail ∧ e.mail ≠ []
  params : ParamsOK e.params
  types : v = .v2_1 → ∀ vs, (q! "type", vs) ∈ e.params → Ascending vs ∧ ∀ s ∈ vs, CapitalName s

/-- The data a key gives out. -/
def Key.hasData (k : Key) : Bool := if k.isBinary then !k.binaryData.isEmpty else !k.textData.isEmpty

/-- A key with data: no binary data in version 2.1; a type of its own is not spelled like a known type. -/
structure KeyOK (v : Version) (k : Key) : Prop where
  binary : v = .v2_1 → k.isBinary = false
  text : k.isBinary = false → SafeText k.textData
  type : k.type = .custom → ParamOK (q! "type") k.customTypeString ∧
    if v = .v4_0 then toLowerQ k.customTypeString ≠ q! "application/x-x509-ca-cert" ∧ toLowerQ k.customTypeString ≠ q! "application/pgp-keys"
    else toLowerQ k.customTypeString ≠ q! "x509" ∧ toLowerQ k.customTypeString ≠ q! "pgp"

/-- A picture that is not empty: embedded ones only in version 3.0. -/
structure PictureOK (E : ToolEnv) (v : Version) (p : Picture) : Prop where
  intern : p.isIntern = true → v = .v3_0 ∧ p.rawBytes E ≠ [] ∧ ParamOK (q! "type") p.type
  url : p.isIntern = false → SafeText p.url ∧ (v = .v4_0 → indexOfStr? (b! "data:") (toUtf8 p.url) = none)

/-- A sound that is not empty: embedded ones only in version 3.0. -/
structure SoundOK (v : Version) (s : Sound) : Prop where
  intern : s.isIntern = true → v = .v3_0
  url : s.isIntern = false → SafeText s.url

/-- A field of a group, `group.NAME`: the reader keeps them as field groups unless the name is ADR. -/
structure GroupOK (g : FieldGroup) : Prop where
  name : ∃ a b, g.fieldGroupName = a ++ qc! '.' :: b ∧ a ≠ [] ∧ NameOK a ∧ NameOK b ∧ toLowerQ b ≠ q! "adr" ∧
    ∀ c, a.head? = some c → c.toNat ≠ 32 ∧ ¬ (9 ≤ c.toNat ∧ c.toNat ≤ 13)
  value : SafeText g.value ∧ g.value ≠ []
  params : ParamsOK g.params

/-- A custom field: its name is an application and a name joined by the first '-', without '.', ';', ':' and line feeds, not one of
    the names that stand for messaging addresses or that are spelled differently by this library. -/
structure CustomOK (E : Codecs) (v : Version) (key value : QString) : Prop where
  name : ∃ app n, key = app ++ qc! '-' :: n ∧ app ≠ [] ∧ n ≠ [] ∧ qc! '-' ∉ app
  chars : NameOK key
  messaging : startsWith (q! "messaging/") key = false
  spelled : ∀ s, renamed importNames (toLowerQ (q! "X-" ++ key)) = some s → s = q! "X-" ++ key
  text : CodedText E v value ∧ value ≠ []
  /-- version 4 has properties of its own for two of them; the spouse's name is not read back -/
  spouse : v = .v4_0 → key ≠ q! "KADDRESSBOOK-X-SpousesName"
  anniversary : v = .v4_0 → key = q! "KADDRESSBOOK-X-Anniversary" →
    ∃ d, DateOK d ∧ 1 ≤ d.1 ∧ value = isoDate (some d)

/-! ### whole contacts -/

/-- The five components of a name. -/
def Contact.nameParts (c : Contact) : List QString := [c.familyName, c.givenName, c.additionalName, c.prefix_, c.suffix]

/-- A contact that a vCard of version `v` can carry. -/
structure Readable (E : ToolEnv) (v : Version) (c : Contact) : Prop where
  uid : SafeText c.uid ∧ c.uid ≠ []
  formattedName : CodedText E.toCodecs v c.formattedName
  note : CodedText E.toCodecs v c.note
  mailer : v ≠ .v4_0 → CodedText E.toCodecs v c.mailer
  name : v ≠ .v4_0 → CodedText E.toCodecs v c.name
  nameParts : Compound E.toCodecs v (qc! ';') c.nameParts
  sortString : v = .v3_0 → SafeText c.sortString
  sortAs : v = .v4_0 → c.sortString ≠ [] → ParamOK (q! "sort-as") c.sortString
  productId : v ≠ .v2_1 → SafeText c.productId
  birthday : ∀ x, c.birthday = some x → DateOK x.date ∧ (c.birthdayWithTime = true → TimeOK x.time x.zone)
  revision : DateTimeOK c.revision
  deathDate : v = .v4_0 → DateTimeOK c.deathDate
  timeZone : c.timeZone.isValid = true → -6000 < c.timeZone.offset ∧ c.timeZone.offset < 6000
  geo : c.geo.isValid = true → PositionOK E E.toFloat c.geo
  categories : v ≠ .v2_1 → c.categories ≠ [[]] ∧ Compound E.toCodecs v (qc! ',') c.categories
  addresses : ∀ a ∈ c.addresses, AddressOK E v a
  /-- before version 4 a label belongs to the first address of its type -/
  labels : v ≠ .v4_0 → c.addresses.Pairwise fun a b => a.named = b.named → b.label = []
  phoneNumbers : ∀ p ∈ c.phoneNumbers, PhoneOK p
  emails : (∀ e ∈ c.emails, EmailOK v e) ∧ (c.emails.map (·.mail)).Nodup ∧ ∀ e ∈ c.emails.tail, e.isPreferred = false
  organizations : ∀ o ∈ c.organizations, TextOK o ∧ (∀ p ∈ o.params, p.1 ≠ q! "sort-as") ∧
    Compound E.toCodecs v (qc! ';') (if c.department = [] then [o.text] else [o.text, c.department]) ∧
    (v = .v2_1 → PlainAscii o.text ∧ PlainAscii c.department)
  titles : ∀ t ∈ c.titles, TextOK t ∧ (v = .v2_1 → PlainAscii t.text)
  roles : ∀ t ∈ c.roles, TextOK t ∧ (v = .v2_1 → PlainAscii t.text)
  nickNames : v ≠ .v2_1 → ∀ t ∈ c.nickNames, TextOK t
  relationships : (∀ t ∈ c.relationships, TextOK t) ∧ c.relationships.Nodup
  langs : v = .v4_0 → (∀ t ∈ c.langs, TextOK t ∧ simplified t.text ≠ []) ∧ (c.langs.map (·.text)).Nodup
  clientPidMaps : v = .v4_0 → ∀ t ∈ c.clientPidMaps, TextOK t
  members : v = .v4_0 → (∀ m ∈ c.members, SafeText m ∧ m ≠ []) ∧ c.members.Nodup
  sources : ∀ u ∈ c.sources, UrlText E u
  extraUrls : ∀ u ∈ c.extraUrls, UrlText E u.url ∧ ParamsOK u.params ∧ E.urlValid u.url = true
  impps : ∀ u ∈ c.impps, UrlText E u.url ∧ ParamsOK u.params ∧ (∀ p ∈ u.params, p.1 ≠ q! "x-service-type") ∧ E.urlScheme u.url ≠ []
  calendarUrls : v = .v4_0 → ∀ u ∈ c.calendarUrls, ParamsOK u.params ∧ u.isValid E.toQtEnv = true ∧ u.type ≤ 3 ∧
    SafeText (E.urlDisplay u.url) ∧ E.urlDisplay u.url ≠ [] ∧ E.urlOf (E.urlDisplay u.url) = u.url
  gender : v = .v4_0 → c.gender.gender.length ≤ 1 ∧ c.gender.gender ≠ [qc! ';'] ∧ SafeText c.gender.gender ∧
    SafeText (c.gender.gender ++ qc! ';' :: c.gender.comment)
  kind : v = .v4_0 → SafeText c.kind
  keys : ∀ k ∈ c.keys, k.hasData = true → KeyOK v k
  pictures : ∀ p ∈ c.logo :: c.extraLogos ++ c.photo :: c.extraPhotos, if v = .v4_0 then PictureOK E v p else p.isEmpty = false → PictureOK E v p
  sounds : ∀ s ∈ c.sound :: c.extraSounds, s.isEmpty = false → SoundOK v s
  fieldGroups : ∀ g ∈ c.fieldGroups, GroupOK g
  customs : Ascending (c.customs.map (·.1)) ∧ ∀ p ∈ c.customs, CustomOK E.toCodecs v p.1 p.2

/-- Only the date of a day. -/
def QDateTime.dateOnly (d : QDateTime) : QDateTime := d.map fun x => { date := x.date, time := (0, 0, 0, 0), zone := none }

/-- An address after the round trip, with a new id: its types are the ones that have a name; the position only in version 4. -/
def Address.restored (v : Version) (id : QString) (a : Address) : Address :=
  { a with empty := false, id := id, type := a.named, geo := if v = .v4_0 ∧ a.geo.isValid = true then a.geo else {} }

/-- A phone number after the round trip, with a new id: `Undefined` when no type has a name; the types also are in the parameters,
    under names written in capitals before version 4. -/
def PhoneNumber.restored (v : Version) (id : QString) (p : PhoneNumber) : PhoneNumber :=
  let names := (typeNames phoneTypes p.type).map fun n => if v = .v4_0 then toLowerQ n else n
  let others := p.params.filter fun q => q.1 ≠ q! "type"
  { id := id, number := p.number, type := if p.named = 0 then 16384 else p.named,
    params := if p.named = 0 then others else SMap.insertSorted others (q! "type") names }

/-- A key after the round trip, with a new id: only the data it gives out; version 4 loses the name of a type of its own. -/
def Key.restored (v : Version) (id : QString) (k : Key) : Key :=
  { id := id, binaryData := if k.isBinary then k.binaryData else [], textData := if k.isBinary then [] else k.textData,
    customTypeString := if k.type = .custom ∧ v ≠ .v4_0 then k.customTypeString else [], type := k.type, isBinary := k.isBinary }

/-- A picture after the round trip: the encoded image and its type, or the URL. -/
def Picture.restored (E : ToolEnv) (p : Picture) : Picture :=
  if p.isIntern then { type := p.type, rawData := p.rawBytes E, isIntern := true } else { url := p.url }

/-- A sound after the round trip: the data or the URL. -/
def Sound.restored (s : Sound) : Sound := if s.isIntern then { data := s.data, isIntern := true } else { url := s.url }

/-- The name of a field without its group: what follows the first dot. -/
def FieldGroup.field (g : FieldGroup) : QString := (g.fieldGroupName.dropWhile (· ≠ qc! '.')).drop 1

/-- Fields of groups in the order of their names without the group, those with the same one in the order of the names with the group. -/
def FieldGroup.notAfter (a b : FieldGroup) : Prop :=
  if a.field = b.field then qlt b.fieldGroupName a.fieldGroupName = false else qlt a.field b.field = true

instance (a b : FieldGroup) : Decidable (a.notAfter b) := by unfold FieldGroup.notAfter; infer_instance

/-- Fields of groups sorted like that (stable: fields of the same name keep their order). -/
def byField (g : List FieldGroup) : List FieldGroup := g.insertionSort FieldGroup.notAfter

/-- The contact that is read back. `uid` is not new; the ids of addresses, phone numbers and keys are, counted from `a`, `p`, `k`. -/
def Contact.restored (E : ToolEnv) (v : Version) (ids : IdKind → Nat → QString) (a p k : Nat) (c : Contact) : Contact :=
  let logos := ((c.logo :: c.extraLogos).filter fun x => !x.isEmpty).map (Picture.restored E)
  let photos := ((c.photo :: c.extraPhotos).filter fun x => !x.isEmpty).map (Picture.restored E)
  let sounds := if v = .v4_0 then [] else ((c.sound :: c.extraSounds).filter fun x => !x.isEmpty).map Sound.restored
  { uid := c.uid
    name := if v = .v4_0 then [] else c.name
    formattedName := c.formattedName
    familyName := c.familyName
    givenName := c.givenName
    additionalName := c.additionalName
    prefix_ := c.prefix_
    suffix := c.suffix
    birthday := if c.birthdayWithTime then c.birthday else c.birthday.dateOnly
    birthdayWithTime := c.birthday.isSome && c.birthdayWithTime
    mailer := if v = .v4_0 then [] else c.mailer
    timeZone := if c.timeZone.isValid then c.timeZone else {}
    geo := if c.geo.isValid then c.geo else {}
    department := if c.organizations = [] then [] else c.department
    note := c.note
    productId := if v = .v2_1 then [] else c.productId
    revision := c.revision
    sortString := if v = .v2_1 then [] else c.sortString
    secrecy := if v = .v3_0 then c.secrecy else .invalid
    logo := logos.headD {}
    photo := photos.headD {}
    sound := sounds.headD {}
    deathDate := if v = .v4_0 then c.deathDate else none
    phoneNumbers := c.phoneNumbers.mapIdx fun i x => x.restored v (ids .phone (p + i))
    addresses := c.addresses.mapIdx fun i x => x.restored v (ids .address (a + i))
    keys := (c.keys.filter Key.hasData).mapIdx fun i x => x.restored v (ids .key (k + i))
    emails := c.emails
    langs := if v = .v4_0 then c.langs else []
    impps := c.impps
    gender := if v = .v4_0 then c.gender else {}
    kind := if v = .v4_0 then c.kind else []
    categories := if v = .v2_1 then [] else c.categories
    customs := c.customs
    calendarUrls := if v = .v4_0 then c.calendarUrls.filter (·.type = 3) ++ c.calendarUrls.filter (·.type = 2) ++ c.calendarUrls.filter (·.type = 1) else []
    extraSounds := sounds.tail
    extraPhotos := photos.tail
    extraLogos := logos.tail
    extraUrls := c.extraUrls
    sources := c.sources
    members := if v = .v4_0 ∧ toLowerQ c.kind = q! "group" then c.members else []
    relationships := c.relationships
    fieldGroups := byField c.fieldGroups
    titles := c.titles
    roles := c.roles
    organizations := c.organizations
    nickNames := if v = .v2_1 then [] else c.nickNames
    clientPidMaps := if v = .v4_0 then c.clientPidMaps else []
    empty := false
    changed := false }

/-- The same field groups; those of one name are in the same order. -/
def Regrouped (g' g : List FieldGroup) : Prop := ∀ n, g'.filter (·.fieldGroupName = n) = g.filter (·.fieldGroupName = n)

/-- The contacts `cs'` are the contacts `cs` read back in order, ids being counted from `a`, `p`, `k`. -/
inductive ReadAs (E : ToolEnv) (v : Version) (ids : IdKind → Nat → QString) : Nat → Nat → Nat → List Contact → List Contact → Prop
  | nil {a p k : Nat} : ReadAs E v ids a p k [] []
  | cons {a p k : Nat} {c c' : Contact} {cs cs' : List Contact} : c' = c.restored E v ids a p k →
      ReadAs E v ids (a + c.addresses.length) (p + c.phoneNumbers.length) (k + (c.keys.filter Key.hasData).length) cs cs' →
      ReadAs E v ids a p k (c :: cs) (c' :: cs')

/-- Writing the contact `c` as a vCard and reading that text gives exactly one contact, `c'`, however many steps beyond some number
    the reader is given. -/
def WrittenAndRead (E : ToolEnv) (v : Version) (ids : IdKind → Nat → QString) (c c' : Contact) : Prop :=
  ∃ n, ∀ fuel, n ≤ fuel → parseContacts E ids fuel (createContacts E v false [c]) = .ok [c']

end KC
