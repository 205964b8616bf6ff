import Verif.Spec.Readable
import Verif.Spec.Merge
/-
  Specification: contacts whose names, addresses, categories and organizations may have components that end in a backslash
  (`Carriable`), and what becomes of these components (`merged`).
-/
namespace KC
open Spec

/-- Several texts in one value: each can be written, or, coded as quoted-printable in version 2.1, all of them together. -/
def Joined (E : Codecs) (v : Version) (sep : UInt16) (texts : List QString) : Prop :=
  if v = .v2_1 ∧ ∃ s ∈ texts, ¬ PlainAscii s then Quotable E (joinEscaped sep texts) else ∀ s ∈ texts, SafeText s

/-- An address, as in `AddressOK`, with any components. -/
structure AddressFit (E : ToolEnv) (v : Version) (a : Address) : Prop where
  some : ∃ s ∈ a.parts, s ≠ []
  parts : Joined E.toCodecs v (qc! ';') a.parts
  label : v ≠ .v4_0 → CodedText E.toCodecs v a.label
  label4 : v = .v4_0 → Latin1 a.label ∧ qc! '"' ∉ a.label ∧ (10 : UInt16) ∉ a.label
  geo : v = .v4_0 → a.geo.isValid → PositionOK E E.toDouble a.geo

/-- A contact that a vCard of version `v` can carry, up to backslashes at the end of components: `Readable` without the conditions on these. -/
structure Carriable (E : ToolEnv) (v : Version) (c : Contact) : Prop where
  uid : SafeText c.uid ∧ c.uid ≠ []
  formattedName : CodedText E.toCodecs v c.formattedName
  note : CodedText E.toCodecs v c.note
  mailer : v ≠ .v4_0 → CodedText E.toCodecs v c.mailer
  name : v ≠ .v4_0 → CodedText E.toCodecs v c.name
  nameParts : Joined E.toCodecs v (qc! ';') c.nameParts
  sortString : v = .v3_0 → SafeText c.sortString
  sortAs : v = .v4_0 → c.sortString ≠ [] → ParamOK (q! "sort-as") c.sortString
  productId : v ≠ .v2_1 → SafeText c.productId
  birthday : ∀ x, c.birthday = some x → DateOK x.date ∧ (c.birthdayWithTime = true → TimeOK x.time x.zone)
  revision : DateTimeOK c.revision
  deathDate : v = .v4_0 → DateTimeOK c.deathDate
  timeZone : c.timeZone.isValid = true → -6000 < c.timeZone.offset ∧ c.timeZone.offset < 6000
  geo : c.geo.isValid = true → PositionOK E E.toFloat c.geo
  categories : v ≠ .v2_1 → Joined E.toCodecs v (qc! ',') c.categories
  addresses : ∀ a ∈ c.addresses, AddressFit E v a
  /-- before version 4 a label belongs to the first address of its type -/
  labels : v ≠ .v4_0 → c.addresses.Pairwise fun a b => a.named = b.named → b.label = []
  phoneNumbers : ∀ p ∈ c.phoneNumbers, PhoneOK p
  emails : (∀ e ∈ c.emails, EmailOK v e) ∧ (c.emails.map (·.mail)).Nodup ∧ ∀ e ∈ c.emails.tail, e.isPreferred = false
  organizations : ∀ o ∈ c.organizations, TextOK o ∧ (∀ p ∈ o.params, p.1 ≠ q! "sort-as") ∧
    Joined E.toCodecs v (qc! ';') (if c.department = [] then [o.text] else [o.text, c.department]) ∧
    (v = .v2_1 → PlainAscii o.text ∧ PlainAscii c.department)
  titles : ∀ t ∈ c.titles, TextOK t ∧ (v = .v2_1 → PlainAscii t.text)
  roles : ∀ t ∈ c.roles, TextOK t ∧ (v = .v2_1 → PlainAscii t.text)
  nickNames : v ≠ .v2_1 → ∀ t ∈ c.nickNames, TextOK t
  relationships : (∀ t ∈ c.relationships, TextOK t) ∧ c.relationships.Nodup
  langs : v = .v4_0 → (∀ t ∈ c.langs, TextOK t ∧ simplified t.text ≠ []) ∧ (c.langs.map (·.text)).Nodup
  clientPidMaps : v = .v4_0 → ∀ t ∈ c.clientPidMaps, TextOK t
  members : v = .v4_0 → (∀ m ∈ c.members, SafeText m ∧ m ≠ []) ∧ c.members.Nodup
  sources : ∀ u ∈ c.sources, UrlText E u
  extraUrls : ∀ u ∈ c.extraUrls, UrlText E u.url ∧ ParamsOK u.params ∧ E.urlValid u.url = true
  impps : ∀ u ∈ c.impps, UrlText E u.url ∧ ParamsOK u.params ∧ (∀ p ∈ u.params, p.1 ≠ q! "x-service-type") ∧ E.urlScheme u.url ≠ []
  calendarUrls : v = .v4_0 → ∀ u ∈ c.calendarUrls, ParamsOK u.params ∧ u.isValid E.toQtEnv = true ∧ u.type ≤ 3 ∧
    SafeText (E.urlDisplay u.url) ∧ E.urlDisplay u.url ≠ [] ∧ E.urlOf (E.urlDisplay u.url) = u.url
  gender : v = .v4_0 → c.gender.gender.length ≤ 1 ∧ c.gender.gender ≠ [qc! ';'] ∧ SafeText c.gender.gender ∧
    SafeText (c.gender.gender ++ qc! ';' :: c.gender.comment)
  kind : v = .v4_0 → SafeText c.kind
  keys : ∀ k ∈ c.keys, k.hasData = true → KeyOK v k
  pictures : ∀ p ∈ c.logo :: c.extraLogos ++ c.photo :: c.extraPhotos, if v = .v4_0 then PictureOK E v p else p.isEmpty = false → PictureOK E v p
  sounds : ∀ s ∈ c.sound :: c.extraSounds, s.isEmpty = false → SoundOK v s
  fieldGroups : ∀ g ∈ c.fieldGroups, GroupOK g
  customs : Ascending (c.customs.map (·.1)) ∧ ∀ p ∈ c.customs, CustomOK E.toCodecs v p.1 p.2

/-- The contact without the addresses for which nothing is written: those without any component, which before version 4 also have no
    label. -/
def Contact.written (v : Version) (c : Contact) : Contact :=
  { c with addresses := c.addresses.filter fun a => a.parts.any (· ≠ []) || (v ≠ .v4_0 && a.label ≠ []) }

/-- The address with its seven components merged; missing ones are empty. -/
def Address.merged (a : Address) : Address :=
  let p := KC.merged (qc! ';') a.parts
  { a with postOfficeBox := p.getD 0 [], extended := p.getD 1 [], street := p.getD 2 [], locality := p.getD 3 [], region := p.getD 4 [], postalCode := p.getD 5 [], country := p.getD 6 [] }

/-- The organization and the department in one value. -/
def orgTexts (department : QString) (o : ParamText) : List QString := if department = [] then [o.text] else [o.text, department]

/-- The contact with the components of its name, of its addresses, its categories, and the department behind each organization merged.
    The department is lost when it is merged into every organization. A single empty category is not written. -/
def Contact.merged (c : Contact) : Contact :=
  let p := KC.merged (qc! ';') c.nameParts
  { c with
    familyName := p.getD 0 []
    givenName := p.getD 1 []
    additionalName := p.getD 2 []
    prefix_ := p.getD 3 []
    suffix := p.getD 4 []
    addresses := c.addresses.map Address.merged
    categories := if c.categories = [[]] then [] else KC.merged (qc! ',') c.categories
    organizations := c.organizations.map fun o => { o with text := (KC.merged (qc! ';') (orgTexts c.department o)).headD [] }
    department := if c.organizations ≠ [] ∧ ∀ o ∈ c.organizations, o.text.getLast? = some (qc! '\\') then [] else c.department }

end KC
