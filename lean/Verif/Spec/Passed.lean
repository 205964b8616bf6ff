import Verif.Spec.Readable
/-
  Specification: what is left of a contact that was exported and imported several times, each time in a version of its own
  (`Contact.passed`), told from the versions it went through.
-/
namespace KC
open Spec

/-- All the versions `vs` are the version `u`. -/
def Only (u : Version) (vs : List Version) : Prop := ∀ v ∈ vs, v = u

instance (u : Version) (vs : List Version) : Decidable (Only u vs) := inferInstanceAs (Decidable (∀ v ∈ vs, v = u))

/-- An address after the versions `vs`: its position is left if all of them were version 4. -/
def Address.passed (vs : List Version) (a : Address) : Address :=
  { a with empty := false, id := [], type := a.named, geo := if Only .v4_0 vs ∧ a.geo.isValid = true then a.geo else {} }

/-- A key after the versions `vs`: the data it gives out; version 4 loses the name of a type of its own. -/
def Key.passed (vs : List Version) (k : Key) : Key :=
  { id := [], binaryData := if k.isBinary then k.binaryData else [], textData := if k.isBinary then [] else k.textData,
    customTypeString := if k.type = .custom ∧ .v4_0 ∉ vs then k.customTypeString else [], type := k.type, isBinary := k.isBinary }

/-- A contact after the versions `vs`, the last of which was `last`; without ids of addresses, phone numbers and keys. -/
def Contact.passed (E : ToolEnv) (vs : List Version) (last : Version) (c : Contact) : Contact :=
  let logos := ((c.logo :: c.extraLogos).filter fun x => !x.isEmpty).map (Picture.restored E)
  let photos := ((c.photo :: c.extraPhotos).filter fun x => !x.isEmpty).map (Picture.restored E)
  let sounds := if .v4_0 ∈ vs then [] else ((c.sound :: c.extraSounds).filter fun x => !x.isEmpty).map Sound.restored
  { -- what every version keeps
    uid := c.uid
    formattedName := c.formattedName
    familyName := c.familyName
    givenName := c.givenName
    additionalName := c.additionalName
    prefix_ := c.prefix_
    suffix := c.suffix
    birthday := if c.birthdayWithTime then c.birthday else c.birthday.dateOnly
    birthdayWithTime := c.birthday.isSome && c.birthdayWithTime
    timeZone := if c.timeZone.isValid then c.timeZone else {}
    geo := if c.geo.isValid then c.geo else {}
    department := if c.organizations = [] then [] else c.department
    note := c.note
    revision := c.revision
    logo := logos.headD {}
    extraLogos := logos.tail
    photo := photos.headD {}
    extraPhotos := photos.tail
    emails := c.emails
    impps := c.impps
    customs := c.customs
    extraUrls := c.extraUrls
    sources := c.sources
    relationships := c.relationships
    fieldGroups := byField c.fieldGroups
    titles := c.titles
    roles := c.roles
    organizations := c.organizations
    addresses := c.addresses.map (Address.passed vs)
    keys := (c.keys.filter Key.hasData).map (Key.passed vs)
    -- the last version decides how the types of a phone number are spelled
    phoneNumbers := c.phoneNumbers.map (PhoneNumber.restored last [])
    -- what version 4 does not keep
    name := if .v4_0 ∈ vs then [] else c.name
    mailer := if .v4_0 ∈ vs then [] else c.mailer
    sound := sounds.headD {}
    extraSounds := sounds.tail
    -- what version 2.1 does not keep
    productId := if .v2_1 ∈ vs then [] else c.productId
    sortString := if .v2_1 ∈ vs then [] else c.sortString
    categories := if .v2_1 ∈ vs then [] else c.categories
    nickNames := if .v2_1 ∈ vs then [] else c.nickNames
    -- what only version 3.0 keeps
    secrecy := if Only .v3_0 vs then c.secrecy else .invalid
    -- what only version 4 keeps
    deathDate := if Only .v4_0 vs then c.deathDate else none
    langs := if Only .v4_0 vs then c.langs else []
    gender := if Only .v4_0 vs then c.gender else {}
    kind := if Only .v4_0 vs then c.kind else []
    clientPidMaps := if Only .v4_0 vs then c.clientPidMaps else []
    calendarUrls := if Only .v4_0 vs then
      c.calendarUrls.filter (·.type = 3) ++ c.calendarUrls.filter (·.type = 2) ++ c.calendarUrls.filter (·.type = 1) else []
    members := if Only .v4_0 vs ∧ toLowerQ c.kind = q! "group" then c.members else []
    empty := false
    changed := false }

end KC
