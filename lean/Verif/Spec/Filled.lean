import Verif.Spec.Readable
/-
  Specification: a contact without the entries that have no content (`filled`).
-/
namespace KC
open Spec

/-- The contact without its entries that have no content: titles, roles, nicknames, relationships, languages, client id maps, group members, sources,
    web addresses, messaging addresses, e-mail addresses, phone numbers and grouped fields with an empty text, organizations without a text and
    a department, invalid calendar addresses, addresses without any component (and before version 4 without a label), keys without data, empty
    further pictures and sounds, and custom fields without a value. (A name with a ':' is split at it, so that the value is not empty.) -/
def Contact.filled (E : QtEnv) (v : Version) (c : Contact) : Contact :=
  { c with
    titles := c.titles.filter (·.text ≠ [])
    roles := c.roles.filter (·.text ≠ [])
    nickNames := c.nickNames.filter (·.text ≠ [])
    relationships := c.relationships.filter (·.text ≠ [])
    langs := c.langs.filter (·.text ≠ [])
    clientPidMaps := c.clientPidMaps.filter (·.text ≠ [])
    members := c.members.filter (· ≠ [])
    sources := c.sources.filter (· ≠ [])
    extraUrls := c.extraUrls.filter (·.url ≠ [])
    impps := c.impps.filter (·.url ≠ [])
    emails := c.emails.filter (·.mail ≠ [])
    phoneNumbers := c.phoneNumbers.filter (·.number ≠ [])
    fieldGroups := c.fieldGroups.filter (·.value ≠ [])
    organizations := c.organizations.filter fun o => o.text ≠ [] || c.department ≠ []
    calendarUrls := c.calendarUrls.filter (·.isValid E)
    addresses := c.addresses.filter fun a => a.parts.any (· ≠ []) || (v ≠ .v4_0 && a.label ≠ [])
    keys := c.keys.filter (·.hasData)
    extraLogos := c.extraLogos.filter (!·.isEmpty)
    extraPhotos := c.extraPhotos.filter (!·.isEmpty)
    extraSounds := c.extraSounds.filter (!·.isEmpty)
    customs := c.customs.filter fun p => p.2 ≠ [] || (qc! ':') ∈ p.1 }

/-- Encoding nothing gives nothing: the character encodings and quoted-printable. -/
structure Spec.NothingFromNothing (E : Codecs) : Prop where
  encoder : ∀ name enc, E.encoder name = some enc → enc [] = []
  qp : E.qpEncode [] = []

end KC
