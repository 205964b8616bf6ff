import Verif.Spec.Readable
/-
  Specification: what a vCard of version 3.0 or 4.0 makes of a text, and the contact with that done to every text that is written as
  the value of a property.
-/
namespace KC

/-- One code unit: half a surrogate pair becomes '?'; directly after a backslash (`prev`) n and N become a line feed, r a carriage return. -/
def carriedUnit (prev : Bool) (u : UInt16) : UInt16 :=
  if 0xD800 ≤ u.toNat ∧ u.toNat < 0xE000 then qc! '?'
  else if prev && (u == qc! 'n' || u == qc! 'N') then 10
  else if prev && u == qc! 'r' then 13
  else u

/-- A text after the round trip. Surrogate pairs stay; `prev` says whether the preceding unit is a backslash. -/
def carriedFrom : (prev : Bool) → QString → QString
  | _, [] => []
  | prev, [u] => [carriedUnit prev u]
  | prev, u :: v :: t =>
    if 0xD800 ≤ u.toNat ∧ u.toNat < 0xDC00 ∧ 0xDC00 ≤ v.toNat ∧ v.toNat < 0xE000 then u :: v :: carriedFrom false t
    else carriedUnit prev u :: carriedFrom (u == qc! '\\') (v :: t)

/-- A text after the round trip. -/
def carried (s : QString) : QString := carriedFrom false s

def ParamText.carried (t : ParamText) : ParamText := { t with text := KC.carried t.text }
def ParamUrl.carried (t : ParamUrl) : ParamUrl := { t with url := KC.carried t.url }
def Email.carried (e : Email) : Email := { e with mail := KC.carried e.mail }
def PhoneNumber.carried (p : PhoneNumber) : PhoneNumber := { p with number := KC.carried p.number }
def Picture.carried (p : Picture) : Picture := { p with url := KC.carried p.url }
def Sound.carried (s : Sound) : Sound := { s with url := KC.carried s.url }
def Key.carried (k : Key) : Key := { k with textData := KC.carried k.textData }
def FieldGroup.carried (g : FieldGroup) : FieldGroup := { g with value := KC.carried g.value }
/-- In version 4 the label is a parameter, and kept as it is. -/
def Address.carried (v : Version) (a : Address) : Address :=
  { a with postOfficeBox := KC.carried a.postOfficeBox, extended := KC.carried a.extended, street := KC.carried a.street, locality := KC.carried a.locality,
           region := KC.carried a.region, postalCode := KC.carried a.postalCode, country := KC.carried a.country,
           label := if v = .v4_0 then a.label else KC.carried a.label }

/-- The contact with every text as it is after the round trip. In version 4 the sort string is a parameter, and kept as it is; so are the
    names of custom fields and field groups and the parameters of all entries. (Calendar addresses are written in the form shown to the
    user, which must be carried unchanged.) -/
def Contact.carried (v : Version) (c : Contact) : Contact :=
  { c with
    uid := KC.carried c.uid
    name := KC.carried c.name
    formattedName := KC.carried c.formattedName
    familyName := KC.carried c.familyName
    givenName := KC.carried c.givenName
    additionalName := KC.carried c.additionalName
    prefix_ := KC.carried c.prefix_
    suffix := KC.carried c.suffix
    mailer := KC.carried c.mailer
    department := KC.carried c.department
    note := KC.carried c.note
    productId := KC.carried c.productId
    sortString := if v = .v4_0 then c.sortString else KC.carried c.sortString
    logo := c.logo.carried
    photo := c.photo.carried
    sound := c.sound.carried
    phoneNumbers := c.phoneNumbers.map PhoneNumber.carried
    addresses := c.addresses.map (Address.carried v)
    keys := c.keys.map Key.carried
    emails := c.emails.map Email.carried
    langs := c.langs.map ParamText.carried
    impps := c.impps.map ParamUrl.carried
    gender := { gender := KC.carried c.gender.gender, comment := KC.carried c.gender.comment }
    kind := KC.carried c.kind
    categories := c.categories.map KC.carried
    customs := c.customs.map fun p => (p.1, KC.carried p.2)
    extraSounds := c.extraSounds.map Sound.carried
    extraPhotos := c.extraPhotos.map Picture.carried
    extraLogos := c.extraLogos.map Picture.carried
    extraUrls := c.extraUrls.map ParamUrl.carried
    sources := c.sources.map KC.carried
    members := c.members.map KC.carried
    relationships := c.relationships.map ParamText.carried
    fieldGroups := c.fieldGroups.map FieldGroup.carried
    titles := c.titles.map ParamText.carried
    roles := c.roles.map ParamText.carried
    organizations := c.organizations.map ParamText.carried
    nickNames := c.nickNames.map ParamText.carried
    clientPidMaps := c.clientPidMaps.map ParamText.carried }

end KC
