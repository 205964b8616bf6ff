import Verif.Model.Names
import Verif.Model.VCardTool
/-
  The properties of `Addressee` for QML and scripts: the `Q_PROPERTY` declarations of src/addressee.h:99-473, read and written by name through
  `QMetaProperty::read` and `QMetaProperty::write`.
-/
namespace KC

/-- The value of a property (`QVariant`), by its type in the declaration. -/
inductive PropertyValue where
  | text (s : QString)
  | flag (b : Bool)
  | moment (d : QDateTime)
  | day (d : Option (Int × Nat × Nat))
  | position (g : Geo)
  | link (u : QString)
  | locator (u : ParamUrl)
  | locators (l : List ParamUrl)
  | emails (l : List Email)
  | phoneNumbers (l : List PhoneNumber)
  | addresses (l : List Address)
  | texts (l : List QString)
  | impps (l : List ParamUrl)
  | picture (p : Picture)
deriving DecidableEq

/-- The declared properties, addressee.h:99-473. -/
inductive Property where
  | isEmpty | uid | name | formattedName | familyName | givenName | additionalName | prefix_ | suffix | nickName | birthday | birthdayHasTime | mailer
  | geo | title | role | organization | department | note | productId | revision | sortString | url | extraUrls | realName | assembledName
  | preferredEmail | emails | phoneNumbers | addresses | categories | customs | changed | impps | anniversary | assistantsName | blogFeed | managersName
  | office | profession | spousesName | photo | deathDate
deriving DecidableEq

/-- The names in the declarations, addressee.h:99-473. -/
def propertyNames : List (QString × Property) :=
  [(q! "isEmpty", .isEmpty), (q! "uid", .uid), (q! "name", .name), (q! "formattedName", .formattedName), (q! "familyName", .familyName),
   (q! "givenName", .givenName), (q! "additionalName", .additionalName), (q! "prefix", .prefix_), (q! "suffix", .suffix), (q! "nickName", .nickName),
   (q! "birthday", .birthday), (q! "birthdayHasTime", .birthdayHasTime), (q! "mailer", .mailer), (q! "geo", .geo), (q! "title", .title),
   (q! "role", .role), (q! "organization", .organization), (q! "department", .department), (q! "note", .note), (q! "productId", .productId),
   (q! "revision", .revision), (q! "sortString", .sortString), (q! "url", .url), (q! "extraUrls", .extraUrls), (q! "realName", .realName),
   (q! "assembledName", .assembledName), (q! "preferredEmail", .preferredEmail), (q! "emails", .emails), (q! "phoneNumbers", .phoneNumbers),
   (q! "addresses", .addresses), (q! "categories", .categories), (q! "customs", .customs), (q! "changed", .changed), (q! "impps", .impps),
   (q! "anniversary", .anniversary), (q! "assistantsName", .assistantsName), (q! "blogFeed", .blogFeed), (q! "managersName", .managersName),
   (q! "office", .office), (q! "profession", .profession), (q! "spousesName", .spousesName), (q! "photo", .photo), (q! "deathDate", .deathDate)]

/-- `Addressee::anniversary`, addressee.cpp:2169-2172. -/
def Contact.anniversary (E : ToolEnv) (c : Contact) : Option (Int × Nat × Nat) := isoDateOf E (c.custom vendorId (q! "X-Anniversary"))

/-- `Addressee::setAnniversary`, addressee.cpp:2174-2181; `none` is an invalid date. -/
def Contact.setAnniversary (c : Contact) (d : Option (Int × Nat × Nat)) : Contact :=
  if d.isSome then c.insertCustom vendorId (q! "X-Anniversary") (isoDate d) else c.removeCustom vendorId (q! "X-Anniversary")

/-- `Addressee::blogFeed`, addressee.cpp:2197-2200. -/
def Contact.blogFeed (E : ToolEnv) (c : Contact) : QString := E.urlOf (c.custom vendorId (q! "BlogFeed"))

/-- `Addressee::setBirthdayProperty`, addressee.cpp:2693-2696. The time of an invalid `QDateTime` is invalid, with no milliseconds. -/
def Contact.setBirthdayProperty (E : QtEnv) (c : Contact) (d : QDateTime) : Contact :=
  c.setBirthday E d (match d with | some x => x.time ≠ (0, 0, 0, 0) | none => false)

/-- `QMetaProperty::read`: the function after READ in the declaration. -/
def Contact.readProperty (E : ToolEnv) (c : Contact) : Property → PropertyValue
  | .isEmpty => .flag c.empty
  | .uid => .text c.uid
  | .name => .text c.name
  | .formattedName => .text c.formattedName
  | .familyName => .text c.familyName
  | .givenName => .text c.givenName
  | .additionalName => .text c.additionalName
  | .prefix_ => .text c.prefix_
  | .suffix => .text c.suffix
  | .nickName => .text (c.text .nickName)
  | .birthday => .moment c.birthday
  | .birthdayHasTime => .flag c.birthdayWithTime
  | .mailer => .text c.mailer
  | .geo => .position c.geo
  | .title => .text (c.text .title)
  | .role => .text (c.text .role)
  | .organization => .text (c.text .organization)
  | .department => .text c.department
  | .note => .text c.note
  | .productId => .text c.productId
  | .revision => .moment c.revision
  | .sortString => .text c.sortString
  | .url => .locator c.url
  | .extraUrls => .locators c.extraUrls
  | .realName => .text c.realName
  | .assembledName => .text c.assembledName
  | .preferredEmail => .text c.preferredEmail
  | .emails => .emails c.emails
  | .phoneNumbers => .phoneNumbers c.phoneNumbers
  | .addresses => .addresses c.addresses
  | .categories => .texts c.categories
  | .customs => .texts c.customsList
  | .changed => .flag c.changed
  | .impps => .impps c.impps
  | .anniversary => .day (c.anniversary E)
  | .assistantsName => .text (c.custom vendorId (q! "X-AssistantsName"))
  | .blogFeed => .link (c.blogFeed E)
  | .managersName => .text (c.custom vendorId (q! "X-ManagersName"))
  | .office => .text (c.custom vendorId (q! "X-Office"))
  | .profession => .text (c.custom vendorId (q! "X-Profession"))
  | .spousesName => .text (c.custom vendorId (q! "X-SpousesName"))
  | .photo => .picture c.photo
  | .deathDate => .moment c.deathDate

/-- `QMetaProperty::write`: the function after WRITE in the declaration; `none` (the function returns false) if there is none or the value has
    another type. Simplification: no conversion of values between types. -/
def Contact.writeProperty (E : ToolEnv) (c : Contact) : Property → PropertyValue → Option Contact
  | .uid, .text s => some (c.setUid s)
  | .name, .text s => some (c.setName s)
  | .formattedName, .text s => some (c.setFormattedName s)
  | .familyName, .text s => some (c.setFamilyName s)
  | .givenName, .text s => some (c.setGivenName s)
  | .additionalName, .text s => some (c.setAdditionalName s)
  | .prefix_, .text s => some (c.setPrefix s)
  | .suffix, .text s => some (c.setSuffix s)
  | .birthday, .moment d => some (c.setBirthdayProperty E.toQtEnv d)
  | .mailer, .text s => some (c.setMailer s)
  | .geo, .position g => some (c.setGeo g)
  | .department, .text s => some (c.setDepartment s)
  | .note, .text s => some (c.setNote s)
  | .productId, .text s => some (c.setProductId s)
  | .sortString, .text s => some (c.setSortString s)
  | .url, .locator u => some (c.insertExtraUrl E.toQtEnv u)
  | .extraUrls, .locators l => some (c.setExtraUrlList l)
  | .emails, .emails l => some (c.setEmailList l)
  | .phoneNumbers, .phoneNumbers l => some (c.setPhoneNumbers l)
  | .addresses, .addresses l => some (c.setAddresses l)
  | .categories, .texts l => some (c.setCategories l)
  | .changed, .flag b => some (c.setChanged b)
  | .impps, .impps l => some (c.setImppList l)
  | .anniversary, .day d => some (c.setAnniversary d)
  | .assistantsName, .text s => some (c.setNamedCustom (q! "X-AssistantsName") s)
  | .blogFeed, .link u => some (c.setNamedCustom (q! "BlogFeed") u)
  | .managersName, .text s => some (c.setNamedCustom (q! "X-ManagersName") s)
  | .office, .text s => some (c.setNamedCustom (q! "X-Office") s)
  | .profession, .text s => some (c.setNamedCustom (q! "X-Profession") s)
  | .spousesName, .text s => some (c.setNamedCustom (q! "X-SpousesName") s)
  | .photo, .picture p => some (c.setPhoto E.toQtEnv p)
  | .deathDate, .moment d => some (c.setDeathDate E.toQtEnv d)
  | _, _ => none

/-- Reading by name (`QMetaObject::indexOfProperty`); `none` if there is no such property. -/
def Contact.readNamed (E : ToolEnv) (c : Contact) (name : QString) : Option PropertyValue :=
  ((propertyNames.find? fun p => p.1 = name).map (·.2)).map (c.readProperty E)

/-- Writing by name: whether the value was accepted, and the contact afterwards. -/
def Contact.writeNamed (E : ToolEnv) (c : Contact) (name : QString) (v : PropertyValue) : Bool × Contact :=
  match ((propertyNames.find? fun p => p.1 = name).map (·.2)).bind fun p => c.writeProperty E p v with
  | some c' => (true, c')
  | none => (false, c)

end KC
