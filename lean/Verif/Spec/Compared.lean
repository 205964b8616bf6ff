import Verif.Model.ContactEq
import Verif.Spec.Readable
/-
  C108: what comparing contacts looks at, and what of that a version of the vCard format keeps.
-/
namespace KC

/-- Everything of the contact that a comparison looks at comes through a vCard of version `v`. -/
structure AllKept (E : QtEnv) (v : Version) (c : Contact) : Prop where
  /-- these get new ids when they are read, and ids are compared -/
  phoneNumbers : c.phoneNumbers = []
  addresses : c.addresses = []
  keys : c.keys = []
  /-- a department is written with an organization only -/
  department : c.organizations = [] → c.department = []
  /-- a birthday without time is midnight of the day in local time -/
  birthday : c.birthdayWithTime = false → QDateTime.eq E c.birthday c.birthday.dateOnly = true
  birthdayTime : c.birthdayWithTime = true → c.birthday ≠ none
  /-- not in version 2.1 -/
  productId : v = .v2_1 → c.productId = []
  sortString : v = .v2_1 → c.sortString = []
  categories : v = .v2_1 → c.categories = []
  nickNames : v = .v2_1 → c.nickNames = []
  /-- only in version 3.0 -/
  secrecy : v ≠ .v3_0 → c.secrecy = .invalid
  /-- not in version 4.0 -/
  name : v = .v4_0 → c.name = []
  mailer : v = .v4_0 → c.mailer = []
  sounds : v = .v4_0 → c.sound.isEmpty = true ∧ c.extraSounds = []
  /-- only in version 4.0 -/
  langs : v ≠ .v4_0 → c.langs = []
  gender : v ≠ .v4_0 → c.gender = {}
  kind : v ≠ .v4_0 → c.kind = []
  calendarUrls : v ≠ .v4_0 → c.calendarUrls = []
  clientPidMaps : v ≠ .v4_0 → c.clientPidMaps = []
  deathDate : v ≠ .v4_0 → c.deathDate = none
  /-- only for groups, in version 4.0 -/
  members : ¬ (v = .v4_0 ∧ toLowerQ c.kind = q! "group") → c.members = []

/-- A picture that is written as it is kept: the file, or a link without a type. -/
def Picture.AsKept (p : Picture) : Prop := if p.isIntern then p.rawData ≠ [] else p.type = []

/-- A sound without a type; if there is nothing in it, it is not marked as embedded. -/
def Sound.AsKept (s : Sound) : Prop := s.type = [] ∧ (s.isEmpty = true → s.isIntern = false)

/-- The pictures and sounds are written as they are kept: no further one is empty, and there are none without a first one. -/
structure MediaAsKept (c : Contact) : Prop where
  logo : c.logo.AsKept ∧ ∀ p ∈ c.extraLogos, p.AsKept ∧ p.isEmpty = false
  photo : c.photo.AsKept ∧ ∀ p ∈ c.extraPhotos, p.AsKept ∧ p.isEmpty = false
  sound : c.sound.AsKept ∧ ∀ s ∈ c.extraSounds, s.AsKept ∧ s.isEmpty = false
  firstLogo : c.logo.isEmpty = true → c.extraLogos = []
  firstPhoto : c.photo.isEmpty = true → c.extraPhotos = []
  firstSound : c.sound.isEmpty = true → c.extraSounds = []

/-- The ids given out while reading are not among those of the contact. -/
structure NewIds (ids : IdKind → Nat → QString) (c : Contact) : Prop where
  phoneNumbers : ∀ p ∈ c.phoneNumbers, ∀ i, p.id ≠ ids .phone i
  addresses : ∀ a ∈ c.addresses, ∀ i, a.id ≠ ids .address i
  keys : ∀ k ∈ c.keys, ∀ i, k.id ≠ ids .key i

end KC
