import Verif.Model.Contact
/-
  Comparison of contacts: `Addressee::operator==`.
-/
namespace KC

/-- `listEquals`, addressee.cpp:2661-2691 (the template and the string list version): the same number of elements, and the
    second list contains every element of the first. `eq` is the element type's `operator==`, called by
    `QList::contains(x)` as `element == x`. -/
def listEquals {α : Type} (eq : α → α → Bool) (list pattern : List α) : Bool :=
  if list.length ≠ pattern.length then false else list.all fun x => pattern.any fun e => eq e x

/-- Element types compared member by member. -/
def deq {α : Type} [DecidableEq α] (a b : α) : Bool := decide (a = b)

/-- `Addressee::operator==`, addressee.cpp:206-433. The guards "differs and not both empty" of the strings amount to equality,
    as Qt compares a null and an empty string equal. -/
def Contact.eq (E : QtEnv) (a b : Contact) : Bool :=
  deq a.uid b.uid && deq a.name b.name && deq a.formattedName b.formattedName && deq a.familyName b.familyName
  && deq a.givenName b.givenName && deq a.additionalName b.additionalName && deq a.prefix_ b.prefix_ && deq a.suffix b.suffix
  && QDateTime.eq E a.birthday b.birthday && deq a.birthdayWithTime b.birthdayWithTime && deq a.mailer b.mailer
  && a.timeZone.eq b.timeZone && a.geo.eq b.geo && deq a.department b.department && deq a.note b.note
  && deq a.productId b.productId && deq a.sortString b.sortString && deq a.secrecy b.secrecy
  && a.logo.eq E b.logo && a.photo.eq E b.photo && a.sound.eq b.sound
  && listEquals deq a.phoneNumbers b.phoneNumbers && listEquals Address.eq a.addresses b.addresses
  && listEquals Key.eq a.keys b.keys && listEquals deq a.emails b.emails && listEquals deq a.categories b.categories
  && deq a.customs b.customs && deq a.langs b.langs && deq a.impps b.impps && deq a.gender b.gender && deq a.kind b.kind
  && listEquals deq a.calendarUrls b.calendarUrls && listEquals Sound.eq a.extraSounds b.extraSounds
  && listEquals (Picture.eq E) a.extraPhotos b.extraPhotos && listEquals (Picture.eq E) a.extraLogos b.extraLogos
  && listEquals deq a.extraUrls b.extraUrls && listEquals deq a.members b.members
  && listEquals deq a.relationships b.relationships && listEquals deq a.sources b.sources
  && listEquals deq a.fieldGroups b.fieldGroups && listEquals deq a.titles b.titles && listEquals deq a.roles b.roles
  && listEquals deq a.organizations b.organizations && listEquals deq a.nickNames b.nickNames
  && listEquals deq a.clientPidMaps b.clientPidMaps && QDateTime.eq E a.deathDate b.deathDate

end KC
