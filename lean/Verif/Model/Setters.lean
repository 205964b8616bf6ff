import Verif.Model.Contact
/-
  The remaining modifying functions of `Addressee`: src/addressee.cpp:445-1420, 1704-2157, 2520, and `Op`, the type of all
  modifying calls.
-/
namespace KC

/-! ### guarded setters: nothing happens when the new value compares equal to the old one -/

/-- `Addressee::setUid`, addressee.cpp:445-453. -/
def Contact.setUid (c : Contact) (s : QString) : Contact := if s = c.uid then c else { c with empty := false, uid := s }
/-- `Addressee::setName`, addressee.cpp:465-473. -/
def Contact.setName (c : Contact) (s : QString) : Contact := if s = c.name then c else { c with empty := false, name := s }
/-- `Addressee::setKind`, addressee.cpp:485-493. -/
def Contact.setKind (c : Contact) (s : QString) : Contact := if s = c.kind then c else { c with empty := false, kind := s }
/-- `Addressee::setFormattedName`, addressee.cpp:661-669. -/
def Contact.setFormattedName (c : Contact) (s : QString) : Contact :=
  if s = c.formattedName then c else { c with empty := false, formattedName := s }
/-- `Addressee::setFamilyName`, addressee.cpp:681-689. -/
def Contact.setFamilyName (c : Contact) (s : QString) : Contact :=
  if s = c.familyName then c else { c with empty := false, familyName := s }
/-- `Addressee::setGivenName`, addressee.cpp:701-709. -/
def Contact.setGivenName (c : Contact) (s : QString) : Contact :=
  if s = c.givenName then c else { c with empty := false, givenName := s }
/-- `Addressee::setAdditionalName`, addressee.cpp:721-729. -/
def Contact.setAdditionalName (c : Contact) (s : QString) : Contact :=
  if s = c.additionalName then c else { c with empty := false, additionalName := s }
/-- `Addressee::setPrefix`, addressee.cpp:741-749. -/
def Contact.setPrefix (c : Contact) (s : QString) : Contact := if s = c.prefix_ then c else { c with empty := false, prefix_ := s }
/-- `Addressee::setSuffix`, addressee.cpp:761-769. -/
def Contact.setSuffix (c : Contact) (s : QString) : Contact := if s = c.suffix then c else { c with empty := false, suffix := s }
/-- `Addressee::setMailer`, addressee.cpp:1002-1010. -/
def Contact.setMailer (c : Contact) (s : QString) : Contact := if s = c.mailer then c else { c with empty := false, mailer := s }
/-- `Addressee::setDepartment`, addressee.cpp:1215-1223. -/
def Contact.setDepartment (c : Contact) (s : QString) : Contact :=
  if s = c.department then c else { c with empty := false, department := s }
/-- `Addressee::setNote`, addressee.cpp:1235-1243. -/
def Contact.setNote (c : Contact) (s : QString) : Contact := if s = c.note then c else { c with empty := false, note := s }
/-- `Addressee::setProductId`, addressee.cpp:1255-1263. -/
def Contact.setProductId (c : Contact) (s : QString) : Contact :=
  if s = c.productId then c else { c with empty := false, productId := s }
/-- `Addressee::setSortString`, addressee.cpp:1295-1303. -/
def Contact.setSortString (c : Contact) (s : QString) : Contact :=
  if s = c.sortString then c else { c with empty := false, sortString := s }
/-- `Addressee::setSecrecy`, addressee.cpp:1341-1349. -/
def Contact.setSecrecy (c : Contact) (s : Secrecy) : Contact := if s = c.secrecy then c else { c with empty := false, secrecy := s }
/-- `Addressee::setGender`, addressee.cpp:1755-1763 (`Gender::operator==`, gender.cpp:51-54, compares both texts). -/
def Contact.setGender (c : Contact) (g : Gender) : Contact := if g = c.gender then c else { c with empty := false, gender := g }
/-- `Addressee::setTimeZone`, addressee.cpp:1022-1030. -/
def Contact.setTimeZone (c : Contact) (t : TimeZone) : Contact :=
  if t.eq c.timeZone then c else { c with empty := false, timeZone := t }
/-- `Addressee::setGeo`, addressee.cpp:1042-1050. -/
def Contact.setGeo (c : Contact) (g : Geo) : Contact := if g.eq c.geo then c else { c with empty := false, geo := g }
/-- `Addressee::setLogo`, addressee.cpp:1361-1369. -/
def Contact.setLogo (E : QtEnv) (c : Contact) (p : Picture) : Contact := if p.eq E c.logo then c else { c with empty := false, logo := p }
/-- `Addressee::setPhoto`, addressee.cpp:1381-1389. -/
def Contact.setPhoto (E : QtEnv) (c : Contact) (p : Picture) : Contact :=
  if p.eq E c.photo then c else { c with empty := false, photo := p }
/-- `Addressee::setSound`, addressee.cpp:1401-1409. -/
def Contact.setSound (c : Contact) (s : Sound) : Contact := if s.eq c.sound then c else { c with empty := false, sound := s }
/-- `Addressee::setRevision`, addressee.cpp:1275-1283. -/
def Contact.setRevision (E : QtEnv) (c : Contact) (d : QDateTime) : Contact :=
  if QDateTime.eq E d c.revision then c else { c with empty := false, revision := d }
/-- `Addressee::setDeathDate`, addressee.cpp:862-870. -/
def Contact.setDeathDate (E : QtEnv) (c : Contact) (d : QDateTime) : Contact :=
  if QDateTime.eq E d c.deathDate then c else { c with empty := false, deathDate := d }
/-- `QDateTime::setTime(QTime())`: midnight (Qt 6 documentation). -/
def QDateTime.midnight (d : QDateTime) : QDateTime := d.map fun x => { x with time := (0, 0, 0, 0) }
/-- `Addressee::setBirthday(QDateTime, bool)`, addressee.cpp:832-844. -/
def Contact.setBirthday (E : QtEnv) (c : Contact) (d : QDateTime) (withTime : Bool) : Contact :=
  if QDateTime.eq E d c.birthday && c.birthdayWithTime = withTime then c
  else { c with empty := false, birthday := if withTime then d else d.midnight, birthdayWithTime := withTime }
/-- `Addressee::setBirthday(QDate)`, addressee.cpp:846-855; `none` is a null date. `QDateTime(date, QTime())` is midnight in
    local time. -/
def Contact.setBirthdayDate (c : Contact) (d : Option (Int × Nat × Nat)) : Contact :=
  if d = c.birthday.map (·.date) && !c.birthdayWithTime then c
  else { c with empty := false, birthday := d.map fun x => { date := x, time := (0, 0, 0, 0), zone := none }, birthdayWithTime := false }

/-! ### lists that are replaced or appended to -/

/-- `Addressee::insertExtraSound`, addressee.cpp:500-504. -/
def Contact.insertExtraSound (c : Contact) (s : Sound) : Contact := { c with empty := false, extraSounds := c.extraSounds ++ [s] }
/-- `Addressee::insertExtraPhoto`, addressee.cpp:511-515. -/
def Contact.insertExtraPhoto (c : Contact) (p : Picture) : Contact := { c with empty := false, extraPhotos := c.extraPhotos ++ [p] }
/-- `Addressee::insertExtraLogo`, addressee.cpp:522-526. -/
def Contact.insertExtraLogo (c : Contact) (p : Picture) : Contact := { c with empty := false, extraLogos := c.extraLogos ++ [p] }
/-- `Addressee::setExtraSoundList`, addressee.cpp:533-537. -/
def Contact.setExtraSoundList (c : Contact) (l : List Sound) : Contact := { c with empty := false, extraSounds := l }
/-- `Addressee::setExtraPhotoList`, addressee.cpp:539-543. -/
def Contact.setExtraPhotoList (c : Contact) (l : List Picture) : Contact := { c with empty := false, extraPhotos := l }
/-- `Addressee::setExtraLogoList`, addressee.cpp:545-549. -/
def Contact.setExtraLogoList (c : Contact) (l : List Picture) : Contact := { c with empty := false, extraLogos := l }
/-- `Addressee::insertExtraUrl`, addressee.cpp:551-557. -/
def Contact.insertExtraUrl (E : QtEnv) (c : Contact) (u : ParamUrl) : Contact :=
  if u.isValidUrl E then { c with empty := false, extraUrls := c.extraUrls ++ [u] } else c
/-- `Addressee::setExtraUrlList`, addressee.cpp:559-563. -/
def Contact.setExtraUrlList (c : Contact) (l : List ParamUrl) : Contact := { c with empty := false, extraUrls := l }
/-- `Addressee::setUrl(QUrl)`, addressee.cpp:1315-1320: adds a URL. -/
def Contact.setUrl (E : QtEnv) (c : Contact) (u : QString) : Contact := c.insertExtraUrl E { url := u }
/-- `Addressee::url`, addressee.cpp:1327-1334. -/
def Contact.url (c : Contact) : ParamUrl := c.extraUrls.headD {}
/-- `Addressee::insertSourceUrl`, addressee.cpp:570-574. -/
def Contact.insertSourceUrl (c : Contact) (u : QString) : Contact := { c with empty := false, sources := c.sources ++ [u] }
/-- `Addressee::setSourcesUrlList`, addressee.cpp:576-580. -/
def Contact.setSourcesUrlList (c : Contact) (l : List QString) : Contact := { c with empty := false, sources := l }
/-- `Addressee::setFieldGroupList`, addressee.cpp:592-596. -/
def Contact.setFieldGroupList (c : Contact) (l : List FieldGroup) : Contact := { c with empty := false, fieldGroups := l }
/-- `Addressee::insertFieldGroup`, addressee.cpp:598-605. -/
def Contact.insertFieldGroup (c : Contact) (g : FieldGroup) : Contact :=
  if g.isValid then { c with empty := false, fieldGroups := c.fieldGroups ++ [g] } else c
/-- `Addressee::setClientPidMapList`, addressee.cpp:612-616. -/
def Contact.setClientPidMapList (c : Contact) (l : List ParamText) : Contact := { c with empty := false, clientPidMaps := l }
/-- `Addressee::insertClientPidMap`, addressee.cpp:618-625. -/
def Contact.insertClientPidMap (c : Contact) (t : ParamText) : Contact :=
  if t.isValid then { c with empty := false, clientPidMaps := c.clientPidMaps ++ [t] } else c
/-- `Addressee::insertImpp`, addressee.cpp:627-634. -/
def Contact.insertImpp (E : QtEnv) (c : Contact) (u : ParamUrl) : Contact :=
  if u.isValidImpp E then { c with empty := false, impps := c.impps ++ [u] } else c
/-- `Addressee::setImppList`, addressee.cpp:636-640. -/
def Contact.setImppList (c : Contact) (l : List ParamUrl) : Contact := { c with empty := false, impps := l }
/-- `Addressee::insertCalendarUrl`, addressee.cpp:647-654. -/
def Contact.insertCalendarUrl (E : QtEnv) (c : Contact) (u : CalendarUrl) : Contact :=
  { c with empty := false, calendarUrls := if u.isValid E then c.calendarUrls ++ [u] else c.calendarUrls }
/-- `Addressee::setLangs`, addressee.cpp:1725-1729. -/
def Contact.setLangs (c : Contact) (l : List ParamText) : Contact := { c with empty := false, langs := l }
/-- `Addressee::setPhoneNumbers`, addressee.cpp:1820-1825. -/
def Contact.setPhoneNumbers (c : Contact) (l : List PhoneNumber) : Contact := { c with empty := false, phoneNumbers := l }
/-- `Addressee::setKeys`, addressee.cpp:1888-1892. -/
def Contact.setKeys (c : Contact) (l : List Key) : Contact := { c with empty := false, keys := l }
/-- `Addressee::setAddresses`, addressee.cpp:2035-2039. -/
def Contact.setAddresses (c : Contact) (l : List Address) : Contact := { c with empty := false, addresses := l }
/-- `Addressee::setCategories`, addressee.cpp:2104-2109. -/
def Contact.setCategories (c : Contact) (l : List QString) : Contact := { c with empty := false, categories := l }
/-- `Addressee::setMembers`, addressee.cpp:2127-2131. -/
def Contact.setMembers (c : Contact) (l : List QString) : Contact := { c with empty := false, members := l }
/-- `Addressee::setRelationships`, addressee.cpp:2149-2153. -/
def Contact.setRelationships (c : Contact) (l : List ParamText) : Contact := { c with empty := false, relationships := l }
/-- `Addressee::setChanged`, addressee.cpp:2520-2523. -/
def Contact.setChanged (c : Contact) (b : Bool) : Contact := { c with changed := b }

/-! ### nick names, titles, roles, organisations: four identical groups of functions -/

/-- The four lists. -/
inductive TextList where
  | nickName | title | role | organization
deriving DecidableEq

/-- Read one of the lists: `extraNickNameList` ..., addressee.cpp:813, 1097, 1145, 1196. -/
def Contact.texts (c : Contact) : TextList → List ParamText
  | .nickName => c.nickNames
  | .title => c.titles
  | .role => c.roles
  | .organization => c.organizations

/-- `setExtraNickNameList`, `setExtraTitleList`, `setExtraRoleList`, `setExtraOrganizationList`,
    addressee.cpp:807-811, 1102-1106, 1139-1143, 1190-1194. -/
def Contact.setTexts (c : Contact) (k : TextList) (l : List ParamText) : Contact :=
  match k with
  | .nickName => { c with empty := false, nickNames := l }
  | .title => { c with empty := false, titles := l }
  | .role => { c with empty := false, roles := l }
  | .organization => { c with empty := false, organizations := l }

/-- `insertExtraNickName` ..., and the overloads `setNickName(NickName)`, `setTitle(Title)`, `setRole(Role)`,
    `setOrganization(Org)` which only call them: addressee.cpp:794-805, 1075-1086, 1126-1137, 1177-1188. -/
def Contact.insertText (c : Contact) (k : TextList) (t : ParamText) : Contact :=
  if t.isValid then c.setTexts k (c.texts k ++ [t]) else c

/-- `setNickName(QString)`, `setTitle(QString)`, `setRole(QString)`, `setOrganization(QString)`:
    addressee.cpp:781-792, 1062-1073, 1113-1124, 1164-1175. -/
def Contact.setText (c : Contact) (k : TextList) (s : QString) : Contact :=
  if !(c.texts k).isEmpty then c.setTexts k (setFirstText (c.texts k) s) else c.insertText k { text := s }

/-- `nickName()`, `title()`, `role()`, `organization()`: addressee.cpp:818-825, 1088-1095, 1150-1157, 1201-1208. -/
def Contact.text (c : Contact) (k : TextList) : QString := firstText (c.texts k)

/-! ### all modifying calls -/

/-- Every modifying member function of `Addressee` (except `setNameFromString`, which only calls setters in this list, and
    reading from a data stream). -/
inductive Op where
  | uid (s : QString) | name (s : QString) | kind (s : QString) | formattedName (s : QString) | familyName (s : QString)
  | givenName (s : QString) | additionalName (s : QString) | prefix_ (s : QString) | suffix (s : QString)
  | mailer (s : QString) | department (s : QString) | note (s : QString) | productId (s : QString) | sortString (s : QString)
  | secrecy (s : Secrecy) | gender (g : Gender) | timeZone (t : TimeZone) | geo (g : Geo) | logo (p : Picture)
  | photo (p : Picture) | sound (s : Sound) | revision (d : QDateTime) | deathDate (d : QDateTime)
  | birthday (d : QDateTime) (withTime : Bool) | birthdayDate (d : Option (Int × Nat × Nat))
  | insertExtraSound (s : Sound) | insertExtraPhoto (p : Picture) | insertExtraLogo (p : Picture)
  | extraSounds (l : List Sound) | extraPhotos (l : List Picture) | extraLogos (l : List Picture)
  | insertExtraUrl (u : ParamUrl) | extraUrls (l : List ParamUrl) | url (u : QString)
  | insertSourceUrl (u : QString) | sources (l : List QString)
  | fieldGroups (l : List FieldGroup) | insertFieldGroup (g : FieldGroup)
  | clientPidMaps (l : List ParamText) | insertClientPidMap (t : ParamText)
  | insertImpp (u : ParamUrl) | impps (l : List ParamUrl) | insertCalendarUrl (u : CalendarUrl)
  | addEmail (e : Email) | removeEmail (m : QString) | setEmails (l : List QString) | setEmailList (l : List Email)
  | insertLang (t : ParamText) | removeLang (s : QString) | langs (l : List ParamText)
  | insertPhoneNumber (p : PhoneNumber) | removePhoneNumber (p : PhoneNumber) | phoneNumbers (l : List PhoneNumber)
  | insertKey (k : Key) | removeKey (k : Key) | keys (l : List Key)
  | insertAddress (a : Address) | removeAddress (a : Address) | addresses (l : List Address)
  | insertCategory (s : QString) | removeCategory (s : QString) | categories (l : List QString)
  | insertMember (s : QString) | members (l : List QString)
  | insertRelationship (t : ParamText) | relationships (l : List ParamText)
  | insertCustom (app name value : QString) | removeCustom (app name : QString) | customs (l : List QString)
  | namedCustom (field value : QString)
  | text (k : TextList) (s : QString) | insertText (k : TextList) (t : ParamText) | texts (k : TextList) (l : List ParamText)
  | changed (b : Bool)

/-- The effect of a call. -/
def Contact.apply (E : QtEnv) (c : Contact) : Op → Contact
  | .uid s => c.setUid s
  | .name s => c.setName s
  | .kind s => c.setKind s
  | .formattedName s => c.setFormattedName s
  | .familyName s => c.setFamilyName s
  | .givenName s => c.setGivenName s
  | .additionalName s => c.setAdditionalName s
  | .prefix_ s => c.setPrefix s
  | .suffix s => c.setSuffix s
  | .mailer s => c.setMailer s
  | .department s => c.setDepartment s
  | .note s => c.setNote s
  | .productId s => c.setProductId s
  | .sortString s => c.setSortString s
  | .secrecy s => c.setSecrecy s
  | .gender g => c.setGender g
  | .timeZone t => c.setTimeZone t
  | .geo g => c.setGeo g
  | .logo p => c.setLogo E p
  | .photo p => c.setPhoto E p
  | .sound s => c.setSound s
  | .revision d => c.setRevision E d
  | .deathDate d => c.setDeathDate E d
  | .birthday d w => c.setBirthday E d w
  | .birthdayDate d => c.setBirthdayDate d
  | .insertExtraSound s => c.insertExtraSound s
  | .insertExtraPhoto p => c.insertExtraPhoto p
  | .insertExtraLogo p => c.insertExtraLogo p
  | .extraSounds l => c.setExtraSoundList l
  | .extraPhotos l => c.setExtraPhotoList l
  | .extraLogos l => c.setExtraLogoList l
  | .insertExtraUrl u => c.insertExtraUrl E u
  | .extraUrls l => c.setExtraUrlList l
  | .url u => c.setUrl E u
  | .insertSourceUrl u => c.insertSourceUrl u
  | .sources l => c.setSourcesUrlList l
  | .fieldGroups l => c.setFieldGroupList l
  | .insertFieldGroup g => c.insertFieldGroup g
  | .clientPidMaps l => c.setClientPidMapList l
  | .insertClientPidMap t => c.insertClientPidMap t
  | .insertImpp u => c.insertImpp E u
  | .impps l => c.setImppList l
  | .insertCalendarUrl u => c.insertCalendarUrl E u
  | .addEmail e => c.addEmail e
  | .removeEmail m => c.removeEmail m
  | .setEmails l => c.setEmails l
  | .setEmailList l => c.setEmailList l
  | .insertLang t => c.insertLang t
  | .removeLang s => c.removeLang s
  | .langs l => c.setLangs l
  | .insertPhoneNumber p => c.insertPhoneNumber p
  | .removePhoneNumber p => c.removePhoneNumber p
  | .phoneNumbers l => c.setPhoneNumbers l
  | .insertKey k => c.insertKey k
  | .removeKey k => c.removeKey k
  | .keys l => c.setKeys l
  | .insertAddress a => c.insertAddress a
  | .removeAddress a => c.removeAddress a
  | .addresses l => c.setAddresses l
  | .insertCategory s => c.insertCategory s
  | .removeCategory s => c.removeCategory s
  | .categories l => c.setCategories l
  | .insertMember s => c.insertMember s
  | .members l => c.setMembers l
  | .insertRelationship t => c.insertRelationship t
  | .relationships l => c.setRelationships l
  | .insertCustom a n v => c.insertCustom a n v
  | .removeCustom a n => c.removeCustom a n
  | .customs l => c.setCustoms l
  | .namedCustom f v => c.setNamedCustom f v
  | .text k s => c.setText k s
  | .insertText k t => c.insertText k t
  | .texts k l => c.setTexts k l
  | .changed b => c.setChanged b

end KC
