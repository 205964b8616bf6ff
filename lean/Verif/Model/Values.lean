import Verif.Model.VCard
/-
  The value classes a contact is made of: src/geo.cpp, src/email.cpp, src/resourcelocatorurl.cpp, src/impp.cpp,
  src/phonenumber.cpp, src/address.cpp, src/key.cpp, src/sound.cpp, src/picture.cpp, src/gender.cpp, src/timezone.cpp,
  src/secrecy.cpp, src/lang.cpp, src/title.cpp, src/role.cpp, src/org.cpp, src/nickname.cpp, src/related.cpp,
  src/clientpidmap.cpp, src/fieldgroup.cpp, src/calendarurl.cpp.

  Every class holds its data through a `QSharedDataPointer`; here a value is the data itself. What sharing adds (the copy
  constructors of the data) is modelled separately in Model/Shared.lean.
-/
namespace KC

/-- Parts of Qt that the value classes call and whose behaviour is not modelled. Every theorem is for all of them. -/
structure QtEnv where
  /-- `QUrl::isValid()` (a QUrl is represented by its string form) -/
  urlValid : QString → Bool
  /-- `QUrl::scheme()` -/
  urlScheme : QString → QString
  /-- `QChar::isDigit()` on characters outside ASCII (other digits of Unicode category Nd) -/
  wideDigit : UInt16 → Bool
  /-- `QImage::loadFromData` : the pixels, or `none` for a null image -/
  loadImage : QByteArray → Option (List UInt8)
  /-- `QDateTime::toMSecsSinceEpoch()`; local times depend on the system's zone -/
  instant : (Int × Nat × Nat) → (Nat × Nat × Nat × Nat) → Option Int → Int

/-- `QChar::isDigit()`. -/
def QtEnv.isDigit (E : QtEnv) (c : UInt16) : Bool := if c.toNat < 128 then decide (48 ≤ c.toNat ∧ c.toNat ≤ 57) else E.wideDigit c

/-! ### float -/

/-- A `float` as far as `Geo` looks at it: NaN, the infinities, or a finite value `k * 2^-149`
    (every finite IEEE single is such a multiple; +0 and -0 compare equal and are identified). -/
inductive Flt where
  | nan | negInf | posInf
  | fin (k : Int)
deriving DecidableEq

/-- The float holding an integer. -/
def Flt.ofInt (n : Int) : Flt := .fin (n * 2 ^ 149)

/-- IEEE `a <= b`. -/
def Flt.le : Flt → Flt → Bool
  | .nan, _ => false
  | _, .nan => false
  | .negInf, _ => true
  | _, .posInf => true
  | .fin a, .fin b => decide (a ≤ b)
  | _, _ => false

/-- IEEE `a == b`. -/
def Flt.eq : Flt → Flt → Bool
  | .nan, _ => false
  | a, b => decide (a = b)

/-! ### Geo -/

/-- `Geo::Private`, geo.cpp:15-40. -/
structure Geo where
  latitude : Flt := .ofInt 91
  longitude : Flt := .ofInt 181
  validLatitude : Bool := false
  validLongitude : Bool := false
deriving DecidableEq

/-- `Geo::setLatitude`, geo.cpp:61-70. -/
def Geo.setLatitude (g : Geo) (x : Flt) : Geo :=
  if (Flt.ofInt (-90)).le x && x.le (.ofInt 90) then { g with latitude := x, validLatitude := true }
  else { g with latitude := .ofInt 91, validLatitude := false }

/-- `Geo::setLongitude`, geo.cpp:77-86. -/
def Geo.setLongitude (g : Geo) (x : Flt) : Geo :=
  if (Flt.ofInt (-180)).le x && x.le (.ofInt 180) then { g with longitude := x, validLongitude := true }
  else { g with longitude := .ofInt 181, validLongitude := false }

/-- `Geo::Geo(float, float)`, geo.cpp:47-52. -/
def Geo.mk' (lat long : Flt) : Geo := (({} : Geo).setLatitude lat).setLongitude long

/-- `Geo::isValid`, geo.cpp:93-96. -/
def Geo.isValid (g : Geo) : Bool := g.validLatitude && g.validLongitude

/-- `Geo::clear`, geo.cpp:140-144. -/
def Geo.clear (g : Geo) : Geo := { g with validLatitude := false, validLongitude := false }

/-- `Geo::operator==`, geo.cpp:98-113. -/
def Geo.eq (g other : Geo) : Bool :=
  if !other.isValid && !g.isValid then true
  else if !other.isValid || !g.isValid then false
  else other.latitude.eq g.latitude && other.longitude.eq g.longitude

/-! ### parameter-carrying texts -/

/-- A text with parameters: `Lang`, `Related`, `Title`, `Role`, `Org`, `NickName`, `ClientPidMap`
    (lang.cpp, related.cpp, title.cpp, role.cpp, org.cpp, nickname.cpp, clientpidmap.cpp: identical classes, each with a
    `ParameterMap mParamMap` and one `QString`); `==` compares both. -/
structure ParamText where
  params : ParameterMap := []
  text : QString := []
deriving DecidableEq

/-- `isValid()` of those classes, e.g. title.cpp:62-65. -/
def ParamText.isValid (t : ParamText) : Bool := !t.text.isEmpty

/-- `FieldGroup::Private`, fieldgroup.cpp:16-34. -/
structure FieldGroup where
  params : ParameterMap := []
  fieldGroupName : QString := []
  value : QString := []
deriving DecidableEq

/-- `FieldGroup::isValid`, fieldgroup.cpp:66-69. -/
def FieldGroup.isValid (t : FieldGroup) : Bool := !t.fieldGroupName.isEmpty

/-- A parameter map with a URL (string form): `ResourceLocatorUrl`, `Impp`. -/
structure ParamUrl where
  params : ParameterMap := []
  url : QString := []
deriving DecidableEq

/-- `CalendarUrl::Private`, calendarurl.cpp:17-37. Types: Unknown 0, FBUrl 1, CALUri 2, CALADRUri 3. -/
structure CalendarUrl where
  params : ParameterMap := []
  url : QString := []
  type : Nat := 0
deriving DecidableEq

/-- `CalendarUrl::isValid`, calendarurl.cpp:120-123. -/
def CalendarUrl.isValid (E : QtEnv) (c : CalendarUrl) : Bool := c.type != 0 && E.urlValid c.url

/-- `ResourceLocatorUrl::isValid`, resourcelocatorurl.cpp:213-216. -/
def ParamUrl.isValidUrl (E : QtEnv) (u : ParamUrl) : Bool := E.urlValid u.url

/-- `Impp::isValid`, impp.cpp:54-57. -/
def ParamUrl.isValidImpp (E : QtEnv) (u : ParamUrl) : Bool := !u.url.isEmpty && !(E.urlScheme u.url).isEmpty

/-! ### type and preference parameters -/

/-- `email_type_names`, email.cpp:113-117 (Home 1, Work 2, Other 4). -/
def emailTypeNames : List (QString × Nat) := [(q! "HOME", 1), (q! "WORK", 2), (q! "OTHER", 4)]

/-- `url_type_names`, resourcelocatorurl.cpp:53-61. -/
def urlTypeNames : List (QString × Nat) :=
  [(q! "HOME", 1), (q! "WORK", 2), (q! "OTHER", 64), (q! "PROFILE", 4), (q! "FTP", 8), (q! "RESERVATION", 16),
   (q! "APPINSTALLPAGE", 32)]

/-- `type()`: email.cpp:119-137 with `fold := toUpperQ`, resourcelocatorurl.cpp:63-80 with `fold := id`. -/
def paramType (names : List (QString × Nat)) (fold : QString → QString) (m : ParameterMap) : Nat :=
  match m.find (q! "type") with
  | none => 0
  | some vs => vs.foldl (fun t s => match names.find? (fun n => n.1 = fold s) with | some n => t ||| n.2 | none => t) 0

/-- `setType()`: email.cpp:139-165, resourcelocatorurl.cpp:82-105. -/
def paramSetType (names : List (QString × Nat)) (fold : QString → QString) (m : ParameterMap) (type : Nat) : ParameterMap :=
  let old := paramType names fold m
  let m' := match m.find (q! "type") with
    | some _ => m
    | none => m.insertSorted (q! "type") []
  m'.modify (q! "type") fun vs =>
    names.foldl (fun vs n =>
      if (type ^^^ old) &&& n.2 = 0 then vs
      else if type &&& n.2 ≠ 0 then vs ++ [n.1]
      else vs.filter (· ≠ n.1)) vs

/-- `QStringList::contains("PREF", Qt::CaseInsensitive)`. -/
def containsPref (vs : List QString) : Bool := vs.any fun v => toUpperQ v = q! "PREF"

/-- `isPreferred()`: email.cpp:167-180, resourcelocatorurl.cpp:107-120. -/
def paramIsPreferred (m : ParameterMap) : Bool :=
  match m.find (q! "pref") with
  | some vs => match vs with | v :: _ => v = [qc! '1'] | [] => false
  | none =>
    match m.find (q! "type") with
    | some vs => containsPref vs
    | none => false

/-- `ParameterMap::erase(findParam(k))`: remove the first entry with the key. -/
def SMap.eraseFirst {ν : Type} (m : SMap ν) (k : QString) : SMap ν :=
  match m with
  | [] => []
  | (k', v) :: t => if k' = k then t else (k', v) :: SMap.eraseFirst t k

/-- `setPreferred()`: email.cpp:182-210, resourcelocatorurl.cpp:122-152. -/
def paramSetPreferred (m : ParameterMap) (preferred : Bool) : ParameterMap :=
  if preferred = paramIsPreferred m then m
  else
    let types := (m.find (q! "type")).getD []
    let (m', types') :=
      if !preferred then (m.eraseFirst (q! "pref"), types.filter (· ≠ q! "PREF")) else (m, types ++ [q! "PREF"])
    match m'.find (q! "type") with
    | some _ => m'.modify (q! "type") fun _ => types'
    | none => m'.insertSorted (q! "type") types'

/-- `Impp::isPreferred`, impp.cpp:89-96. -/
def imppIsPreferred (m : ParameterMap) : Bool :=
  match m.find (q! "pref") with
  | some (v :: _) => v = [qc! '1']
  | _ => false

/-- `Impp::setPreferred`, impp.cpp:98-113. -/
def imppSetPreferred (m : ParameterMap) (preferred : Bool) : ParameterMap :=
  if !preferred then m.eraseFirst (q! "pref")
  else match m.find (q! "pref") with
    | some _ => m.modify (q! "pref") fun _ => [[qc! '1']]
    | none => m.insertSorted (q! "pref") [[qc! '1']]

/-- `Email::Private`, email.cpp:16-33. -/
structure Email where
  params : ParameterMap := []
  mail : QString := []
deriving DecidableEq

/-- `Email::type`, email.cpp:119-137. -/
def Email.type (e : Email) : Nat := paramType emailTypeNames toUpperQ e.params
/-- `Email::setType`, email.cpp:139-165. -/
def Email.setType (e : Email) (t : Nat) : Email := { e with params := paramSetType emailTypeNames toUpperQ e.params t }
/-- `Email::isPreferred`, email.cpp:167-180. -/
def Email.isPreferred (e : Email) : Bool := paramIsPreferred e.params
/-- `Email::setPreferred`, email.cpp:182-210. -/
def Email.setPreferred (e : Email) (p : Bool) : Email := { e with params := paramSetPreferred e.params p }

/-- `ResourceLocatorUrl::type`, resourcelocatorurl.cpp:63-80. -/
def ParamUrl.type (u : ParamUrl) : Nat := paramType urlTypeNames id u.params
/-- `ResourceLocatorUrl::setType`, resourcelocatorurl.cpp:82-105. -/
def ParamUrl.setType (u : ParamUrl) (t : Nat) : ParamUrl := { u with params := paramSetType urlTypeNames id u.params t }
/-- `ResourceLocatorUrl::isPreferred`, resourcelocatorurl.cpp:107-120. -/
def ParamUrl.isPreferred (u : ParamUrl) : Bool := paramIsPreferred u.params
/-- `ResourceLocatorUrl::setPreferred`, resourcelocatorurl.cpp:122-152. -/
def ParamUrl.setPreferred (u : ParamUrl) (p : Bool) : ParamUrl := { u with params := paramSetPreferred u.params p }

/-! ### phone numbers -/

/-- `PhoneNumber::Private`, phonenumber.cpp:24-45. The id is a fresh UUID when an object is made: here it is data.
    The type is the integer of the flag set (phonenumber.h: Home 1 ... Pager 8192, Undefined 16384). -/
structure PhoneNumber where
  id : QString
  number : QString := []
  type : Nat := 1
  params : ParameterMap := []
deriving DecidableEq

/-- `PhoneNumber::Pref`. -/
def phonePref : Nat := 8

/-- `cleanupNumber`, phonenumber.cpp:19-22. -/
def cleanupNumber (s : QString) : QString := simplified s

/-- `PhoneNumber::PhoneNumber(number, type)`, phonenumber.cpp:52-56; `id` is the fresh id. -/
def PhoneNumber.mk' (id number : QString) (type : Nat) : PhoneNumber := { id := id, number := cleanupNumber number, type := type }

/-- `PhoneNumber::setNumber`, phonenumber.cpp:115-118. -/
def PhoneNumber.setNumber (p : PhoneNumber) (s : QString) : PhoneNumber := { p with number := cleanupNumber s }

/-- Loop of `PhoneNumber::normalizedNumber`, phonenumber.cpp:125-135. -/
def normalizeLoop (E : QtEnv) (result : QString) : QString → QString
  | [] => result
  | c :: t => normalizeLoop E (if E.isDigit c || (c == qc! '+' && result.isEmpty) then result ++ [c] else result) t

/-- `PhoneNumber::normalizedNumber`, phonenumber.cpp:125-135. -/
def PhoneNumber.normalizedNumber (E : QtEnv) (p : PhoneNumber) : QString := normalizeLoop E [] p.number

/-! ### addresses -/

/-- `Address::Private`, address.cpp:26-65 (type flags: Dom 1, Intl 2, Postal 4, Parcel 8, Home 16, Work 32, Pref 64). -/
structure Address where
  empty : Bool := true
  id : QString
  type : Nat := 0
  geo : Geo := {}
  postOfficeBox : QString := []
  extended : QString := []
  street : QString := []
  locality : QString := []
  region : QString := []
  postalCode : QString := []
  country : QString := []
  label : QString := []
deriving DecidableEq

/-- `Address::Pref`. -/
def addressPref : Nat := 64

/-- `Address::operator==`, address.cpp:96-134 (does not look at `mEmpty`). -/
def Address.eq (a b : Address) : Bool :=
  a.id = b.id && a.type = b.type && a.postOfficeBox = b.postOfficeBox && a.extended = b.extended && a.street = b.street
    && a.locality = b.locality && a.region = b.region && a.postalCode = b.postalCode && a.country = b.country
    && a.label = b.label && a.geo.eq b.geo

/-- The setters of `Address`, address.cpp:151-375: each stores its argument and clears `mEmpty`. -/
inductive AddressField where
  | id (s : QString) | type (t : Nat) | geo (g : Geo) | postOfficeBox (s : QString) | extended (s : QString)
  | street (s : QString) | locality (s : QString) | region (s : QString) | postalCode (s : QString) | country (s : QString)
  | label (s : QString)

/-- `Address::setId` ... `Address::setLabel`, `Address::setGeo`, address.cpp:151-375. -/
def Address.set (a : Address) : AddressField → Address
  | .id s => { a with empty := false, id := s }
  | .type t => { a with empty := false, type := t }
  | .geo g => { a with empty := false, geo := g }
  | .postOfficeBox s => { a with empty := false, postOfficeBox := s }
  | .extended s => { a with empty := false, extended := s }
  | .street s => { a with empty := false, street := s }
  | .locality s => { a with empty := false, locality := s }
  | .region s => { a with empty := false, region := s }
  | .postalCode s => { a with empty := false, postalCode := s }
  | .country s => { a with empty := false, country := s }
  | .label s => { a with empty := false, label := s }

/-! ### keys, sounds, pictures -/

/-- `Key::Type`, key.h. -/
inductive KeyType where
  | x509 | pgp | custom
deriving DecidableEq

/-- `Key::Private`, key.cpp:17-43. -/
structure Key where
  id : QString
  binaryData : QByteArray := []
  textData : QString := []
  customTypeString : QString := []
  type : KeyType := .pgp
  isBinary : Bool := false
deriving DecidableEq

/-- `Key::operator==`, key.cpp:60-89. -/
def Key.eq (a b : Key) : Bool :=
  if a.id ≠ b.id then false
  else if a.type ≠ b.type then false
  else if a.isBinary ≠ b.isBinary then false
  else if (if a.isBinary then decide (a.binaryData ≠ b.binaryData) else decide (a.textData ≠ b.textData)) then false
  else decide (a.customTypeString = b.customTypeString)

/-- `Key::Key(text, type)`, key.cpp:45-51. -/
def Key.mk' (id text : QString) (type : KeyType) : Key := { id := id, textData := text, type := type }
/-- `Key::setBinaryData`, key.cpp:115-119. -/
def Key.setBinaryData (k : Key) (b : QByteArray) : Key := { k with binaryData := b, isBinary := true }
/-- `Key::setTextData`, key.cpp:126-130. -/
def Key.setTextData (k : Key) (t : QString) : Key := { k with textData := t, isBinary := false }

/-- `Sound::Private`, sound.cpp:15-37. -/
structure Sound where
  url : QString := []
  type : QString := []
  data : QByteArray := []
  isIntern : Bool := false
deriving DecidableEq

/-- `Sound::operator==`, sound.cpp:73-94. -/
def Sound.eq (a b : Sound) : Bool :=
  if a.isIntern ≠ b.isIntern then false
  else if a.type ≠ b.type then false
  else if a.isIntern then decide (a.data = b.data) else decide (a.url = b.url)

/-- `Sound::isEmpty`, sound.cpp:118-121. -/
def Sound.isEmpty (s : Sound) : Bool := (s.isIntern && s.data.isEmpty) || (!s.isIntern && s.url.isEmpty)
/-- `Sound::setUrl`, sound.cpp:101-105. -/
def Sound.setUrl (s : Sound) (u : QString) : Sound := { s with isIntern := false, url := u }
/-- `Sound::setData`, sound.cpp:107-111. -/
def Sound.setData (s : Sound) (d : QByteArray) : Sound := { s with isIntern := true, data := d }

/-- `PicturePrivate`, picture.cpp:16-39. `image` is the QImage member: its pixels, `none` when null. -/
structure Picture where
  url : QString := []
  type : QString := []
  image : Option (List UInt8) := none
  rawData : QByteArray := []
  isIntern : Bool := false
deriving DecidableEq

/-- `Picture::data()`, picture.cpp:173-180: the image, decoded from the raw data when there is none.
    Simplification: the decoded image is not stored back into the (mutable) member. -/
def Picture.imageData (E : QtEnv) (p : Picture) : Option (List UInt8) :=
  match p.image with
  | some i => some i
  | none => if p.rawData.isEmpty then none else E.loadImage p.rawData

/-- `Picture::operator==`, picture.cpp:79-114. -/
def Picture.eq (E : QtEnv) (a b : Picture) : Bool :=
  if a.isIntern ≠ b.isIntern then false
  else if a.type ≠ b.type then false
  else if a.isIntern then
    if a.image.isSome && b.image.isSome then decide (a.image = b.image)
    else if !a.rawData.isEmpty && !b.rawData.isEmpty then decide (a.rawData = b.rawData)
    else if (a.image.isSome || !a.rawData.isEmpty) && (b.image.isSome || !b.rawData.isEmpty) then
      decide (a.imageData E = b.imageData E)
    else false
  else decide (a.url = b.url)

/-- `Picture::isEmpty`, picture.cpp:121-125. -/
def Picture.isEmpty (p : Picture) : Bool :=
  (!p.isIntern && p.url.isEmpty) || (p.isIntern && p.image.isNone && p.rawData.isEmpty)
/-- `Picture::setUrl(url)`, picture.cpp:127-132. -/
def Picture.setUrl (p : Picture) (u : QString) : Picture := { p with url := u, type := [], isIntern := false }
/-- `Picture::setUrl(url, type)`, picture.cpp:134-139. -/
def Picture.setUrlType (p : Picture) (u t : QString) : Picture := { p with url := u, type := t, isIntern := false }
/-- `Picture::setRawData`, picture.cpp:155-161. -/
def Picture.setRawData (p : Picture) (r : QByteArray) (t : QString) : Picture :=
  { p with rawData := r, type := t, image := none, isIntern := true }

/-! ### small values -/

/-- `Gender::Private`, gender.cpp:13-29. -/
structure Gender where
  gender : QString := []
  comment : QString := []
deriving DecidableEq

/-- `Gender::isValid`, gender.cpp:99-102. -/
def Gender.isValid (g : Gender) : Bool := !g.gender.isEmpty || !g.comment.isEmpty

/-- `TimeZone::Private`, timezone.cpp:15-33. -/
structure TimeZone where
  offset : Int := 0
  isValid : Bool := false
deriving DecidableEq

/-- `TimeZone::operator==`, timezone.cpp:68-83. -/
def TimeZone.eq (a t : TimeZone) : Bool :=
  if !t.isValid && !a.isValid then true
  else if !t.isValid || !a.isValid then false
  else t.offset == a.offset

/-- `Secrecy::Type`, secrecy.h. -/
inductive Secrecy where
  | pub | priv | confidential | invalid
deriving DecidableEq

/-- `QDateTime`: `none` when not valid, else date (year, month, day), time of day (h, m, s, ms) and zone
    (`none` local time, `some o` a fixed offset of `o` seconds, UTC being `some 0`).
    In Qt 6 a QDateTime made with a valid date and an invalid time gets the time 00:00, so a valid one has both. -/
structure DT where
  date : Int × Nat × Nat
  time : Nat × Nat × Nat × Nat
  zone : Option Int
deriving DecidableEq
abbrev QDateTime := Option DT

/-- `QDateTime::operator==`: both invalid, or the same instant. -/
def QDateTime.eq (E : QtEnv) : QDateTime → QDateTime → Bool
  | none, none => true
  | some a, some b => E.instant a.date a.time a.zone == E.instant b.date b.time b.zone
  | _, _ => false

end KC
