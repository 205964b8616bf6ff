import Verif.Model.Contact
/-
  Contacts and their parts on a `QDataStream`. The model is at the level of the items Qt's own stream operators write and read
  (strings, byte arrays, numbers, flags, dates, URLs, images, list lengths); their byte encoding is Qt's and not modelled.
-/
namespace KC

/-- An item on the stream. -/
inductive Item where
  | str (s : QString) | bytes (b : QByteArray) | num (n : Nat) | int (n : Int) | flag (b : Bool) | flt (x : Flt)
  | time (t : QDateTime) | url (u : QString) | img (i : Option (List UInt8))
deriving DecidableEq

/-- Reading: `none` when the stream does not hold the expected item (the stream's status is then not Ok). -/
abbrev Rd (α : Type) := List Item → Option (α × List Item)

def Rd.bind {α β : Type} (r : Rd α) (f : α → Rd β) : Rd β := fun s =>
  match r s with
  | none => none
  | some (a, s') => f a s'
def Rd.ret {α : Type} (a : α) : Rd α := fun s => some (a, s)

instance : Monad Rd where
  pure := Rd.ret
  bind := Rd.bind

def rdStr : Rd QString
  | .str s :: r => some (s, r)
  | _ => none
def rdBytes : Rd QByteArray
  | .bytes s :: r => some (s, r)
  | _ => none
def rdNum : Rd Nat
  | .num s :: r => some (s, r)
  | _ => none
def rdInt : Rd Int
  | .int s :: r => some (s, r)
  | .num s :: r => some (s, r)
  | _ => none
def rdFlag : Rd Bool
  | .flag s :: r => some (s, r)
  | _ => none
def rdFlt : Rd Flt
  | .flt s :: r => some (s, r)
  | _ => none
def rdTime : Rd QDateTime
  | .time s :: r => some (s, r)
  | _ => none
def rdUrl : Rd QString
  | .url s :: r => some (s, r)
  | _ => none
def rdImg : Rd (Option (List UInt8))
  | .img s :: r => some (s, r)
  | _ => none

/-- Reading `n` elements. -/
def rdMany {α : Type} (r : Rd α) : Nat → Rd (List α)
  | 0 => pure []
  | n + 1 => do let x ← r; let l ← rdMany r n; pure (x :: l)

/-- Qt's stream operators of `QList<T>`: the length, then the elements. -/
def wrList {α : Type} (w : α → List Item) (l : List α) : List Item := .num l.length :: l.flatMap w
def rdList {α : Type} (r : Rd α) : Rd (List α) := do let n ← rdNum; rdMany r n

/-- Qt's stream operator of `QUrl`: an invalid URL is written as an empty one. -/
def wrUrl (E : QtEnv) (u : QString) : List Item := [.url (if E.urlValid u then u else [])]

/-- `operator<<(QDataStream &, const ParameterMap &)`, parametermap_p.h:96-103; the count is a `quint32`. -/
def wrParams (m : ParameterMap) : List Item :=
  .num (m.length % 2 ^ 32) :: m.flatMap fun p => .str p.1 :: wrList (fun s => [.str s]) p.2
/-- `operator>>(QDataStream &, ParameterMap &)`, parametermap_p.h:105-122. -/
def rdParams : Rd ParameterMap := do
  let n ← rdNum
  rdMany (do let p ← rdStr; let l ← rdList rdStr; pure (p, l)) n

/-- `operator<<` of Lang, Title, Role, Org, NickName, Related, ClientPidMap, Note: lang.cpp:105-108, title.cpp:105-108, role.cpp:105-108,
    org.cpp:105-108, nickname.cpp:105-108, related.cpp:105-108, clientpidmap.cpp:107-110. -/
def wrParamText (t : ParamText) : List Item := wrParams t.params ++ [.str t.text]
/-- `operator>>` of these: lang.cpp:110-114, title.cpp:110-114, ... -/
def rdParamText : Rd ParamText := do let p ← rdParams; let t ← rdStr; pure { params := p, text := t }

/-- email.cpp:212-215 -/
def wrEmail (e : Email) : List Item := wrParams e.params ++ [.str e.mail]
/-- email.cpp:217-221 -/
def rdEmail : Rd Email := do let p ← rdParams; let t ← rdStr; pure { params := p, mail := t }

/-- fieldgroup.cpp:119-122 -/
def wrFieldGroup (g : FieldGroup) : List Item := wrParams g.params ++ [.str g.fieldGroupName, .str g.value]
/-- fieldgroup.cpp:124-128 -/
def rdFieldGroup : Rd FieldGroup := do
  let p ← rdParams; let n ← rdStr; let v ← rdStr; pure { params := p, fieldGroupName := n, value := v }

/-- resourcelocatorurl.cpp:228-231 -/
def wrResUrl (E : QtEnv) (u : ParamUrl) : List Item := wrParams u.params ++ wrUrl E u.url
/-- resourcelocatorurl.cpp:233-237 -/
def rdResUrl : Rd ParamUrl := do let p ← rdParams; let u ← rdUrl; pure { params := p, url := u }

/-- impp.cpp:154-157 -/
def wrImpp (E : QtEnv) (u : ParamUrl) : List Item := wrParams u.params ++ wrUrl E u.url ++ [.num 0]
/-- impp.cpp:159-164 -/
def rdImpp : Rd ParamUrl := do let p ← rdParams; let u ← rdUrl; let _ ← rdInt; pure { params := p, url := u }

/-- calendarurl.cpp:145-148 -/
def wrCalendar (E : QtEnv) (u : CalendarUrl) : List Item := wrParams u.params ++ [.num u.type] ++ wrUrl E u.url
/-- calendarurl.cpp:150-156 -/
def rdCalendar : Rd CalendarUrl := do let p ← rdParams; let t ← rdNum; let u ← rdUrl; pure { params := p, type := t, url := u }

/-- gender.cpp:104-107 -/
def wrGender (g : Gender) : List Item := [.str g.comment, .str g.gender]
/-- gender.cpp:109-113 -/
def rdGender : Rd Gender := do let c ← rdStr; let g ← rdStr; pure { comment := c, gender := g }

/-- geo.cpp:147-151 -/
def wrGeo (g : Geo) : List Item := [.flt g.latitude, .flag g.validLatitude, .flt g.longitude, .flag g.validLongitude]
/-- geo.cpp:153-159 -/
def rdGeo : Rd Geo := do
  let a ← rdFlt; let va ← rdFlag; let o ← rdFlt; let vo ← rdFlag
  pure { latitude := a, validLatitude := va, longitude := o, validLongitude := vo }

/-- `Key::Type` as a number, key.h. -/
def KeyType.toNum : KeyType → Nat
  | .x509 => 0
  | .pgp => 1
  | .custom => 2
/-- The cast back. Simplification: a number that is no enumerator gives `custom`. -/
def KeyType.ofNum : Nat → KeyType
  | 0 => .x509
  | 1 => .pgp
  | _ => .custom

/-- key.cpp:211-215 -/
def wrKey (k : Key) : List Item :=
  [.str k.id, .num k.type.toNum, .flag k.isBinary, .bytes k.binaryData, .str k.textData, .str k.customTypeString]
/-- key.cpp:217-226 -/
def rdKey : Rd Key := do
  let i ← rdStr; let t ← rdNum; let b ← rdFlag; let d ← rdBytes; let x ← rdStr; let c ← rdStr
  pure { id := i, type := KeyType.ofNum t, isBinary := b, binaryData := d, textData := x, customTypeString := c }

/-- phonenumber.cpp:280-283 -/
def wrPhone (p : PhoneNumber) : List Item := [.str p.id, .num p.type, .str p.number] ++ wrParams p.params
/-- phonenumber.cpp:285-292 -/
def rdPhone : Rd PhoneNumber := do
  let i ← rdStr; let t ← rdNum; let n ← rdStr; let p ← rdParams; pure { id := i, type := t, number := n, params := p }

/-- address.cpp:436-442 -/
def wrAddress (a : Address) : List Item :=
  [.str a.id, .num a.type, .str a.postOfficeBox, .str a.extended, .str a.street, .str a.locality, .str a.region, .str a.postalCode,
   .str a.country, .str a.label, .flag a.empty] ++ wrGeo a.geo
/-- address.cpp:444-455 -/
def rdAddress : Rd Address := do
  let i ← rdStr; let t ← rdNum; let po ← rdStr; let ex ← rdStr; let st ← rdStr; let lo ← rdStr; let re ← rdStr; let pc ← rdStr
  let co ← rdStr; let la ← rdStr; let em ← rdFlag; let g ← rdGeo
  pure { id := i, type := t, postOfficeBox := po, extended := ex, street := st, locality := lo, region := re, postalCode := pc,
         country := co, label := la, empty := em, geo := g }

/-- sound.cpp:153-156 -/
def wrSound (s : Sound) : List Item := [.flag s.isIntern, .str s.url, .bytes s.data, .str s.type]
/-- sound.cpp:158-163 -/
def rdSound : Rd Sound := do
  let i ← rdFlag; let u ← rdStr; let d ← rdBytes; let t ← rdStr; pure { isIntern := i, url := u, data := d, type := t }

/-- picture.cpp:215-218. The stream operators of `QImage` are taken to preserve the image. -/
def wrPicture (E : QtEnv) (p : Picture) : List Item := [.flag p.isIntern, .str p.url, .str p.type, .img (p.imageData E)]
/-- picture.cpp:220-225: the raw data of the object read into stays. -/
def rdPicture (old : Picture) : Rd Picture := do
  let i ← rdFlag; let u ← rdStr; let t ← rdStr; let m ← rdImg
  pure { isIntern := i, url := u, type := t, image := m, rawData := old.rawData }

/-- timezone.cpp:108-111 -/
def wrTimeZone (z : TimeZone) : List Item := [.int z.offset, .flag z.isValid]
/-- timezone.cpp:113-118 -/
def rdTimeZone : Rd TimeZone := do let o ← rdInt; let v ← rdFlag; pure { offset := o, isValid := v }

/-- secrecy.cpp:119-122 -/
def wrSecrecy : Secrecy → List Item
  | .pub => [.num 0]
  | .priv => [.num 1]
  | .confidential => [.num 2]
  | .invalid => [.num 3]
/-- secrecy.cpp:124-145 -/
def rdSecrecy : Rd Secrecy := do
  let n ← rdNum
  pure (match n with
    | 0 => .pub
    | 1 => .priv
    | 2 => .confidential
    | _ => .invalid)

/-- `operator<<(QDataStream &, const Addressee &)`, addressee.cpp:2535-2587. -/
def wrContact (E : QtEnv) (a : Contact) : List Item :=
  [.str a.uid, .str a.name, .str a.formattedName, .str a.familyName, .str a.givenName, .str a.additionalName, .str a.prefix_,
   .str a.suffix, .time a.birthday, .flag a.birthdayWithTime, .str a.mailer] ++ (wrTimeZone a.timeZone ++ (wrGeo a.geo ++
  ([.str a.department, .str a.note, .str a.productId, .time a.revision, .str a.sortString] ++ (wrSecrecy a.secrecy ++
  (wrPicture E a.logo ++ (wrPicture E a.photo ++ (wrSound a.sound ++ (wrList wrPhone a.phoneNumbers ++ (wrList wrAddress a.addresses ++
  (wrList wrEmail a.emails ++ (wrList (fun s => [.str s]) a.categories ++ (wrList (fun s => [.str s]) a.customsList ++
  (wrList wrKey a.keys ++ (wrList wrParamText a.langs ++ (wrGender a.gender ++ (.str a.kind :: (wrList (wrCalendar E) a.calendarUrls ++
  (wrList wrSound a.extraSounds ++ (wrList (wrPicture E) a.extraPhotos ++ (wrList (wrPicture E) a.extraLogos ++
  (wrList (wrResUrl E) a.extraUrls ++ (wrList (fun s => [.str s]) a.members ++ (wrList wrParamText a.relationships ++
  (wrList (wrUrl E) a.sources ++ (wrList (wrImpp E) a.impps ++ (wrList wrFieldGroup a.fieldGroups ++ (wrList wrParamText a.titles ++
  (wrList wrParamText a.roles ++ (wrList wrParamText a.organizations ++ (wrList wrParamText a.nickNames ++
  (wrList wrParamText a.clientPidMaps ++ [.time a.deathDate])))))))))))))))))))))))))))))))

/-- `operator>>(QDataStream &, Addressee &)`, addressee.cpp:2589-2644, reading into `old`: whether it was changed is kept, the
    pictures keep their raw data, everything else is replaced. (Elements of lists are read into new objects.) -/
def rdContact (old : Contact) : Rd Contact := do
  let uid ← rdStr; let name ← rdStr; let fn ← rdStr; let fam ← rdStr; let giv ← rdStr; let add ← rdStr; let pre ← rdStr
  let suf ← rdStr; let bd ← rdTime; let bt ← rdFlag; let mailer ← rdStr; let tz ← rdTimeZone; let geo ← rdGeo; let dep ← rdStr
  let note ← rdStr; let prod ← rdStr; let rev ← rdTime; let sort ← rdStr; let sec ← rdSecrecy; let logo ← rdPicture old.logo
  let photo ← rdPicture old.photo; let sound ← rdSound; let phones ← rdList rdPhone; let addrs ← rdList rdAddress
  let emails ← rdList rdEmail; let cats ← rdList rdStr; let customs ← rdList rdStr; let keys ← rdList rdKey
  let langs ← rdList rdParamText; let gender ← rdGender; let kind ← rdStr; let cal ← rdList rdCalendar; let snds ← rdList rdSound
  let photos ← rdList (rdPicture {}); let logos ← rdList (rdPicture {}); let urls ← rdList rdResUrl; let members ← rdList rdStr
  let rels ← rdList rdParamText; let srcs ← rdList rdUrl; let impps ← rdList rdImpp; let fgs ← rdList rdFieldGroup
  let titles ← rdList rdParamText; let roles ← rdList rdParamText; let orgs ← rdList rdParamText; let nicks ← rdList rdParamText
  let pids ← rdList rdParamText; let death ← rdTime
  pure { uid := uid, name := name, formattedName := fn, familyName := fam, givenName := giv, additionalName := add, prefix_ := pre,
         suffix := suf, birthday := bd, birthdayWithTime := bt, mailer := mailer, timeZone := tz, geo := geo, department := dep,
         note := note, productId := prod, revision := rev, sortString := sort, secrecy := sec, logo := logo, photo := photo,
         sound := sound, phoneNumbers := phones, addresses := addrs, emails := emails, categories := cats,
         customs := (old.setCustoms customs).customs, keys := keys, langs := langs, gender := gender, kind := kind,
         calendarUrls := cal, extraSounds := snds, extraPhotos := photos, extraLogos := logos, extraUrls := urls,
         members := members, relationships := rels, sources := srcs, impps := impps, fieldGroups := fgs, titles := titles,
         roles := roles, organizations := orgs, nickNames := nicks, clientPidMaps := pids, deathDate := death,
         empty := false, changed := old.changed }

end KC
