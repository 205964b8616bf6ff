import Verif.Model.Parser
import Verif.Model.SplitString
import Verif.Model.Setters
import Verif.Model.Shared
import Verif.Model.DateTime
/-
  Contacts as vCards and back: src/vcardtool.cpp (and the functions of src/converter/vcardconverter.cpp that only call it).

  Writing is the list of content lines added to the card, in the order of the `addLine` calls; reading is a loop over the lines of a
  card. The line-by-line text format is Model/Parser.lean.
-/
namespace KC

/-- Functions outside /repo that writing and reading of contacts uses. Every theorem is for all of them. -/
structure ToolEnv extends QtEnv, Codecs where
  /-- `asprintf("%.6f", x)` for a float -/
  fmt6 : Flt → QString
  /-- `QString::toFloat()` -/
  toFloat : QString → Flt
  /-- `QString::toDouble()` converted to float (argument of `Geo::setLatitude`) -/
  toDouble : QString → Flt
  /-- `QUrl(s)`: the string form of the URL made from a text -/
  urlOf : QString → QString
  /-- `QUrl::toDisplayString()` -/
  urlDisplay : QString → QString
  /-- `QUrl::setScheme` on a URL -/
  urlSetScheme : QString → QString → QString
  /-- a URL made of a scheme and a path -/
  urlMake : QString → QString → QString
  /-- `QImage::save` into a buffer, for a format -/
  encodeImage : List UInt8 → QString → QByteArray
  /-- `QChar::isPunct()` on characters outside ASCII -/
  widePunct : UInt16 → Bool

/-- `QChar::isPunct()`: in ASCII `! " # % & ' ( ) * , - . / : ; ? @ [ \ ] _ { }`. -/
def ToolEnv.isPunct (E : ToolEnv) (c : UInt16) : Bool :=
  if c.toNat < 128 then c ∈ (q! "!\"#%&'()*,-./:;?@[\\]_{}") else E.widePunct c

/-! ### helpers -/

/-- `needsEncoding`, vcardtool.cpp:25-36: `QChar::toLatin1()` is 0 beyond Latin-1 and `char` is signed, so every code unit outside the
    printable ASCII range 32..126 counts. -/
def needsEncoding (s : QString) : Bool := s.any fun u =>
  let c : Int := if u.toNat < 128 then u.toNat else if u.toNat < 256 then (u.toNat : Int) - 256 else 0
  (c < 33 || c > 126) && c != 32 && c != 61

/-- `s_addressTypes`, vcardtool.cpp:43-51. -/
def addressTypes : List (QString × Nat) :=
  [(q! "dom", 1), (q! "home", 16), (q! "intl", 2), (q! "parcel", 8), (q! "postal", 4), (q! "pref", 64), (q! "work", 32)]

/-- `stringToAddressType`, vcardtool.cpp:53-59. -/
def stringToAddressType (s : QString) : Nat := ((addressTypes.find? fun i => i.1 = s).map (·.2)).getD 0

/-- `s_phoneTypes`, vcardtool.cpp:66-81. -/
def phoneTypes : List (QString × Nat) :=
  [(q! "BBS", 256), (q! "CAR", 1024), (q! "CELL", 64), (q! "FAX", 32), (q! "HOME", 1), (q! "ISDN", 2048), (q! "MODEM", 512),
   (q! "MSG", 4), (q! "PAGER", 8192), (q! "PCS", 4096), (q! "PREF", 8), (q! "VIDEO", 128), (q! "VOICE", 16), (q! "WORK", 2)]

/-- `stringToPhoneType`, vcardtool.cpp:83-89. -/
def stringToPhoneType (s : QString) : Nat := ((phoneTypes.find? fun i => i.1 = s).map (·.2)).getD 0

/-- The names of the types set in a flag set, in table order: loops vcardtool.cpp:158-166, 255-265. -/
def typeNames (table : List (QString × Nat)) (type : Nat) : List QString :=
  (table.filter fun i => i.2 &&& type ≠ 0).map (·.1)

/-- `VCardTool::addParameter`, vcardtool.cpp:105-120. -/
def toolAddParameter (line : VCardLine) (v : Version) (key : QString) (values : List QString) : VCardLine :=
  match v with
  | .v2_1 => values.foldl (fun l s => l.addParameter s []) line
  | .v3_0 => line.addParameter key (join [qc! ','] values)
  | .v4_0 =>
    if values.length < 2 then line.addParameter key (join [qc! ','] values)
    else line.addParameter key (qc! '"' :: (join [qc! ','] values ++ [qc! '"']))

/-- The idiom `if (version == VCard::v2_1 && needsEncoding(text)) { addParameter("charset", "UTF-8"); addParameter("encoding",
    "QUOTED-PRINTABLE"); }`, e.g. vcardtool.cpp:147-150. -/
def encoded (v : Version) (text : QString) (line : VCardLine) : VCardLine :=
  if v = .v2_1 && needsEncoding text then
    (line.addParameter (q! "charset") (q! "UTF-8")).addParameter (q! "encoding") (q! "QUOTED-PRINTABLE")
  else line

/-- `VCardLine(identifier, value)` with a text, vcardline.cpp:23-27. -/
def textLine (id text : QString) : VCardLine := { identifier := id, value := .str text }

/-! ### writing -/

/-- Lines of one address, body of the loop in `VCardTool::processAddresses`, vcardtool.cpp:124-190. -/
def addressLines (E : ToolEnv) (v : Version) (a : Address) : List VCardLine :=
  let isEmpty := a.postOfficeBox.isEmpty && a.extended.isEmpty && a.street.isEmpty && a.locality.isEmpty && a.region.isEmpty
    && a.postalCode.isEmpty && a.country.isEmpty
  let joined := joinEscaped (qc! ';') [a.postOfficeBox, a.extended, a.street, a.locality, a.region, a.postalCode, a.country]
  let types := typeNames addressTypes a.type
  let adr := encoded v joined (textLine (q! "ADR") joined)
  let adr := if v = .v4_0 && !a.label.isEmpty then adr.addParameter (q! "LABEL") (qc! '"' :: (a.label ++ [qc! '"'])) else adr
  let adr :=
    if v = .v4_0 && a.geo.isValid then
      adr.addParameter (q! "GEO") (q! "\"geo:" ++ E.fmt6 a.geo.latitude ++ qc! ',' :: (E.fmt6 a.geo.longitude ++ [qc! '"']))
    else adr
  let label :=
    if v ≠ .v4_0 && !a.label.isEmpty then
      [toolAddParameter (encoded v a.label (textLine (q! "LABEL") a.label)) v (q! "TYPE") types]
    else []
  label ++ if isEmpty then [] else [toolAddParameter adr v (q! "TYPE") types]

/-- `list.join(',')`, and the parameter added with it. -/
def addJoined (line : VCardLine) (p : QString × List QString) : VCardLine := line.addParameter p.1 (join [qc! ','] p.2)

/-- Line of one e-mail address, loop body in `VCardTool::processEmailList`, vcardtool.cpp:195-221. -/
def emailLine (v : Version) (e : Email) : VCardLine :=
  e.params.foldl (fun line p =>
    if v = .v2_1 && toLowerQ p.1 = q! "type" then
      let list := p.2.filter (· ≠ q! "PREF")
      let line := if list.isEmpty then line else toolAddParameter line v p.1 list
      if q! "PREF" ∈ p.2 then line.addParameter (q! "PREF") [] else line
    else addJoined line p) (textLine (q! "EMAIL") e.mail)

/-- Line of one organisation, loop body in `VCardTool::processOrganizations`, vcardtool.cpp:227-240. -/
def orgLine (v : Version) (department : QString) (o : ParamText) : VCardLine :=
  let orgStr := joinEscaped (qc! ';') (if department.isEmpty then [o.text] else [o.text, department])
  (encoded v orgStr (textLine (q! "ORG") orgStr)).addParameters o.params

/-- Line of one phone number, loop body in `VCardTool::processPhoneNumbers`, vcardtool.cpp:245-270. -/
def phoneLine (v : Version) (p : PhoneNumber) : VCardLine :=
  let line := p.params.foldl (fun line q => if toUpperQ q.1 ≠ q! "TYPE" then addJoined line q else line) (textLine (q! "TEL") p.number)
  let names := typeNames phoneTypes p.type
  let names := if v = .v4_0 then names.map toLowerQ else names
  if names.isEmpty then line else toolAddParameter line v (q! "TYPE") names

/-- Standard names used when exporting, vcardtool.cpp:283-314. -/
def exportNames : List (QString × QString) :=
  [(q! "X-messaging/aim-All", q! "X-AIM"), (q! "X-messaging/icq-All", q! "X-ICQ"), (q! "X-messaging/xmpp-All", q! "X-JABBER"),
   (q! "X-messaging/msn-All", q! "X-MSN"), (q! "X-messaging/yahoo-All", q! "X-YAHOO"), (q! "X-messaging/gadu-All", q! "X-GADUGADU"),
   (q! "X-messaging/skype-All", q! "X-SKYPE"), (q! "X-messaging/groupwise-All", q! "X-GROUPWISE"),
   (q! "X-messaging/sms-All", q! "X-SMS"), (q! "X-messaging/meanwhile-All", q! "X-MEANWHILE"),
   (q! "X-messaging/irc-All", q! "X-IRC"), (q! "X-messaging/googletalk-All", q! "X-GTALK"),
   (q! "X-messaging/twitter-All", q! "X-TWITTER")]

/-- Look a name up in a table of replacements. -/
def renamed (table : List (QString × QString)) (s : QString) : Option QString := (table.find? fun p => p.1 = s).map (·.2)

/-- `QDate::fromString(value, Qt::ISODate)` (Qt 6): at least ten characters, punctuation at 4 and 7, no digit at 10, four, two and two
    digits, year 1..9999. (Whether local midnight of that day exists, a daylight-saving gap, is not modelled.) -/
def isoDateOf (E : ToolEnv) (s : QString) : Option (Int × Nat × Nat) :=
  let digits (d : QString) : Option Nat :=
    if d.all fun c => 48 ≤ c && c ≤ 57 then some (d.foldl (fun n c => 10 * n + (c.toNat - 48)) 0) else none
  if 10 ≤ s.length && E.isPunct (s.getD 4 0) && E.isPunct (s.getD 7 0) && (s.length = 10 || !E.isDigit (s.getD 10 0)) then
    match digits (mid s 0 4), digits (mid s 5 2), digits (mid s 8 2) with
    | some y, some m, some d => if 0 < y && y ≤ 9999 && validDate y m d then some (y, m, d) else none
    | _, _, _ => none
  else none

/-- `QDate::toString(Qt::ISODate)`: nothing for an invalid date or a year outside 0..9999. -/
def isoDate : Option (Int × Nat × Nat) → QString
  | none => []
  | some (y, m, d) =>
    if 0 ≤ y && y ≤ 9999 then padded 4 y.toNat ++ qc! '-' :: (padded 2 m ++ qc! '-' :: padded 2 d) else []

/-- Line of one custom field, loop body in `VCardTool::processCustoms`, vcardtool.cpp:275-335. -/
def customLine (E : ToolEnv) (v : Version) (export_ : Bool) (str : QString) : List VCardLine :=
  let i := (indexOf? (qc! ':') str).getD str.length      -- the texts come from `customs()`: they always contain a ':'
  let value := str.drop (i + 1)
  if value.isEmpty then []
  else
    let identifier := q! "X-" ++ str.take i
    let identifier := if export_ then (renamed exportNames identifier).getD identifier else identifier
    if toLowerQ identifier = q! "x-kaddressbook-x-anniversary" && v = .v4_0 then
      let dt : QDateTime := (isoDateOf E value).map fun d => { date := d, time := (0, 0, 0, 0), zone := none }
      let line : VCardLine := ({ identifier := q! "ANNIVERSARY" } : VCardLine).addParameter (q! "VALUE") (q! "DATE")
      [{ line with value := .str (createDateTime dt true true) }]
    else if toLowerQ identifier = q! "x-kaddressbook-x-spousesname" && v = .v4_0 then
      [((textLine (q! "RELATED") (q! ";")).addParameter (q! "TYPE") (q! "spouse")).addParameter (q! "VALUE") value]
    else [encoded v value (textLine identifier value)]

/-- `Picture::rawData()`, picture.cpp:182-193 (the stored result in the mutable member is not modelled). -/
def Picture.rawBytes (E : ToolEnv) (p : Picture) : QByteArray :=
  match p.rawData, p.image with
  | [], some i => E.encodeImage i (toUpperQ p.type)
  | r, _ => r

/-- `VCardTool::createPicturev4`, vcardtool.cpp:1383-1397. -/
def createPicturev4 (E : ToolEnv) (id : QString) (p : Picture) : VCardLine :=
  if p.isIntern then
    let line : VCardLine := ({ identifier := id ++ q! ":data" ++ q! ":image/" ++ p.type } : VCardLine).addParameter (q! "type") p.type
    { line with base64Value := toBase64 (p.rawBytes E) }
  else textLine id p.url

/-- `VCardTool::createPicture`, vcardtool.cpp:1399-1428. -/
def createPicture (E : ToolEnv) (id : QString) (p : Picture) (v : Version) : VCardLine :=
  let line : VCardLine := { identifier := id }
  if p.isEmpty then line
  else if p.isIntern then
    let line := { line with value := .bytes (p.rawBytes E) }
    match v with
    | .v2_1 => (line.addParameter (q! "ENCODING") (q! "BASE64")).addParameter p.type []
    | .v3_0 => (line.addParameter (q! "encoding") (q! "b")).addParameter (q! "type") p.type
    | .v4_0 => line
  else { line with value := .str p.url }.addParameter (q! "value") (q! "URI")

/-- `VCardTool::createSound`, vcardtool.cpp:1451-1471. -/
def createSound (s : Sound) (v : Version) : VCardLine :=
  let line : VCardLine := { identifier := q! "SOUND" }
  if s.isIntern then
    if !s.data.isEmpty then
      let line := { line with value := .bytes s.data }
      if v = .v2_1 then line.addParameter (q! "ENCODING") (q! "BASE64") else line.addParameter (q! "encoding") (q! "b")
    else line
  else if !s.url.isEmpty then { line with value := .str s.url }.addParameter (q! "value") (q! "URI")
  else line

/-- `VCardTool::createKey`, vcardtool.cpp:1508-1544. -/
def createKey (k : Key) (v : Version) : VCardLine :=
  let line : VCardLine := { identifier := q! "KEY" }
  let line :=
    if k.isBinary then
      if !k.binaryData.isEmpty then
        let line := { line with value := .bytes k.binaryData }
        if v = .v2_1 then line.addParameter (q! "ENCODING") (q! "BASE64") else line.addParameter (q! "encoding") (q! "b")
      else line
    else if !k.textData.isEmpty then { line with value := .str k.textData } else line
  if v = .v4_0 then
    line.addParameter (q! "MEDIATYPE") (match k.type with
      | .x509 => q! "application/x-x509-ca-cert" | .pgp => q! "application/pgp-keys" | .custom => k.customTypeString)
  else
    line.addParameter (q! "type") (match k.type with | .x509 => q! "X509" | .pgp => q! "PGP" | .custom => k.customTypeString)

/-- `VCardTool::createSecrecy`, vcardtool.cpp:1562-1577. -/
def createSecrecy (s : Secrecy) : VCardLine :=
  match s with
  | .pub => textLine (q! "CLASS") (q! "PUBLIC")
  | .priv => textLine (q! "CLASS") (q! "PRIVATE")
  | .confidential => textLine (q! "CLASS") (q! "CONFIDENTIAL")
  | .invalid => { identifier := q! "CLASS" }

/-- A line with the parameters of an entry (`VCardLine line(id, text); line.addParameters(params)`). -/
def paramTextLine (id : QString) (t : ParamText) : VCardLine := (textLine id t.text).addParameters t.params

/-- The pictures under a name, vcardtool.cpp:460-473 (LOGO), 536-549 (PHOTO): the main one and the extra ones. -/
def pictureLines (E : ToolEnv) (v : Version) (id : QString) (p : Picture) (extra : List Picture) : List VCardLine :=
  if v = .v4_0 then createPicturev4 E id p :: extra.map (createPicturev4 E id)
  else createPicture E id p v :: extra.map fun x => createPicture E id x v

/-- `asprintf("%c%02d:%02d", sign, offset / 60 * neg, offset % 60 * neg)`, vcardtool.cpp:607-615 (C++ division truncates). -/
def timeZoneText (offset : Int) : QString :=
  (if offset ≥ 0 then qc! '+' else qc! '-') :: (padded 2 (offset.natAbs / 60) ++ qc! ':' :: padded 2 (offset.natAbs % 60))

/-- The name of a calendar URL's line, vcardtool.cpp:652-664. -/
def calendarName (type : Nat) : QString :=
  if type = 1 then q! "FBURL" else if type = 2 then q! "CALURI" else if type = 3 then q! "CALADRURI" else []

/-! The sections of `VCardTool::createVCards`, vcardtool.cpp:342-700, in the order of the `addLine` calls. -/

/-- VERSION, vcardtool.cpp:344-351. -/
def versionLines (v : Version) : List VCardLine :=
  [textLine (q! "VERSION") (match v with | .v2_1 => q! "2.1" | .v3_0 => q! "3.0" | .v4_0 => q! "4.0")]

/-- ADR and LABEL, vcardtool.cpp:353-355, 122-191. -/
def adrLines (E : ToolEnv) (v : Version) (c : Contact) : List VCardLine := c.addresses.flatMap (addressLines E v)

/-- BDAY, vcardtool.cpp:357-368. -/
def bdayLines (v : Version) (c : Contact) : List VCardLine :=
  let line := textLine (q! "BDAY") (createDateTime c.birthday (v = .v4_0) c.birthdayWithTime)
  [if v = .v4_0 then line.addParameter (q! "VALUE") (q! "DATE") else line]

/-- DEATHDATE, vcardtool.cpp:369-374. -/
def deathLines (v : Version) (c : Contact) : List VCardLine :=
  if v = .v4_0 then [textLine (q! "DEATHDATE") (createDateTime c.deathDate true)] else []

/-- CATEGORIES, vcardtool.cpp:375-384. -/
def categoryLines (v : Version) (c : Contact) : List VCardLine :=
  if v ≠ .v2_1 then [textLine (q! "CATEGORIES") (joinEscaped (qc! ',') c.categories)] else []

/-- MEMBER, vcardtool.cpp:385-394. -/
def memberLines (v : Version) (c : Contact) : List VCardLine :=
  if v = .v4_0 && toLowerQ c.kind = q! "group" then c.members.map (textLine (q! "MEMBER")) else []

/-- SOURCE, vcardtool.cpp:395-400. -/
def sourceLines (c : Contact) : List VCardLine := c.sources.map (textLine (q! "SOURCE"))

/-- RELATED, vcardtool.cpp:402-407. -/
def relatedLines (c : Contact) : List VCardLine := c.relationships.map (paramTextLine (q! "RELATED"))

/-- CLASS, vcardtool.cpp:408-411. -/
def classLines (v : Version) (c : Contact) : List VCardLine := if v = .v3_0 then [createSecrecy c.secrecy] else []

/-- LANG, vcardtool.cpp:412-419. -/
def langLines (v : Version) (c : Contact) : List VCardLine := if v = .v4_0 then c.langs.map (paramTextLine (q! "LANG")) else []

/-- CLIENTPIDMAP, vcardtool.cpp:420-429. -/
def pidLines (v : Version) (c : Contact) : List VCardLine :=
  if v = .v4_0 then c.clientPidMaps.map (paramTextLine (q! "CLIENTPIDMAP")) else []

/-- EMAIL, vcardtool.cpp:430-432, 193-222. -/
def emailLines (v : Version) (c : Contact) : List VCardLine := c.emails.map (emailLine v)

/-- FN, vcardtool.cpp:434-440. -/
def fnLines (v : Version) (c : Contact) : List VCardLine := [encoded v c.formattedName (textLine (q! "FN") c.formattedName)]

/-- GEO, vcardtool.cpp:442-452. -/
def geoLines (E : ToolEnv) (v : Version) (c : Contact) : List VCardLine :=
  if c.geo.isValid then
    [textLine (q! "GEO")
      (if v = .v4_0 then q! "geo:" ++ E.fmt6 c.geo.latitude ++ qc! ',' :: E.fmt6 c.geo.longitude
       else E.fmt6 c.geo.latitude ++ qc! ';' :: E.fmt6 c.geo.longitude)]
  else []

/-- KEY, vcardtool.cpp:454-458. -/
def keyLines (v : Version) (c : Contact) : List VCardLine := c.keys.map fun k => createKey k v

/-- LOGO, vcardtool.cpp:460-473. -/
def logoLines (E : ToolEnv) (v : Version) (c : Contact) : List VCardLine := pictureLines E v (q! "LOGO") c.logo c.extraLogos

/-- MAILER, vcardtool.cpp:475-483. -/
def mailerLines (v : Version) (c : Contact) : List VCardLine :=
  if v = .v4_0 then [] else [encoded v c.mailer (textLine (q! "MAILER") c.mailer)]

/-- N, vcardtool.cpp:485-502. -/
def nLines (v : Version) (c : Contact) : List VCardLine :=
  let joined := joinEscaped (qc! ';') [c.familyName, c.givenName, c.additionalName, c.prefix_, c.suffix]
  let line := encoded v joined (textLine (q! "N") joined)
  [if v = .v4_0 && !c.sortString.isEmpty then line.addParameter (q! "SORT-AS") c.sortString else line]

/-- NAME, vcardtool.cpp:504-512. -/
def nameLines (v : Version) (c : Contact) : List VCardLine :=
  if v = .v4_0 then [] else [encoded v c.name (textLine (q! "NAME") c.name)]

/-- NICKNAME, vcardtool.cpp:514-523. -/
def nickLines (v : Version) (c : Contact) : List VCardLine :=
  if v ≠ .v2_1 then c.nickNames.map (paramTextLine (q! "NICKNAME")) else []

/-- NOTE, vcardtool.cpp:525-531. -/
def noteLines (v : Version) (c : Contact) : List VCardLine := [encoded v c.note (textLine (q! "NOTE") c.note)]

/-- ORG, vcardtool.cpp:533-534, 224-241. -/
def orgLines (v : Version) (c : Contact) : List VCardLine := c.organizations.map (orgLine v c.department)

/-- PHOTO, vcardtool.cpp:536-549. -/
def photoLines (E : ToolEnv) (v : Version) (c : Contact) : List VCardLine := pictureLines E v (q! "PHOTO") c.photo c.extraPhotos

/-- PRODID, vcardtool.cpp:551-554. -/
def prodidLines (v : Version) (c : Contact) : List VCardLine := if v ≠ .v2_1 then [textLine (q! "PRODID") c.productId] else []

/-- REV, vcardtool.cpp:556-557. -/
def revLines (v : Version) (c : Contact) : List VCardLine := [textLine (q! "REV") (createDateTime c.revision (v = .v4_0))]

/-- A line of ROLE or TITLE: the text, possibly encoded, and its parameters. -/
def codedTextLine (v : Version) (id : QString) (t : ParamText) : VCardLine := (encoded v t.text (textLine id t.text)).addParameters t.params

/-- ROLE, vcardtool.cpp:559-569. -/
def roleLines (v : Version) (c : Contact) : List VCardLine := c.roles.map (codedTextLine v (q! "ROLE"))

/-- SORT-STRING, vcardtool.cpp:571-574. -/
def sortLines (v : Version) (c : Contact) : List VCardLine := if v = .v3_0 then [textLine (q! "SORT-STRING") c.sortString] else []

/-- SOUND, vcardtool.cpp:576-585. -/
def soundLines (v : Version) (c : Contact) : List VCardLine :=
  if v = .v4_0 then [] else createSound c.sound v :: c.extraSounds.map fun s => createSound s v

/-- TEL, vcardtool.cpp:587-589, 243-271. -/
def telLines (v : Version) (c : Contact) : List VCardLine := c.phoneNumbers.map (phoneLine v)

/-- TITLE, vcardtool.cpp:591-602. -/
def titleLines (v : Version) (c : Contact) : List VCardLine := c.titles.map (codedTextLine v (q! "TITLE"))

/-- TZ, vcardtool.cpp:604-617. -/
def tzLines (c : Contact) : List VCardLine :=
  if c.timeZone.isValid then [textLine (q! "TZ") (timeZoneText c.timeZone.offset)] else []

/-- UID, vcardtool.cpp:619-620. -/
def uidLines (c : Contact) : List VCardLine := [textLine (q! "UID") c.uid]

/-- URL, vcardtool.cpp:622-628. -/
def urlLines (c : Contact) : List VCardLine := c.extraUrls.map fun u => (textLine (q! "URL") u.url).addParameters u.params

/-- GENDER, vcardtool.cpp:630-642. -/
def genderLines (v : Version) (c : Contact) : List VCardLine :=
  if v = .v4_0 && c.gender.isValid then
    [textLine (q! "GENDER") (c.gender.gender ++ if c.gender.comment.isEmpty then [] else qc! ';' :: c.gender.comment)]
  else []

/-- KIND, vcardtool.cpp:643-647. -/
def kindLines (v : Version) (c : Contact) : List VCardLine := if v = .v4_0 && !c.kind.isEmpty then [textLine (q! "KIND") c.kind] else []

/-- FBURL, CALURI, CALADRURI, vcardtool.cpp:648-672. -/
def calendarLines (E : ToolEnv) (v : Version) (c : Contact) : List VCardLine :=
  if v = .v4_0 then
    (c.calendarUrls.filter fun u => u.isValid E.toQtEnv && !(calendarName u.type).isEmpty).map fun u =>
      (textLine (calendarName u.type) (E.urlDisplay u.url)).addParameters u.params
  else []

/-- Field groups, vcardtool.cpp:675-681. -/
def groupLines (c : Contact) : List VCardLine := c.fieldGroups.map fun g => (textLine g.fieldGroupName g.value).addParameters g.params

/-- IMPP, vcardtool.cpp:683-694. -/
def imppLines (c : Contact) : List VCardLine :=
  c.impps.map fun u => u.params.foldl (fun line p => if toLowerQ p.1 ≠ q! "x-service-type" then addJoined line p else line)
    (textLine (q! "IMPP") u.url)

/-- X-, vcardtool.cpp:696-698, 274-336. -/
def customLines (E : ToolEnv) (v : Version) (export_ : Bool) (c : Contact) : List VCardLine := c.customsList.flatMap (customLine E v export_)

/-- All sections, in code order. -/
def contactSections (E : ToolEnv) (v : Version) (export_ : Bool) (c : Contact) : List (List VCardLine) :=
  [versionLines v, adrLines E v c, bdayLines v c, deathLines v c, categoryLines v c, memberLines v c, sourceLines c, relatedLines c,
   classLines v c, langLines v c, pidLines v c, emailLines v c, fnLines v c, geoLines E v c, keyLines v c, logoLines E v c,
   mailerLines v c, nLines v c, nameLines v c, nickLines v c, noteLines v c, orgLines v c, photoLines E v c, prodidLines v c,
   revLines v c, roleLines v c, sortLines v c, soundLines v c, telLines v c, titleLines v c, tzLines c, uidLines c, urlLines c,
   genderLines v c, kindLines v c, calendarLines E v c, groupLines c, imppLines c, customLines E v export_ c]

/-- All lines added for a contact. -/
def contactLines (E : ToolEnv) (v : Version) (export_ : Bool) (c : Contact) : List VCardLine := (contactSections E v export_ c).flatten

/-- `VCardTool::createVCards`, vcardtool.cpp:338-704; `createVCards`/`exportVCards`, 95-103; `VCardConverter::createVCards`,
    `exportVCards`, vcardconverter.cpp:30-74. -/
def createContacts (E : ToolEnv) (v : Version) (export_ : Bool) (cs : List Contact) : QByteArray :=
  createVCardText E.toCodecs (cs.map fun c => (contactLines E v export_ c).foldl VCard.addLine [])

/-! ### reading -/

/-- What draws a fresh UUID while reading. -/
inductive IdKind where
  | contact | address | phone | key
deriving DecidableEq

/-- State of reading one card: the contact, how many ids of each kind were drawn, and whether the behaviour became undefined. -/
structure RState where
  c : Contact
  addresses : Nat
  phones : Nat
  keys : Nat
  ub : Bool := false
deriving DecidableEq

/-- `QByteArray::mid(5, n)`, a negative length meaning everything; `QByteArray::last(n)` is undefined for negative `n`.
    `VCardTool::parsePicture`, vcardtool.cpp:1346-1381; `none` for undefined behaviour (`value.last(value.length() - 22)` on a short
    value). -/
def parsePicture (line : VCardLine) : Option Picture :=
  let params := line.parameterList
  if params.isEmpty then
    if line.value ≠ .invalid then
      let value := line.value.toByteArray
      match indexOfStr? (b! "data:") value with
      | some _ =>
        match indexOfStr? (b! ";base64,") value with
        | some i =>
          if value.length < 22 then none
          else
            let type := midI value 5 ((i : Int) - 4)
            some (({} : Picture).setRawData (fromBase64 (value.drop 22)) (fromLatin1 type))
        | none => some {}
      | none => some (({} : Picture).setUrl line.value.toString)
    else some {}
  else
    let type := if q! "type" ∈ params then line.parameter (q! "type") else []
    if q! "encoding" ∈ params then some (({} : Picture).setRawData line.value.toByteArray type)
    else if q! "value" ∈ params && toLowerQ (line.parameter (q! "value")) = q! "uri" then some (({} : Picture).setUrl line.value.toString)
    else some {}

/-- `VCardTool::parseSound`, vcardtool.cpp:1430-1449. -/
def parseSound (line : VCardLine) : Sound :=
  let params := line.parameterList
  if q! "encoding" ∈ params then ({} : Sound).setData line.value.toByteArray
  else if q! "value" ∈ params && toLowerQ (line.parameter (q! "value")) = q! "uri" then ({} : Sound).setUrl line.value.toString
  else {}

/-- `VCardTool::parseKey`, vcardtool.cpp:1473-1506; `id` is the fresh id. -/
def parseKey (id : QString) (line : VCardLine) : Key :=
  let params := line.parameterList
  let key : Key := { id := id }
  let key := if q! "encoding" ∈ params then key.setBinaryData line.value.toByteArray else key.setTextData line.value.toString
  if q! "type" ∈ params then
    if toLowerQ (line.parameter (q! "type")) = q! "x509" then { key with type := .x509 }
    else if toLowerQ (line.parameter (q! "type")) = q! "pgp" then { key with type := .pgp }
    else { key with type := .custom, customTypeString := line.parameter (q! "type") }
  else if q! "mediatype" ∈ params then
    let param := toLowerQ (line.parameter (q! "mediatype"))
    if param = q! "application/x-x509-ca-cert" then { key with type := .x509 }
    else if param = q! "application/pgp-keys" then { key with type := .pgp }
    else { key with type := .custom, customTypeString := line.parameter (q! "type") }
  else key

/-- `VCardTool::parseSecrecy`, vcardtool.cpp:1546-1560. -/
def parseSecrecy (line : VCardLine) : Secrecy :=
  let value := toLowerQ line.value.toString
  if value = q! "public" then .pub else if value = q! "private" then .priv
  else if value = q! "confidential" then .confidential else .invalid

/-- `VCardTool::normalizeImppServiceType`, vcardtool.cpp:1614-1626. -/
def normalizeImppServiceType (s : QString) : QString :=
  if s = q! "jabber" then q! "xmpp" else if s = q! "yahoo" then q! "ymsgr" else if s = q! "gadugadu" then q! "gg" else s

/-- The kinds of lines that `VCardTool::parseVCards` distinguishes. -/
inductive Tag where
  | fieldGroup | adr | anniversary | bday | deathdate | categories | fburl | caladruri | caluri | impp | class_ | gender | lang | email
  | kind | fn | geo | key | label | logo | mailer | n | name | nickname | note | org | photo | prodid | rev | role | sortString | sound
  | tel | title | tz | uid | url | source | member | related | clientpidmap | x | other
deriving DecidableEq

/-- The names tested one after the other, vcardtool.cpp:729-1128. -/
def tagTable : List (QString × Tag) :=
  [(q! "adr", .adr), (q! "anniversary", .anniversary), (q! "bday", .bday), (q! "deathdate", .deathdate),
   (q! "categories", .categories), (q! "fburl", .fburl), (q! "caladruri", .caladruri), (q! "caluri", .caluri), (q! "impp", .impp),
   (q! "class", .class_), (q! "gender", .gender), (q! "lang", .lang), (q! "email", .email), (q! "kind", .kind), (q! "fn", .fn),
   (q! "geo", .geo), (q! "key", .key), (q! "label", .label), (q! "logo", .logo), (q! "mailer", .mailer), (q! "n", .n),
   (q! "name", .name), (q! "nickname", .nickname), (q! "note", .note), (q! "org", .org), (q! "photo", .photo), (q! "prodid", .prodid),
   (q! "rev", .rev), (q! "role", .role), (q! "sort-string", .sortString), (q! "sound", .sound), (q! "tel", .tel), (q! "title", .title),
   (q! "tz", .tz), (q! "uid", .uid), (q! "url", .url), (q! "source", .source), (q! "member", .member), (q! "related", .related),
   (q! "clientpidmap", .clientpidmap)]

/-- The kind of a line: the conditions of the chain vcardtool.cpp:729-1130. -/
def tagOf (l : VCardLine) : Tag :=
  let identifier := toLowerQ l.identifier
  if l.group ≠ [] && identifier ≠ q! "adr" then .fieldGroup
  else match tagTable.find? fun p => p.1 = identifier with
    | some p => p.2
    | none => if startsWith (q! "x-") identifier then .x else .other

/-- The flags of the `type` parameter of an address or label line, vcardtool.cpp:763-771, 907-913. -/
def addressTypeOf (l : VCardLine) : Nat :=
  (l.parameters (q! "type")).foldl (fun t s => t ||| stringToAddressType (toLowerQ s)) 0

/-- `QString::mid(pos, len)` for any length; a negative length means everything. -/
def midQ (s : QString) (pos : Nat) (len : Int) : QString := if len < 0 then s.drop pos else (s.drop pos).take len.toNat

/-- The address made from an ADR line, vcardtool.cpp:740-792. -/
def readAddress (E : ToolEnv) (id : QString) (l : VCardLine) : Address :=
  let parts := splitString (qc! ';') l.value.toString
  let a : Address := { id := id }
  let a := if parts.length > 0 then a.set (.postOfficeBox (parts.getD 0 [])) else a
  let a := if parts.length > 1 then a.set (.extended (parts.getD 1 [])) else a
  let a := if parts.length > 2 then a.set (.street (parts.getD 2 [])) else a
  let a := if parts.length > 3 then a.set (.locality (parts.getD 3 [])) else a
  let a := if parts.length > 4 then a.set (.region (parts.getD 4 [])) else a
  let a := if parts.length > 5 then a.set (.postalCode (parts.getD 5 [])) else a
  let a := if parts.length > 6 then a.set (.country (parts.getD 6 [])) else a
  let a := a.set (.type (addressTypeOf l))
  let label := l.parameter (q! "label")
  let a :=
    if label.isEmpty then a
    else a.set (.label (if label.length > 1 && label.head? = some (qc! '"') && label.getLast? = some (qc! '"')
      then mid label 1 (label.length - 2) else label))
  let geoStr := l.parameter (q! "geo")
  if geoStr.isEmpty then a
  else
    let geoStr := replaceStr (q! "geo:") [] (removeChar (qc! '"') geoStr)
    if qc! ',' ∈ geoStr then
      let arguments := splitOn (qc! ',') geoStr
      a.set (.geo ((({} : Geo).setLatitude (E.toDouble (arguments.getD 0 []))).setLongitude (E.toDouble (arguments.getD 1 []))))
    else a

/-- A LABEL line, vcardtool.cpp:923-948: the first address of the same type gets the label (on a detached copy, whose position is
    lost, see `Address.copyCtor`); without one a new address is made, with the fresh id `id`. The second component says whether the
    id was used. -/
def readLabel (id : QString) (l : VCardLine) (c : Contact) : Contact × Bool :=
  let type := addressTypeOf l
  match c.addresses.find? fun a => a.type = type with
  | some a => (c.insertAddress (a.copyCtor.set (.label l.value.toString)), false)
  | none => (c.insertAddress (({ id := id, type := type } : Address).set (.label l.value.toString)), true)

/-- A GENDER line, vcardtool.cpp:861-875. -/
def readGender (s : QString) : Gender :=
  match s with
  | [] => {}
  | g :: t =>
    if g ≠ qc! ';' then
      { gender := [g], comment := match t with | d :: r => if d = qc! ';' && !r.isEmpty then r else [] | [] => [] }
    else { comment := t }

/-- A GEO line, vcardtool.cpp:898-917; `none` when nothing is set. -/
def readGeo (E : ToolEnv) (s : QString) : Option Geo :=
  let parts := if startsWith (q! "geo:") s then splitOn (qc! ',') (replaceStr (q! "geo:") [] s) else splitOn (qc! ';') s
  if parts.length ≥ 2 then
    some ((({} : Geo).setLatitude (E.toFloat (parts.getD 0 []))).setLongitude (E.toFloat (parts.getD 1 [])))
  else none

/-- An N line, vcardtool.cpp:963-984. -/
def readN (l : VCardLine) (c : Contact) : Contact :=
  let parts := splitString (qc! ';') l.value.toString
  let c := if parts.length > 0 then c.setFamilyName (parts.getD 0 []) else c
  let c := if parts.length > 1 then c.setGivenName (parts.getD 1 []) else c
  let c := if parts.length > 2 then c.setAdditionalName (parts.getD 2 []) else c
  let c := if parts.length > 3 then c.setPrefix (parts.getD 3 []) else c
  let c := if parts.length > 4 then c.setSuffix (parts.getD 4 []) else c
  if (l.parameter (q! "sort-as")).isEmpty then c else c.setSortString (l.parameter (q! "sort-as"))

/-- An ORG line, vcardtool.cpp:1000-1014. -/
def readOrg (l : VCardLine) (c : Contact) : Contact :=
  let parts := splitString (qc! ';') l.value.toString
  let c := if parts.length > 0 then c.insertText .organization { params := l.params, text := parts.getD 0 [] } else c
  let c := if parts.length > 1 then c.setDepartment (parts.getD 1 []) else c
  if (l.parameter (q! "sort-as")).isEmpty then c else c.setSortString (l.parameter (q! "sort-as"))

/-- A TEL line, vcardtool.cpp:1052-1068. -/
def readPhone (id : QString) (l : VCardLine) : PhoneNumber :=
  let types := l.parameters (q! "type")
  let type := types.foldl (fun t s => t ||| stringToPhoneType (toUpperQ s)) 0
  { (({ id := id } : PhoneNumber).setNumber l.value.toString) with
    type := if types.isEmpty then 16384 else type
    params := l.params }

/-- A TZ line, vcardtool.cpp:1076-1091. -/
def readTimeZone (s : QString) : Option TimeZone :=
  match s with
  | [] => none
  | c :: _ =>
    let offset := toIntQ (mid s 1 2) * 60 + toIntQ (mid s 4 2)
    some { offset := offset * (if c = qc! '+' then 1 else -1), isValid := true }

/-- Names of other programs and of our own extensions in other case, vcardtool.cpp:1131-1182 (keys in lower case). -/
def importNames : List (QString × QString) :=
  [(q! "x-evolution-spouse", q! "X-KADDRESSBOOK-X-SpousesName"), (q! "x-spouse", q! "X-KADDRESSBOOK-X-SpousesName"),
   (q! "x-evolution-blog-url", q! "X-KADDRESSBOOK-BlogFeed"), (q! "x-kaddressbook-blogfeed", q! "X-KADDRESSBOOK-BlogFeed"),
   (q! "x-evolution-assistant", q! "X-KADDRESSBOOK-X-AssistantsName"), (q! "x-assistant", q! "X-KADDRESSBOOK-X-AssistantsName"),
   (q! "x-kaddressbook-x-assistantsname", q! "X-KADDRESSBOOK-X-AssistantsName"),
   (q! "x-evolution-anniversary", q! "X-KADDRESSBOOK-X-Anniversary"), (q! "x-anniversary", q! "X-KADDRESSBOOK-X-Anniversary"),
   (q! "x-kaddressbook-x-anniversary", q! "X-KADDRESSBOOK-X-Anniversary"),
   (q! "x-evolution-manager", q! "X-KADDRESSBOOK-X-ManagersName"), (q! "x-manager", q! "X-KADDRESSBOOK-X-ManagersName"),
   (q! "x-kaddressbook-x-managersname", q! "X-KADDRESSBOOK-X-ManagersName"),
   (q! "x-kaddressbook-x-profession", q! "X-KADDRESSBOOK-X-Profession"), (q! "x-kaddressbook-x-office", q! "X-KADDRESSBOOK-X-Office"),
   (q! "x-kaddressbook-x-spousesname", q! "X-KADDRESSBOOK-X-SpousesName"),
   (q! "x-aim", q! "X-messaging/aim-All"), (q! "x-icq", q! "X-messaging/icq-All"), (q! "x-jabber", q! "X-messaging/xmpp-All"),
   (q! "x-msn", q! "X-messaging/msn-All"), (q! "x-yahoo", q! "X-messaging/yahoo-All"), (q! "x-gadugadu", q! "X-messaging/gadu-All"),
   (q! "x-skype", q! "X-messaging/skype-All"), (q! "x-groupwise", q! "X-messaging/groupwise-All"), (q! "x-sms", q! "X-messaging/sms-All"),
   (q! "x-meanwhile", q! "X-messaging/meanwhile-All"), (q! "x-irc", q! "X-messaging/irc-All"), (q! "x-gtalk", q! "X-messaging/googletalk-All"),
   (q! "x-twitter", q! "X-messaging/twitter-All")]

/-- The key of an X- line: the (possibly normalised) name without "X-", vcardtool.cpp:1129-1184. -/
def customKey (l : VCardLine) : QString := ((renamed importNames (toLowerQ l.identifier)).getD l.identifier).drop 2

/-- An X- line, vcardtool.cpp:1129-1206. `left(-1)` and `mid(0)` are the whole string. -/
def readX (E : ToolEnv) (l : VCardLine) (c : Contact) : Contact :=
  let key := customKey l
  let dash := indexQ (qc! '-') key
  if startsWith (q! "messaging/") key then
    let scheme := normalizeImppServiceType (midQ key 10 (dash - 10))
    ((splitOn 0xE000 l.value.toString).filter fun s => !s.isEmpty).foldl
      (fun c value => c.insertImpp E.toQtEnv { params := l.params, url := E.urlMake scheme value }) c
  else
    c.insertCustom (if dash < 0 then key else key.take dash.toNat) (key.drop (dash + 1).toNat) l.value.toString

/-- One line: the body of the innermost loop of `VCardTool::parseVCards`, vcardtool.cpp:726-1207. -/
def readLine (E : ToolEnv) (ids : IdKind → Nat → QString) (s : RState) (l : VCardLine) : RState :=
  let c := s.c
  let value := l.value.toString
  match tagOf l with
  | .fieldGroup => { s with c := c.insertFieldGroup { params := l.params, fieldGroupName := l.group ++ qc! '.' :: l.identifier, value := value } }
  | .adr => { s with c := c.insertAddress (readAddress E (ids .address s.addresses) l), addresses := s.addresses + 1 }
  | .anniversary => { s with c := c.insertCustom (q! "KADDRESSBOOK") (q! "X-Anniversary") (isoDate ((parseDateTime value).1.map (·.date))) }
  | .bday => { s with c := c.setBirthday E.toQtEnv (parseDateTime value).1 (parseDateTime value).2 }
  | .deathdate => { s with c := c.setDeathDate E.toQtEnv (parseDateTime value).1 }
  | .categories => { s with c := c.setCategories (splitString (qc! ',') value) }
  | .fburl => { s with c := c.insertCalendarUrl E.toQtEnv { params := l.params, url := E.urlOf value, type := 1 } }
  | .caladruri => { s with c := c.insertCalendarUrl E.toQtEnv { params := l.params, url := E.urlOf value, type := 3 } }
  | .caluri => { s with c := c.insertCalendarUrl E.toQtEnv { params := l.params, url := E.urlOf value, type := 2 } }
  | .impp =>
    let service := l.parameter (q! "x-service-type")
    let url := E.urlOf value
    let url := if !service.isEmpty && (E.urlScheme url).isEmpty then E.urlSetScheme url (normalizeImppServiceType (toLowerQ service)) else url
    { s with c := c.insertImpp E.toQtEnv { params := l.params, url := url } }
  | .class_ => { s with c := c.setSecrecy (parseSecrecy l) }
  | .gender => { s with c := if value.isEmpty then c else c.setGender (readGender value) }
  | .lang => { s with c := c.insertLang { params := l.params, text := value } }
  | .email => { s with c := c.addEmail { params := l.params, mail := value } }
  | .kind => { s with c := c.setKind value }
  | .fn => { s with c := c.setFormattedName value }
  | .geo => { s with c := match readGeo E value with | some g => c.setGeo g | none => c }
  | .key => { s with c := c.insertKey (parseKey (ids .key s.keys) l), keys := s.keys + 1 }
  | .label =>
    let r := readLabel (ids .address s.addresses) l c
    { s with c := r.1, addresses := if r.2 then s.addresses + 1 else s.addresses }
  | .logo =>
    match parsePicture l with
    | none => { s with ub := true }
    | some p => { s with c := if c.logo.isEmpty then c.setLogo E.toQtEnv p else c.insertExtraLogo p }
  | .mailer => { s with c := c.setMailer value }
  | .n => { s with c := readN l c }
  | .name => { s with c := c.setName value }
  | .nickname => { s with c := c.insertText .nickName { params := l.params, text := value } }
  | .note => { s with c := c.setNote value }
  | .org => { s with c := readOrg l c }
  | .photo =>
    match parsePicture l with
    | none => { s with ub := true }
    | some p => { s with c := if c.photo.isEmpty then c.setPhoto E.toQtEnv p else c.insertExtraPhoto p }
  | .prodid => { s with c := c.setProductId value }
  | .rev => { s with c := c.setRevision E.toQtEnv (parseDateTime value).1 }
  | .role => { s with c := c.insertText .role { params := l.params, text := value } }
  | .sortString => { s with c := c.setSortString value }
  | .sound =>
    let sound := parseSound l
    { s with c := if c.sound.isEmpty then c.setSound sound else c.insertExtraSound sound }
  | .tel => { s with c := c.insertPhoneNumber (readPhone (ids .phone s.phones) l), phones := s.phones + 1 }
  | .title => { s with c := c.insertText .title { params := l.params, text := value } }
  | .tz => { s with c := match readTimeZone value with | some t => c.setTimeZone t | none => c }
  | .uid => { s with c := c.setUid value }
  | .url => { s with c := c.insertExtraUrl E.toQtEnv { params := l.params, url := E.urlOf value } }
  | .source => { s with c := c.insertSourceUrl (E.urlOf value) }
  | .member => { s with c := c.insertMember value }
  | .related => { s with c := c.insertRelationship { params := l.params, text := value } }
  | .clientpidmap => { s with c := c.insertClientPidMap { params := l.params, text := value } }
  | .x => { s with c := readX E l c }
  | .other => s

/-- The lines of a card in reading order: vcardtool.cpp:720-725. -/
def readingOrder (card : VCard) : List VCardLine := card.identifiers.flatMap card.lines

/-- The loop over the cards, vcardtool.cpp:717-1212: `n` contacts, `a` addresses, `p` phone numbers and `k` keys drew ids before. -/
def readCards (E : ToolEnv) (ids : IdKind → Nat → QString) (n a p k : Nat) : List VCard → Option (List Contact)
  | [] => some []
  | card :: t =>
    let s := (readingOrder card).foldl (readLine E ids) { c := Contact.new (ids .contact n), addresses := a, phones := p, keys := k }
    if s.ub then none
    else (readCards E ids (n + 1) s.addresses s.phones s.keys t).map (s.c :: ·)

/-- Outcome of reading. -/
inductive Outcome where
  | ok (cs : List Contact)
  /-- undefined behaviour was reached -/
  | undefined
  /-- the reader of the text did not finish within the given number of steps -/
  | unfinished
deriving DecidableEq

/-- `VCardTool::parseVCards`, vcardtool.cpp:706-1214 (`VCardConverter::parseVCards`, vcardconverter.cpp:83-88). -/
def parseContacts (E : ToolEnv) (ids : IdKind → Nat → QString) (fuel : Nat) (text : QByteArray) : Outcome :=
  match parseVCards E.toCodecs fuel text with
  | none => .unfinished
  | some cards =>
    match readCards E ids 0 0 0 0 cards with
    | none => .undefined
    | some cs => .ok cs

end KC
