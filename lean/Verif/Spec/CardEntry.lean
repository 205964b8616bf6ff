import Verif.Model.VCardTool
import Verif.Spec.Maps
/-
  Specification: what the properties of a vCard say about a contact, name by name. A property is a `VCardLine`: name, group, value
  and parameters (how those are read from the text is the subject of C09, C15 and C65). `L` is the list of the properties of a card.
-/
namespace KC.Spec

/-- The name of a property, without regard to case. -/
def nameOf (l : VCardLine) : QString := toLowerQ l.identifier

/-- The properties with one of these names, in order. A property in a group ("item1.TEL") belongs to its group and does not count,
    except an address. -/
def named (L : List VCardLine) (names : List QString) : List VCardLine :=
  L.filter fun l => decide (nameOf l ∈ names ∧ (l.group = [] ∨ nameOf l = q! "adr"))

/-- The value as a text. -/
def valueText (l : VCardLine) : QString := l.value.toString

/-- The value as a text, with the parameters. -/
def paramText (l : VCardLine) : ParamText := { params := l.params, text := valueText l }

/-- The value of the last property with this name; the empty text without one. -/
def lastText (L : List VCardLine) (name : QString) : QString := ((named L [name]).map valueText).getLast?.getD []

/-- A component of a structured value: the components are separated by semicolons. -/
def valueComponent (l : VCardLine) (i : Nat) : Option QString := (splitString (qc! ';') (valueText l))[i]?

/-- The component of the last property with this name that has so many components. -/
def lastComponent (L : List VCardLine) (name : QString) (i : Nat) : QString := ((named L [name]).filterMap (valueComponent · i)).getLast?.getD []

/-- The non-empty texts with this name, in order, with their parameters. -/
def allTexts (L : List VCardLine) (name : QString) : List ParamText := ((named L [name]).map paramText).filter fun t => decide (t.text ≠ [])

/-- What a property says about sorting: SORT-STRING, or the parameter SORT-AS of a name or organisation. -/
def sortText (l : VCardLine) : Option QString :=
  if nameOf l = q! "sort-string" then some (valueText l)
  else if l.parameter (q! "sort-as") = [] then none else some (l.parameter (q! "sort-as"))

/-- The flags for those types of a table that are among the TYPE parameters, without regard to case. -/
def kindsOf (table : List (QString × Nat)) (l : VCardLine) : Nat :=
  table.foldl (fun t k => if k.1 ∈ (l.parameters (q! "type")).map toLowerQ then t ||| k.2 else t) 0

/-- The types of phone numbers, phonenumber.h. -/
def phoneKinds : List (QString × Nat) :=
  [(q! "home", 1), (q! "work", 2), (q! "msg", 4), (q! "pref", 8), (q! "voice", 16), (q! "fax", 32), (q! "cell", 64), (q! "video", 128), (q! "bbs", 256),
   (q! "modem", 512), (q! "car", 1024), (q! "isdn", 2048), (q! "pcs", 4096), (q! "pager", 8192)]

/-- The types of addresses, address.h. -/
def addressKinds : List (QString × Nat) :=
  [(q! "dom", 1), (q! "intl", 2), (q! "postal", 4), (q! "parcel", 8), (q! "home", 16), (q! "work", 32), (q! "pref", 64)]

/-- A phone number: white space simplified; without any TYPE its type is "undefined". -/
def phoneOf (l : VCardLine) : PhoneNumber :=
  { id := [], number := simplified (valueText l), type := if l.parameters (q! "type") = [] then 16384 else kindsOf phoneKinds l, params := l.params }

/-- A text without the quotes around it. -/
def unquoted (s : QString) : QString :=
  if 2 ≤ s.length ∧ s.head? = some (qc! '"') ∧ s.getLast? = some (qc! '"') then s.tail.dropLast else s

/-- A position. -/
def position (latitude longitude : Flt) : Geo := (({} : Geo).setLatitude latitude).setLongitude longitude

/-- The position given by the parameter GEO of an address: "geo:1.5,2". -/
def addressPosition (E : ToolEnv) (l : VCardLine) : Geo :=
  match splitOn (qc! ',') (replaceStr (q! "geo:") [] (removeChar (qc! '"') (l.parameter (q! "geo")))) with
  | a :: b :: _ => position (E.toDouble a) (E.toDouble b)
  | _ => {}

/-- An address: post office box; extended address; street; locality; region; postal code; country. -/
def addressOf (E : ToolEnv) (l : VCardLine) : Address :=
  { empty := false, id := []
    postOfficeBox := (valueComponent l 0).getD []
    extended := (valueComponent l 1).getD []
    street := (valueComponent l 2).getD []
    locality := (valueComponent l 3).getD []
    region := (valueComponent l 4).getD []
    postalCode := (valueComponent l 5).getD []
    country := (valueComponent l 6).getD []
    type := kindsOf addressKinds l
    label := unquoted (l.parameter (q! "label"))
    geo := addressPosition E l }

/-- A delivery label belongs to the first address of the same types (which loses its position); without one it makes a new address. -/
def withLabel (types : Nat) (label : QString) : List Address → List Address
  | [] => [{ empty := false, id := [], type := types, label := label }]
  | a :: r => if a.type = types then { a with empty := false, label := label, geo := {} } :: r else a :: withLabel types label r

/-- The addresses after one more ADR or LABEL. -/
def addressStep (E : ToolEnv) (x : List Address) (l : VCardLine) : List Address :=
  if nameOf l = q! "adr" then x ++ [addressOf E l] else withLabel (kindsOf addressKinds l) (valueText l) x

/-- A key: binary if the property has an encoding, otherwise a text; what it is for is said by TYPE or by MEDIATYPE. -/
def keyOf (l : VCardLine) : Key :=
  let has (n : QString) : Bool := decide (n ∈ l.parameterList)
  let type := toLowerQ (l.parameter (q! "type"))
  let mediatype := toLowerQ (l.parameter (q! "mediatype"))
  { id := []
    binaryData := if has (q! "encoding") then l.value.toByteArray else []
    textData := if has (q! "encoding") then [] else valueText l
    isBinary := has (q! "encoding")
    type :=
      if has (q! "type") then (if type = q! "x509" then .x509 else if type = q! "pgp" then .pgp else .custom)
      else if has (q! "mediatype") then
        (if mediatype = q! "application/x-x509-ca-cert" then .x509 else if mediatype = q! "application/pgp-keys" then .pgp else .custom)
      else .pgp
    customTypeString := if has (q! "type") ∧ type ≠ q! "x509" ∧ type ≠ q! "pgp" then l.parameter (q! "type") else [] }

/-- A secrecy. -/
def secrecyOf (l : VCardLine) : Secrecy :=
  (([(q! "public", Secrecy.pub), (q! "private", .priv), (q! "confidential", .confidential)].find? fun p => decide (p.1 = toLowerQ (valueText l))).map (·.2)).getD .invalid

/-- A gender: a letter, a semicolon, a comment; each may be missing. -/
def genderOf (l : VCardLine) : Option Gender :=
  match valueText l with
  | [] => none
  | 59 :: comment => some { comment := comment }
  | [g] => some { gender := [g] }
  | g :: 59 :: comment => some { gender := [g], comment := comment }
  | g :: _ => some { gender := [g] }

/-- A time zone "+hh:mm" or "-hh:mm" as an offset in minutes. -/
def timeZoneOf (l : VCardLine) : Option TimeZone :=
  match valueText l with
  | [] => none
  | sign :: s => let minutes := toIntQ (s.take 2) * 60 + toIntQ ((s.drop 3).take 2)
    some { offset := if sign = qc! '+' then minutes else -minutes, isValid := true }

/-- A position "latitude;longitude" or "geo:latitude,longitude". -/
def positionOf (E : ToolEnv) (l : VCardLine) : Option Geo :=
  match (if startsWith (q! "geo:") (valueText l) then splitOn (qc! ',') (replaceStr (q! "geo:") [] (valueText l)) else splitOn (qc! ';') (valueText l)) with
  | a :: b :: _ => some (position (E.toFloat a) (E.toFloat b))
  | _ => none

/-- A sound: embedded if the property has an encoding, otherwise a URL if it says so. -/
def soundOf (l : VCardLine) : Sound :=
  if q! "encoding" ∈ l.parameterList then { isIntern := true, data := l.value.toByteArray }
  else if q! "value" ∈ l.parameterList ∧ toLowerQ (l.parameter (q! "value")) = q! "uri" then { url := valueText l }
  else {}

/-- The first thing in a list that is not empty, and the things after it. -/
def FirstAndRest {α : Type} (isEmpty : α → Bool) (l : List α) (first : α) (rest : List α) : Prop :=
  match l.dropWhile isEmpty with
  | [] => isEmpty first = true ∧ rest = []
  | a :: r => first = a ∧ rest = r

/-- The entries of a list by key, each the last one with its key, where the keys are listed in this order. -/
def lastOfEach {α : Type} (key : α → QString) (l : List α) (keys : List QString) : List α :=
  keys.filterMap fun k => (l.filter fun x => decide (key x = k)).getLast?

/-- The keys of e-mail addresses: the preferred ones first, the latest in front; then the others in order of first occurrence. -/
def mailOrder (l : List Email) : List QString :=
  let preferred := ((l.filter (·.isPreferred)).map (·.mail)).reverse
  distinct preferred ++ (distinct (l.map (·.mail))).filter fun m => decide (m ∉ preferred)

/-- Names used by other programs, and names in other case, for fields that have a name here. -/
def foreignNames : List (QString × List QString) :=
  [(q! "KADDRESSBOOK-X-SpousesName", [q! "x-spouse", q! "x-evolution-spouse", q! "x-kaddressbook-x-spousesname"]),
   (q! "KADDRESSBOOK-X-AssistantsName", [q! "x-assistant", q! "x-evolution-assistant", q! "x-kaddressbook-x-assistantsname"]),
   (q! "KADDRESSBOOK-X-Anniversary", [q! "x-anniversary", q! "x-evolution-anniversary", q! "x-kaddressbook-x-anniversary"]),
   (q! "KADDRESSBOOK-X-ManagersName", [q! "x-manager", q! "x-evolution-manager", q! "x-kaddressbook-x-managersname"]),
   (q! "KADDRESSBOOK-X-Profession", [q! "x-kaddressbook-x-profession"]),
   (q! "KADDRESSBOOK-X-Office", [q! "x-kaddressbook-x-office"]),
   (q! "KADDRESSBOOK-BlogFeed", [q! "x-evolution-blog-url", q! "x-kaddressbook-blogfeed"]),
   (q! "messaging/aim-All", [q! "x-aim"]), (q! "messaging/icq-All", [q! "x-icq"]), (q! "messaging/xmpp-All", [q! "x-jabber"]),
   (q! "messaging/msn-All", [q! "x-msn"]), (q! "messaging/yahoo-All", [q! "x-yahoo"]), (q! "messaging/gadu-All", [q! "x-gadugadu"]),
   (q! "messaging/skype-All", [q! "x-skype"]), (q! "messaging/groupwise-All", [q! "x-groupwise"]), (q! "messaging/sms-All", [q! "x-sms"]),
   (q! "messaging/meanwhile-All", [q! "x-meanwhile"]), (q! "messaging/irc-All", [q! "x-irc"]), (q! "messaging/googletalk-All", [q! "x-gtalk"]),
   (q! "messaging/twitter-All", [q! "x-twitter"])]

/-- A property with a name of one's own, "X-…". -/
def IsExtension (l : VCardLine) : Prop := l.group = [] ∧ startsWith (q! "x-") (nameOf l) = true
instance (l : VCardLine) : Decidable (IsExtension l) := by unfold IsExtension; infer_instance

/-- The name of an extension without "X-", in the form used here. -/
def extensionName (l : VCardLine) : QString :=
  ((foreignNames.find? fun p => decide (nameOf l ∈ p.2)).map (·.1)).getD (l.identifier.drop 2)

/-- The names of messaging services that differ from the URL scheme. -/
def serviceScheme (s : QString) : QString :=
  (([(q! "jabber", q! "xmpp"), (q! "yahoo", q! "ymsgr"), (q! "gadugadu", q! "gg")].find? fun p => decide (p.1 = s)).map (·.2)).getD s

/-- The messaging addresses of a property: IMPP, or an extension "messaging/service-All" with values separated by U+E000. -/
def messagingOf (E : ToolEnv) (l : VCardLine) : List ParamUrl :=
  if nameOf l = q! "impp" ∧ l.group = [] then
    let url := E.urlOf (valueText l)
    let service := l.parameter (q! "x-service-type")
    [{ params := l.params, url := if service ≠ [] ∧ E.urlScheme url = [] then E.urlSetScheme url (serviceScheme (toLowerQ service)) else url }]
  else if IsExtension l ∧ startsWith (q! "messaging/") (extensionName l) = true then
    ((splitOn 0xE000 (valueText l)).filter fun s => decide (s ≠ [])).map fun s =>
      { params := l.params, url := E.urlMake (serviceScheme (((extensionName l).drop 10).takeWhile (· ≠ qc! '-'))) s }
  else []

/-- A custom field: application, name and value. -/
def customOf (l : VCardLine) : Option (QString × QString × QString) :=
  if nameOf l = q! "anniversary" ∧ l.group = [] then
    some (q! "KADDRESSBOOK", q! "X-Anniversary", isoDate ((parseDateTime (valueText l)).1.map (·.date)))
  else if IsExtension l ∧ startsWith (q! "messaging/") (extensionName l) = false then
    if qc! '-' ∈ extensionName l then
      some ((extensionName l).takeWhile (· ≠ qc! '-'), ((extensionName l).dropWhile (· ≠ qc! '-')).tail, valueText l)
    else some (extensionName l, extensionName l, valueText l)
  else none

/-- The custom fields of a card: qualified name and value; nothing in them is empty. -/
def customEntries (L : List VCardLine) : List (QString × QString) :=
  ((L.filterMap customOf).filter fun p => decide (p.1 ≠ [] ∧ p.2.1 ≠ [] ∧ p.2.2 ≠ [])).map fun p => (p.1 ++ q! "-" ++ p.2.1, p.2.2)

/-- A property of a group. -/
def groupField (l : VCardLine) : Option FieldGroup :=
  if l.group ≠ [] ∧ nameOf l ≠ q! "adr" then some { params := l.params, fieldGroupName := l.group ++ q! "." ++ l.identifier, value := valueText l } else none

/-- A calendar address: free/busy 1, calendar 2, invitations 3. -/
def calendarOf (E : ToolEnv) (l : VCardLine) : CalendarUrl :=
  { params := l.params, url := E.urlOf (valueText l), type := if nameOf l = q! "fburl" then 1 else if nameOf l = q! "caluri" then 2 else 3 }

/-- The contact `c` is what the properties `L` say; `fresh` is its UID if they give none. -/
structure CardSays (E : ToolEnv) (fresh : QString) (L : List VCardLine) (c : Contact) : Prop where
  uid : c.uid = ((named L [q! "uid"]).map valueText).getLast?.getD fresh
  name : c.name = lastText L (q! "name")
  formattedName : c.formattedName = lastText L (q! "fn")
  kind : c.kind = lastText L (q! "kind")
  mailer : c.mailer = lastText L (q! "mailer")
  note : c.note = lastText L (q! "note")
  productId : c.productId = lastText L (q! "prodid")
  familyName : c.familyName = lastComponent L (q! "n") 0
  givenName : c.givenName = lastComponent L (q! "n") 1
  additionalName : c.additionalName = lastComponent L (q! "n") 2
  prefix_ : c.prefix_ = lastComponent L (q! "n") 3
  suffix : c.suffix = lastComponent L (q! "n") 4
  department : c.department = lastComponent L (q! "org") 1
  sortString : c.sortString = ((named L [q! "n", q! "org", q! "sort-string"]).filterMap sortText).getLast?.getD []
  nickNames : c.nickNames = allTexts L (q! "nickname")
  titles : c.titles = allTexts L (q! "title")
  roles : c.roles = allTexts L (q! "role")
  organizations : c.organizations = (((named L [q! "org"]).map fun l => { params := l.params, text := (valueComponent l 0).getD [] }).filter fun (t : ParamText) => decide (t.text ≠ []))
  categories : c.categories = ((named L [q! "categories"]).map fun l => splitString (qc! ',') (valueText l)).getLast?.getD []
  /-- the same instant as the last one read; with a time if that one has a valid time -/
  birthday : QDateTime.eq E.toQtEnv c.birthday (((named L [q! "bday"]).map fun l => (parseDateTime (valueText l)).1).getLast?.getD none) = true
  birthdayWithTime : c.birthdayWithTime = ((named L [q! "bday"]).map fun l => (parseDateTime (valueText l)).2).getLast?.getD false
  deathDate : QDateTime.eq E.toQtEnv c.deathDate (((named L [q! "deathdate"]).map fun l => (parseDateTime (valueText l)).1).getLast?.getD none) = true
  revision : QDateTime.eq E.toQtEnv c.revision (((named L [q! "rev"]).map fun l => (parseDateTime (valueText l)).1).getLast?.getD none) = true
  timeZone : c.timeZone = ((named L [q! "tz"]).filterMap timeZoneOf).getLast?.getD {}
  geo : Geo.eq (((named L [q! "geo"]).filterMap (positionOf E)).getLast?.getD {}) c.geo = true
  secrecy : c.secrecy = ((named L [q! "class"]).map secrecyOf).getLast?.getD .invalid
  gender : c.gender = ((named L [q! "gender"]).filterMap genderOf).getLast?.getD {}
  emails : c.emails = (let l := (named L [q! "email"]).map fun l => ({ params := l.params, mail := valueText l } : Email)
    lastOfEach (·.mail) l (mailOrder l))
  langs : c.langs = (let l := ((named L [q! "lang"]).map paramText).filter fun t => decide (simplified t.text ≠ [])
    lastOfEach (·.text) l (distinct (l.map (·.text))))
  /-- the identifiers of phone numbers, keys and addresses are new ones -/
  phoneNumbers : c.phoneNumbers.map (fun p => { p with id := [] }) = ((named L [q! "tel"]).map phoneOf).filter fun p => decide (p.number ≠ [])
  phoneIds : (c.phoneNumbers.map (·.id)).Nodup
  keys : c.keys.map (fun k => { k with id := [] }) = (named L [q! "key"]).map keyOf
  keyIds : (c.keys.map (·.id)).Nodup
  addresses : c.addresses.map (fun a => { a with id := [] }) = (named L [q! "adr", q! "label"]).foldl (addressStep E) []
  addressIds : (c.addresses.map (·.id)).Nodup
  impps : c.impps = (L.flatMap (messagingOf E)).filter fun u => decide (u.url ≠ [] ∧ E.urlScheme u.url ≠ [])
  customs : ∀ q, c.customs.find q = (((customEntries L).filter fun p => decide (p.1 = q)).getLast?).map (·.2)
  customNames : Ascending (c.customs.map (·.1))
  calendarUrls : c.calendarUrls = ((named L [q! "fburl", q! "caladruri", q! "caluri"]).map (calendarOf E)).filter fun u => E.urlValid u.url
  extraUrls : c.extraUrls = ((named L [q! "url"]).map fun l => { params := l.params, url := E.urlOf (valueText l) }).filter fun (u : ParamUrl) => E.urlValid u.url
  sources : c.sources = (named L [q! "source"]).map fun l => E.urlOf (valueText l)
  members : c.members = distinct ((named L [q! "member"]).map valueText)
  relationships : c.relationships = distinct ((named L [q! "related"]).map paramText)
  clientPidMaps : c.clientPidMaps = allTexts L (q! "clientpidmap")
  fieldGroups : c.fieldGroups = L.filterMap groupField
  /-- what a picture is: see `parsePicture` and C22, C64 -/
  photo : FirstAndRest (·.isEmpty) ((named L [q! "photo"]).filterMap parsePicture) c.photo c.extraPhotos
  logo : FirstAndRest (·.isEmpty) ((named L [q! "logo"]).filterMap parsePicture) c.logo c.extraLogos
  sound : FirstAndRest (·.isEmpty) ((named L [q! "sound"]).map soundOf) c.sound c.extraSounds
  changed : c.changed = false

end KC.Spec
