import Verif.Model.Ldif
import Verif.Model.VCardTool
import Verif.Model.Group
/-
  Model of src/converter/ldifconverter.cpp: contacts and contact groups as LDIF, and back; and the date helpers of
  src/converter/vcardconverter.cpp:92-121 it uses.
-/
namespace KC

/-- What the conversion uses outside /repo, besides the functions of `ToolEnv`. Every theorem is for all of them. -/
structure LdifEnv extends ToolEnv where
  /-- `KCountry::fromAlpha2(code).name()`, `none` if the code is not valid -/
  countryOf : QString → Option QString

/-! ### dates -/

/-- `QString::toInt(&ok)`: surrounding white space, an optional sign, decimal digits, within the range of `int`; `none` is `ok = false`. -/
def toInt32 (s : QString) : Option Int :=
  let digits (d : QString) : Option Nat :=
    if d.isEmpty || d.any (fun c => c < 48 || 57 < c) then none else some (d.foldl (fun n c => 10 * n + (c.toNat - 48)) 0)
  let n : Option Int :=
    match trimmedQ s with
    | [] => none
    | c :: t =>
      if c = qc! '-' then (digits t).map fun n => -(n : Int)
      else if c = qc! '+' then (digits t).map fun n => (n : Int)
      else (digits (c :: t)).map fun n => (n : Int)
  n.filter fun n => -2147483648 ≤ n && n ≤ 2147483647

/-- `dateToVCardString(QDateTime)`, vcardconverter.cpp:92-95: `yyyyMMddThhmmssZ` (`T` and `Z` are no format characters). A negative year has a
    minus sign before its four digits. -/
def dateToVCardString (d : DT) : QString :=
  (if d.date.1 < 0 then qc! '-' :: padded 4 d.date.1.natAbs else padded 4 d.date.1.natAbs) ++ padded 2 d.date.2.1 ++ padded 2 d.date.2.2
    ++ [qc! 'T'] ++ padded 2 d.time.1 ++ padded 2 d.time.2.1 ++ padded 2 d.time.2.2.1 ++ [qc! 'Z']

/-- `VCardStringToDate`, vcardconverter.cpp:102-121. `QDateTime(date, time)` is local time; an invalid time becomes midnight (Qt 6).
    There is no minus sign left, so `toUInt` is `toIntQ`. -/
def vCardStringToDate (s : QString) : QDateTime :=
  let d := removeChar (qc! ':') (removeChar (qc! '-') s)
  if 8 ≤ d.length then
    let y := toIntQ (midQ d 0 4)
    let m := toIntQ (midQ d 4 2)
    let day := toIntQ (midQ d 6 2)
    if validDate y m day then
      let time : Nat × Nat × Nat × Nat :=
        if 9 < d.length && upperQ (d.getD 8 0) = qc! 'T' then
          let h := toIntQ (midQ d 9 2)
          let mi := toIntQ (midQ d 11 2)
          let sec := toIntQ (midQ d 13 2)
          if validTime h mi sec then (h.toNat, mi.toNat, sec.toNat, 0) else (0, 0, 0, 0)
        else (0, 0, 0, 0)
      some { date := (y, m.toNat, day.toNat), time := time, zone := none }
    else none
  else none

/-! ### export -/

/-- `ldif_out`, ldifconverter.cpp:71-81. -/
def ldifOut (field value : QString) : QString :=
  if value.isEmpty then [] else fromUtf8 (assembleLine field (toUtf8 value) 72 false) ++ q! "\n"

/-- `LDIFConverter::contactGroupToLDIF(const ContactGroup &)`, ldifconverter.cpp:92-110. -/
def contactGroupToLDIF (g : Group) (str : QString) : Bool × QString :=
  if g.data.isEmpty then (false, str)
  else (true, str ++ q! "objectclass: top\n" ++ q! "objectclass: groupOfNames\n"
    ++ (g.data.flatMap fun d => ldifOut (q! "member") (q! "cn=" ++ d.name ++ q! ",mail=" ++ d.email)) ++ q! "\n")

/-- `LDIFConverter::contactGroupToLDIF(const ContactGroup::List &)`, ldifconverter.cpp:112-123. -/
def contactGroupsToLDIF (gs : List Group) (str : QString) : Bool × QString :=
  if gs.isEmpty then (false, str)
  else gs.foldl (fun acc g => let r := contactGroupToLDIF g acc.2; (r.1 || acc.1, r.2)) (true, str)

/-- `countryName`, ldifconverter.cpp:138-142. -/
def LdifEnv.countryName (E : LdifEnv) (s : QString) : QString := (E.countryOf s).getD s

/-- The e-mail lines after the first, ldifconverter.cpp:172-181. -/
def ldifEmails : Nat → List QString → QString
  | _, [] => []
  | i, e :: t => (if i = 0 then [] else if i = 1 then ldifOut (q! "mozillasecondemail") e else ldifOut (q! "othermailbox") e) ++ ldifEmails (i + 1) t

/-- The lines of a street, ldifconverter.cpp:198-205, 213-220. -/
def ldifStreets (first second street : QString) : QString :=
  let streets := splitOn (qc! '\n') street
  (if 0 < streets.length then ldifOut first (streets.getD 0 []) else []) ++ (if 1 < streets.length then ldifOut second (streets.getD 1 []) else [])

/-- The revision, ldifconverter.cpp:243-245. -/
def ldifRevision : QDateTime → QString
  | some d => ldifOut (q! "modifytimestamp") (dateToVCardString d)
  | none => []

/-- The birth date, ldifconverter.cpp:247-255. -/
def ldifBirthday : QDateTime → QString
  | some d =>
    (if 0 < d.date.1 then ldifOut (q! "birthyear") (dec d.date.1.toNat) else [])
      ++ ldifOut (q! "birthmonth") (dec d.date.2.1) ++ ldifOut (q! "birthday") (dec d.date.2.2)
  | none => []

/-- `LDIFConverter::addresseeToLDIF(const Addressee &)`, ldifconverter.cpp:144-260. The `fresh` ids of the default objects made by `address(type)` and
    `phoneNumber(type)` are never looked at. -/
def addresseeToLDIF (E : LdifEnv) (fresh : QString) (c : Contact) (str : QString) : Bool × QString :=
  if c.empty then (false, str)
  else
    let home := c.address fresh 16
    let work := c.address fresh 32
    (true, str
      ++ ldifOut (q! "dn") (q! "cn=" ++ simplified c.formattedName ++ q! ",mail=" ++ c.preferredEmail)
      ++ q! "objectclass: top\n" ++ q! "objectclass: person\n" ++ q! "objectclass: organizationalPerson\n"
      ++ ldifOut (q! "givenname") c.givenName
      ++ ldifOut (q! "sn") c.familyName
      ++ ldifOut (q! "cn") (simplified c.formattedName)
      ++ ldifOut (q! "uid") c.uid
      ++ ldifOut (q! "nickname") (c.text .nickName)
      ++ ldifOut (q! "xmozillanickname") (c.text .nickName)
      ++ ldifOut (q! "mozillanickname") (c.text .nickName)
      ++ ldifOut (q! "mail") c.preferredEmail
      ++ ldifEmails 0 c.emailAddresses
      ++ ldifOut (q! "telephonenumber") (c.phoneNumber fresh 2).number
      ++ ldifOut (q! "facsimiletelephonenumber") (c.phoneNumber fresh 32).number
      ++ ldifOut (q! "homephone") (c.phoneNumber fresh 1).number
      ++ ldifOut (q! "mobile") (c.phoneNumber fresh 64).number
      ++ ldifOut (q! "cellphone") (c.phoneNumber fresh 64).number
      ++ ldifOut (q! "pager") (c.phoneNumber fresh 8192).number
      ++ ldifOut (q! "pagerphone") (c.phoneNumber fresh 8192).number
      ++ ldifOut (q! "streethomeaddress") home.street
      ++ ldifOut (q! "postalcode") work.postalCode
      ++ ldifOut (q! "postofficebox") work.postOfficeBox
      ++ ldifStreets (q! "homepostaladdress") (q! "mozillahomepostaladdress2") home.street
      ++ ldifOut (q! "mozillahomelocalityname") home.locality
      ++ ldifOut (q! "mozillahomestate") home.region
      ++ ldifOut (q! "mozillahomepostalcode") home.postalCode
      ++ ldifOut (q! "mozillahomecountryname") (E.countryName home.country)
      ++ ldifOut (q! "locality") work.locality
      ++ ldifOut (q! "streetaddress") work.street
      ++ ldifStreets (q! "street") (q! "mozillaworkstreet2") work.street
      ++ ldifOut (q! "countryname") (E.countryName work.country)
      ++ ldifOut (q! "l") work.locality
      ++ ldifOut (q! "c") (E.countryName work.country)
      ++ ldifOut (q! "st") work.region
      ++ ldifOut (q! "title") (c.text .title)
      ++ ldifOut (q! "vocation") c.prefix_
      ++ ldifOut (q! "ou") (c.text .role)
      ++ ldifOut (q! "o") (c.text .organization)
      ++ ldifOut (q! "organization") (c.text .organization)
      ++ ldifOut (q! "organizationname") (c.text .organization)
      ++ (if !c.department.isEmpty then ldifOut (q! "department") c.department
          else ldifOut (q! "department") (c.custom (q! "KADDRESSBOOK") (q! "X-Department")))
      ++ ldifOut (q! "workurl") (E.urlDisplay c.url.url)
      ++ ldifOut (q! "homeurl") (E.urlDisplay c.url.url)
      ++ ldifOut (q! "mozillahomeurl") (E.urlDisplay c.url.url)
      ++ ldifOut (q! "description") c.note
      ++ ldifRevision c.revision
      ++ ldifBirthday c.birthday
      ++ q! "\n")

/-- `LDIFConverter::addresseeToLDIF(const AddresseeList &)`, ldifconverter.cpp:125-136. -/
def addresseesToLDIF (E : LdifEnv) (fresh : QString) (cs : List Contact) (str : QString) : Bool × QString :=
  if cs.isEmpty then (false, str)
  else cs.foldl (fun acc c => let r := addresseeToLDIF E fresh c acc.2; (r.1 || acc.1, r.2)) (true, str)

/-- `LDIFConverter::addresseeAndContactGroupToLDIF`, ldifconverter.cpp:83-90. -/
def addresseeAndContactGroupToLDIF (E : LdifEnv) (fresh : QString) (cs : List Contact) (gs : List Group) (str : QString) : Bool × QString :=
  let r := addresseesToLDIF E fresh cs str
  if gs.isEmpty then r
  else
    let r' := contactGroupsToLDIF gs r.2
    (r'.1 || r.1, r'.2)

/-! ### import -/

/-- What an attribute means: the tests of `evaluatePair` on the field name, ldifconverter.cpp:350-651. -/
inductive LdifField where
  | ignored | note | noteLine | givenName | nickName | familyName | uid | email | title | prefix_ | formattedName | organization | url
  | phone (type : Nat) | homeStreet | homeStreet2 | workStreet | workStreet2 | workPostalCode | workPostOfficeBox | homeLocality | homeRegion
  | homePostalCode | homeCountry | workLocality | workCountry | workRegion | role | department | member | revision | groupName | birthYear | birthMonth
  | birthDay | batBirthday | unknown
deriving DecidableEq

/-- The names tested by `evaluatePair` after the first three tests, in order, ldifconverter.cpp:368-648. Each name is compared with `==`. -/
def ldifFieldNames : List (QString × LdifField) :=
  [(q! "givenname", .givenName),
   (q! "xmozillanickname", .nickName), (q! "nickname", .nickName), (q! "mozillanickname", .nickName),
   (q! "sn", .familyName), (q! "uid", .uid),
   (q! "mail", .email), (q! "mozillasecondemail", .email), (q! "othermailbox", .email),
   (q! "title", .title), (q! "vocation", .prefix_), (q! "cn", .formattedName),
   (q! "o", .organization), (q! "organization", .organization), (q! "organizationname", .organization),
   (q! "description", .note), (q! "mozillacustom1", .note), (q! "mozillacustom2", .note), (q! "mozillacustom3", .note), (q! "mozillacustom4", .note),
   (q! "custom1", .note), (q! "custom2", .note), (q! "custom3", .note), (q! "custom4", .note),
   (q! "homeurl", .url), (q! "workurl", .url), (q! "mozillahomeurl", .url),
   (q! "homephone", .phone 1), (q! "telephonenumber", .phone 2), (q! "mobile", .phone 64), (q! "cellphone", .phone 64),
   (q! "pager", .phone 8192), (q! "pagerphone", .phone 8192), (q! "facsimiletelephonenumber", .phone 32), (q! "xmozillaanyphone", .phone 2),
   (q! "streethomeaddress", .homeStreet), (q! "mozillahomestreet", .homeStreet),
   (q! "street", .workStreet), (q! "postaladdress", .workStreet),
   (q! "mozillapostaladdress2", .workStreet2), (q! "mozillaworkstreet2", .workStreet2),
   (q! "postalcode", .workPostalCode), (q! "postofficebox", .workPostOfficeBox),
   (q! "homepostaladdress", .homeStreet), (q! "mozillahomepostaladdress2", .homeStreet2),
   (q! "mozillahomelocalityname", .homeLocality), (q! "mozillahomestate", .homeRegion), (q! "mozillahomepostalcode", .homePostalCode),
   (q! "mozillahomecountryname", .homeCountry),
   (q! "locality", .workLocality), (q! "streetaddress", .workStreet), (q! "countryname", .workCountry), (q! "c", .workCountry),
   (q! "l", .workLocality), (q! "st", .workRegion), (q! "ou", .role), (q! "department", .department), (q! "member", .member),
   (q! "modifytimestamp", .revision), (q! "display-name", .groupName), (q! "objectclass", .ignored),
   (q! "birthyear", .birthYear), (q! "birthmonth", .birthMonth), (q! "birthday", .birthDay), (q! "xbatbirthday", .batBirthday)]

/-- The chain of tests on the field name; `hasNote` is `!a.note().isEmpty()`. -/
def ldifField (hasNote : Bool) (name : QString) : LdifField :=
  if name = q! "dn" then .ignored
  else if startsWith (q! "#") name then .ignored
  else if name.isEmpty && hasNote then .noteLine
  else ((ldifFieldNames.find? fun p => p.1 = name).map (·.2)).getD .unknown

/-- The local variables of `LDIFToAddressee` that `evaluatePair` changes. `next` counts the UUIDs made (one for each new contact, group, address
    and phone number; ids of objects that are thrown away at once are not counted). -/
structure LdifState where
  next : Nat
  a : Contact
  home : Address
  work : Address
  birthday : Int := -1
  birthmonth : Int := -1
  birthyear : Int := -1
  group : Group

/-- The loop over the parts of a `member` value, ldifconverter.cpp:577-585: name and e-mail address. -/
def memberParts : List QString → QString × QString → QString × QString
  | [], r => r
  | s :: t, (name, email) =>
    if startsWith (q! "cn=") s then memberParts t (trimmedQ (s.drop 3), email)
    else if startsWith (q! "mail=") s then memberParts t (name, trimmedQ (s.drop 5))
    else memberParts t (name, email)

/-- A `member` value, ldifconverter.cpp:568-594. -/
def memberData (value : QString) : GroupData :=
  let (name, email) := memberParts (splitOn (qc! ',') value) ([], [])
  { name := name, email := if !name.isEmpty && !email.isEmpty then q! " <" ++ email ++ q! ">" else email }

/-- `value = countryName(value)` for short values, ldifconverter.cpp:515-518, 532-535. -/
def LdifEnv.readCountry (E : LdifEnv) (value : QString) : QString := if value.length ≤ 2 then E.countryName value else value

/-- The bodies of the tests of `evaluatePair`, ldifconverter.cpp:350-651. `ids` gives the UUIDs. The warning for unknown fields is not modelled. -/
def ldifApply (E : LdifEnv) (ids : Nat → QString) (s : LdifState) (field : LdifField) (value : QString) : LdifState :=
  match field with
  | .ignored => s
  | .noteLine => { s with a := s.a.setNote (s.a.note ++ q! "\n" ++ value) }
  | .givenName => { s with a := s.a.setGivenName value }
  | .nickName => { s with a := s.a.setText .nickName value }
  | .familyName => { s with a := s.a.setFamilyName value }
  | .uid => { s with a := s.a.setUid value }
  | .email => { s with a := if s.a.emailAddresses.contains value then s.a else s.a.addEmail { mail := value } }
  | .title => { s with a := s.a.setText .title value }
  | .prefix_ => { s with a := s.a.setPrefix value }
  | .formattedName => { s with a := s.a.setFormattedName value }
  | .organization => { s with a := s.a.setText .organization value }
  | .note =>
    let a := if !s.a.note.isEmpty then s.a.setNote (s.a.note ++ q! "\n") else s.a
    { s with a := a.setNote (a.note ++ value) }
  | .url => { s with a := if s.a.url.url.isEmpty then s.a.insertExtraUrl E.toQtEnv { url := E.urlOf value } else s.a }
  | .phone type => { s with a := s.a.insertPhoneNumber (PhoneNumber.mk' (ids s.next) value type), next := s.next + 1 }
  | .homeStreet => { s with home := s.home.set (.street value) }
  | .homeStreet2 => { s with home := s.home.set (.street (s.home.street ++ q! "\n" ++ value)) }
  | .workStreet => { s with work := s.work.set (.street value) }
  | .workStreet2 => { s with work := s.work.set (.street (s.work.street ++ q! "\n" ++ value)) }
  | .workPostalCode => { s with work := s.work.set (.postalCode value) }
  | .workPostOfficeBox => { s with work := s.work.set (.postOfficeBox value) }
  | .homeLocality => { s with home := s.home.set (.locality value) }
  | .homeRegion => { s with home := s.home.set (.region value) }
  | .homePostalCode => { s with home := s.home.set (.postalCode value) }
  | .homeCountry => { s with home := s.home.set (.country (E.readCountry value)) }
  | .workLocality => { s with work := s.work.set (.locality value) }
  | .workCountry => { s with work := s.work.set (.country (E.readCountry value)) }
  | .workRegion => { s with work := s.work.set (.region value) }
  | .role => { s with a := s.a.setText .role value }
  | .department => { s with a := s.a.setDepartment value }
  | .member => { s with group := s.group.apply (.appendData (memberData value)) }
  | .revision =>
    { s with a := if value = q! "0Z" then s.a else if (vCardStringToDate value).isSome then s.a.setRevision E.toQtEnv (vCardStringToDate value) else s.a }
  | .groupName => { s with group := s.group.apply (.setName value) }
  | .birthYear => { s with birthyear := (toInt32 value).getD (-1) }
  | .birthMonth => { s with birthmonth := (toInt32 value).getD 0 }
  | .birthDay => { s with birthday := (toInt32 value).getD 0 }
  | .batBirthday =>
    let y := toIntQ (midQ value 0 4)
    let m := toIntQ (midQ value 4 2)
    let d := toIntQ (midQ value 6 2)
    { s with a := if validDate y m d then s.a.setBirthdayDate (some (y, m.toNat, d.toNat)) else s.a }
  | .unknown => s

/-- `evaluatePair`, ldifconverter.cpp:340-651. -/
def evaluatePair (E : LdifEnv) (ids : Nat → QString) (s : LdifState) (fieldname value : QString) : LdifState :=
  ldifApply E ids s (ldifField (!s.a.note.isEmpty) fieldname) value

/-- The variables at the start of an entry, ldifconverter.cpp:274-289, 317-321: everything is new but the birth date. -/
def ldifFresh (E : LdifEnv) (ids : Nat → QString) (qdt : QDateTime) (n : Nat) (birthday birthmonth birthyear : Int) : LdifState :=
  { next := n + 4, a := (Contact.new (ids n)).setRevision E.toQtEnv qdt, home := { id := ids (n + 1), type := 16 },
    work := { id := ids (n + 2), type := 32 }, birthday, birthmonth, birthyear, group := { id := ids (n + 3) } }

/-- What an entry adds to the lists, ldifconverter.cpp:299-316. -/
def ldifResult (s : LdifState) : List Contact × List Group :=
  if s.group.count = 0 then
    let a := if validDate s.birthyear s.birthmonth s.birthday then
      s.a.setBirthdayDate (some (s.birthyear, s.birthmonth.toNat, s.birthday.toNat)) else s.a
    if !a.formattedName.isEmpty || !a.name.isEmpty || !a.familyName.isEmpty then
      let a := if !s.home.empty then a.insertAddress s.home else a
      let a := if !s.work.empty then a.insertAddress s.work else a
      ([a], [])
    else ([], [])
  else ([], [s.group])

/-- The loop of `LDIFToAddressee`, ldifconverter.cpp:291-335. `k` bounds the number of rounds (`none`: not enough). -/
def ldifLoop (E : LdifEnv) (ids : Nat → QString) (qdt : QDateTime) : Nat → Ldif → Bool → LdifState → List Contact × List Group →
    Option (List Contact × List Group)
  | 0, _, _, _, _ => none
  | k + 1, ldif, endldif, s, out =>
    match ldif.nextItem with
    | (.item, ldif) => ldifLoop E ids qdt k ldif endldif (evaluatePair E ids s (toLowerQ ldif.attr) (fromUtf8 ldif.value)) out
    | (.endEntry, ldif) =>
      ldifLoop E ids qdt k ldif endldif (ldifFresh E ids qdt s.next s.birthday s.birthmonth s.birthyear)
        (out.1 ++ (ldifResult s).1, out.2 ++ (ldifResult s).2)
    | (.moreData, ldif) => if endldif then some out else ldifLoop E ids qdt k ldif.endLdif true s out
    | (_, ldif) => ldifLoop E ids qdt k ldif endldif s out

/-- `LDIFConverter::LDIFToAddressee`, ldifconverter.cpp:263-338: the contacts and groups appended to the lists (the function always returns
    true). `now` is `dt`, or the current time if `dt` is not valid. Every round reads at least a character or is one of two rounds at the end of
    the text, so that the bound on the rounds is never met. -/
def ldifToAddressee (E : LdifEnv) (ids : Nat → QString) (now : QDateTime) (str : QString) : Option (List Contact × List Group) :=
  if str.isEmpty then some ([], [])
  else ldifLoop E ids now (str.length + 6) ((({} : Ldif).startParsing []).setLdif (toLatin1 str)) false (ldifFresh E ids now 0 (-1) (-1) (-1)) ([], [])

end KC
