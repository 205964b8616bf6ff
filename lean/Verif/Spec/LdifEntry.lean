import Verif.Spec.LdifConverter
import Verif.Spec.Maps
/-
  Specification: what an LDIF entry says about a contact or a group, attribute by attribute.
-/
namespace KC.Spec

/-- The values of the attributes with one of these names (in any case), in order. -/
def LdifRecord.values (r : LdifRecord) (names : List QString) : List QString :=
  (r.attrs.filter fun a => decide (toLowerQ a.1 ∈ names)).map fun a => fromUtf8 a.2

/-- The last of these values; the empty text if there is none. -/
def LdifRecord.last (r : LdifRecord) (names : List QString) : QString := (r.values names).getLast?.getD []

/-- A list with the last of these values, if they are not all empty. -/
def LdifRecord.single (r : LdifRecord) (names : List QString) : List ParamText :=
  (((r.values names).dropWhile (·.isEmpty)).getLast?).toList.map fun t => { text := t }

/-- The values of the attributes with a name in the table, each with what the table says about the name. -/
def LdifRecord.kinded {K : Type} (r : LdifRecord) (table : List (QString × K)) : List (K × QString) :=
  r.attrs.filterMap fun a => (table.find? fun p => decide (p.1 = toLowerQ a.1)).map fun p => (p.2, fromUtf8 a.2)

/-- A street given by attributes for the street (the last one counts) and attributes for further lines of it. -/
def LdifRecord.street (r : LdifRecord) (main further : List QString) : QString :=
  (r.kinded (main.map (fun n => (n, true)) ++ further.map fun n => (n, false))).foldl (fun s p => if p.1 then p.2 else s ++ q! "\n" ++ p.2) []

/-- A country: a code of at most two letters that is known stands for the name. -/
def LdifRecord.country (E : LdifEnv) (r : LdifRecord) (names : List QString) : QString :=
  let v := r.last names
  if r.values names = [] then [] else if v.length ≤ 2 then (E.countryOf v).getD v else v

/-- A number; `otherwise` if the last value is none. -/
def LdifRecord.number (r : LdifRecord) (name : QString) (otherwise : Int) : Int :=
  match (r.values [name]).getLast? with
  | some v => (toInt32 v).getD otherwise
  | none => -1

/-- A date of eight digits. -/
def eightDigits (v : QString) : Option (Int × Nat × Nat) :=
  let y := toIntQ (v.take 4)
  let m := toIntQ ((v.drop 4).take 2)
  let d := toIntQ ((v.drop 6).take 2)
  if RealDay (y, m.toNat, d.toNat) then some (y, m.toNat, d.toNat) else none

/-- The birthday: year, month and day each in its own attribute, if they are a day of the calendar; otherwise the last of the dates of eight digits. -/
def LdifRecord.birthDate (r : LdifRecord) : Option (Int × Nat × Nat) :=
  let d := (r.number (q! "birthyear") (-1), (r.number (q! "birthmonth") 0).toNat, (r.number (q! "birthday") 0).toNat)
  if RealDay d then some d else ((r.values [q! "xbatbirthday"]).filterMap eightDigits).getLast?

/-- The kinds of phone numbers: home 1, work 2, fax 32, cell 64, pager 8192. -/
def ldifPhoneKinds : List (QString × Nat) :=
  [(q! "homephone", 1), (q! "telephonenumber", 2), (q! "xmozillaanyphone", 2), (q! "facsimiletelephonenumber", 32), (q! "mobile", 64), (q! "cellphone", 64),
   (q! "pager", 8192), (q! "pagerphone", 8192)]

def homeStreetNames : List QString := [q! "streethomeaddress", q! "mozillahomestreet", q! "homepostaladdress"]
def homeStreet2Names : List QString := [q! "mozillahomepostaladdress2"]
def workStreetNames : List QString := [q! "street", q! "postaladdress", q! "streetaddress"]
def workStreet2Names : List QString := [q! "mozillapostaladdress2", q! "mozillaworkstreet2"]
def homeNames : List QString :=
  homeStreetNames ++ homeStreet2Names ++ [q! "mozillahomelocalityname", q! "mozillahomestate", q! "mozillahomepostalcode", q! "mozillahomecountryname"]
def workNames : List QString :=
  workStreetNames ++ workStreet2Names ++ [q! "postalcode", q! "postofficebox", q! "locality", q! "l", q! "countryname", q! "c", q! "st"]
def noteNames : List QString :=
  [q! "description", q! "mozillacustom1", q! "mozillacustom2", q! "mozillacustom3", q! "mozillacustom4", q! "custom1", q! "custom2", q! "custom3", q! "custom4"]

/-- The home address, with the UUID `id`. -/
def LdifRecord.home (E : LdifEnv) (r : LdifRecord) (id : QString) : Address :=
  { empty := false, id, type := 16, street := r.street homeStreetNames homeStreet2Names, locality := r.last [q! "mozillahomelocalityname"],
    region := r.last [q! "mozillahomestate"], postalCode := r.last [q! "mozillahomepostalcode"], country := r.country E [q! "mozillahomecountryname"] }

/-- The work address, with the UUID `id`. -/
def LdifRecord.work (E : LdifEnv) (r : LdifRecord) (id : QString) : Address :=
  { empty := false, id, type := 32, street := r.street workStreetNames workStreet2Names, locality := r.last [q! "locality", q! "l"],
    region := r.last [q! "st"], postalCode := r.last [q! "postalcode"], country := r.country E [q! "countryname", q! "c"],
    postOfficeBox := r.last [q! "postofficebox"] }

/-- The contact `c` is what the entry `r` says: `ids` gives new UUIDs, `now` is the time of the import. -/
structure LdifImported (E : LdifEnv) (ids : Nat → QString) (now : QDateTime) (r : LdifRecord) (c : Contact) : Prop where
  uid : c.uid = (r.values [q! "uid"]).getLast?.getD (ids 0)
  givenName : c.givenName = r.last [q! "givenname"]
  familyName : c.familyName = r.last [q! "sn"]
  formattedName : c.formattedName = r.last [q! "cn"]
  prefix_ : c.prefix_ = r.last [q! "vocation"]
  nickNames : c.nickNames = r.single [q! "nickname", q! "xmozillanickname", q! "mozillanickname"]
  titles : c.titles = r.single [q! "title"]
  roles : c.roles = r.single [q! "ou"]
  organizations : c.organizations = r.single [q! "o", q! "organization", q! "organizationname"]
  department : c.department = r.last [q! "department"]
  /-- every address once, in the order of the entry -/
  emails : c.emails = (distinct (r.values [q! "mail", q! "mozillasecondemail", q! "othermailbox"])).map fun m => { mail := m }
  /-- all remarks, on lines of their own; empty ones before the first are dropped -/
  note : c.note = List.intercalate (q! "\n") ((r.values noteNames).dropWhile (·.isEmpty))
  /-- the first valid URL -/
  urls : c.extraUrls = ((((r.values [q! "homeurl", q! "workurl", q! "mozillahomeurl"]).map E.urlOf).filter E.urlValid).take 1).map fun u => { url := u }
  /-- all phone numbers that are not blank, in order, each with its kind -/
  phones : c.phoneNumbers.map (fun p => (p.type, p.number)) =
    ((r.kinded ldifPhoneKinds).map fun p => (p.1, simplified p.2)).filter fun p => decide (p.2 ≠ [])
  phoneParams : ∀ p ∈ c.phoneNumbers, p.params = []
  phoneIds : (c.phoneNumbers.map (·.id)).Nodup
  addresses : c.addresses = (if r.values homeNames = [] then [] else [r.home E (ids 1)]) ++ (if r.values workNames = [] then [] else [r.work E (ids 2)])
  /-- the last valid time stamp, or the time of the import -/
  revision : QDateTime.eq E.toQtEnv c.revision ((((r.values [q! "modifytimestamp"]).map vCardStringToDate).filter (·.isSome)).getLast?.getD now) = true
  revisionFrom : c.revision = now ∨ ∃ v ∈ r.values [q! "modifytimestamp"], c.revision = vCardStringToDate v
  birthday : c.birthday = r.birthDate.map fun d => { date := d, time := (0, 0, 0, 0), zone := none }
  notEmpty : c.empty = false
  /-- and nothing else -/
  rest : ({ c with uid := [], givenName := [], familyName := [], formattedName := [], prefix_ := [], nickNames := [], titles := [], roles := [],
                   organizations := [], department := [], emails := [], note := [], extraUrls := [], phoneNumbers := [], addresses := [],
                   revision := none, birthday := none, empty := true } : Contact) = { uid := [] }

/-- The part of the value of a member that begins with `key`; of several the last. -/
def memberPart (key v : QString) : QString :=
  (((splitOn (qc! ',') v).filter fun s => startsWith key s).getLast?.map fun s => trimmedQ (s.drop key.length)).getD []

/-- A member of a group: name and e-mail address, the address in angle brackets after a space if there is a name. -/
def memberOf (v : QString) : GroupData :=
  let name := memberPart (q! "cn=") v
  let mail := memberPart (q! "mail=") v
  { name := name, email := if name ≠ [] ∧ mail ≠ [] then q! " <" ++ mail ++ q! ">" else mail }

end KC.Spec
