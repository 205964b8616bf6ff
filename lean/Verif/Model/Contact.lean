import Verif.Model.Values
/-
  `Addressee`: src/addressee.cpp. The data of a contact and the operations on it.
-/
namespace KC

/-- `Addressee::Private`, addressee.cpp:129-181. Custom fields are `(qualified name, value)` pairs. -/
structure Contact where
  uid : QString
  name : QString := []
  formattedName : QString := []
  familyName : QString := []
  givenName : QString := []
  additionalName : QString := []
  prefix_ : QString := []
  suffix : QString := []
  birthday : QDateTime := none
  birthdayWithTime : Bool := false
  mailer : QString := []
  timeZone : TimeZone := {}
  geo : Geo := {}
  department : QString := []
  note : QString := []
  productId : QString := []
  revision : QDateTime := none
  sortString : QString := []
  secrecy : Secrecy := .invalid
  logo : Picture := {}
  photo : Picture := {}
  sound : Sound := {}
  deathDate : QDateTime := none
  phoneNumbers : List PhoneNumber := []
  addresses : List Address := []
  keys : List Key := []
  emails : List Email := []
  langs : List ParamText := []
  impps : List ParamUrl := []
  gender : Gender := {}
  kind : QString := []
  categories : List QString := []
  customs : SMap QString := []
  calendarUrls : List CalendarUrl := []
  extraSounds : List Sound := []
  extraPhotos : List Picture := []
  extraLogos : List Picture := []
  extraUrls : List ParamUrl := []
  sources : List QString := []
  members : List QString := []
  relationships : List ParamText := []
  fieldGroups : List FieldGroup := []
  titles : List ParamText := []
  roles : List ParamText := []
  organizations : List ParamText := []
  nickNames : List ParamText := []
  clientPidMaps : List ParamText := []
  empty : Bool := true
  changed : Bool := false
deriving DecidableEq

/-- `Addressee::Addressee()`, addressee.cpp:55-62, 183-186: a new contact with the fresh uid `u`. -/
def Contact.new (u : QString) : Contact := { uid := u }

/-! ### lists keyed by a name or id

`std::find_if` followed by assignment through the iterator, or `erase`, over a list of objects with a key. -/

section
variable {α : Type}

/-- `*it = x` for the first element with the key (the list is unchanged if there is none). -/
def replaceFirst (key : α → QString) (k : QString) (x : α) : List α → List α
  | [] => []
  | y :: t => if key y = k then x :: t else y :: replaceFirst key k x t

/-- `erase(it)` for the first element with the key. -/
def eraseFirst (key : α → QString) (k : QString) : List α → List α
  | [] => []
  | y :: t => if key y = k then t else y :: eraseFirst key k t

/-- `std::find_if` by key. -/
def findFirst (key : α → QString) (k : QString) : List α → Option α
  | [] => none
  | y :: t => if key y = k then some y else findFirst key k t

/-- `std::rotate(begin, it, it + 1)` for the first element with the key: move it to the front. -/
def rotateToFront (key : α → QString) (k : QString) (l : List α) : List α :=
  match findFirst key k l with
  | none => l
  | some x => x :: eraseFirst key k l

/-- The loop `for (i = 0; i < size; ++i) if (key(at(i)) == k) removeAt(i);` of `removeEmail` and `removeLang`,
    addressee.cpp:1664-1671, 1716-1723: after a removal the index still advances, so the next element is not looked at. -/
def removeSkipping (key : α → QString) (k : QString) : List α → List α
  | [] => []
  | [y] => if key y = k then [] else [y]
  | y :: z :: t => if key y = k then z :: removeSkipping key k t else y :: removeSkipping key k (z :: t)

end

/-! ### emails -/

/-- `Addressee::addEmail`, addressee.cpp:1640-1662. -/
def Contact.addEmail (c : Contact) (e : Email) : Contact :=
  match findFirst Email.mail e.mail c.emails with
  | some _ =>
    let l := replaceFirst Email.mail e.mail e c.emails
    { c with emails := if e.isPreferred then rotateToFront Email.mail e.mail l else l }
  | none => { c with empty := false, emails := if e.isPreferred then e :: c.emails else c.emails ++ [e] }

/-- `Addressee::removeEmail`, addressee.cpp:1664-1671. -/
def Contact.removeEmail (c : Contact) (mail : QString) : Contact :=
  { c with emails := removeSkipping Email.mail mail c.emails }

/-- `Addressee::preferredEmail`, addressee.cpp:1673-1680. -/
def Contact.preferredEmail (c : Contact) : QString :=
  match c.emails with
  | [] => []
  | e :: _ => e.mail

/-- `Addressee::emails`, addressee.cpp:1682-1692. -/
def Contact.emailAddresses (c : Contact) : List QString := c.emails.map (·.mail)

/-- `Addressee::setEmails`, addressee.cpp:1699-1708. -/
def Contact.setEmails (c : Contact) (l : List QString) : Contact :=
  { c with emails := l.map fun m => { mail := m }, empty := false }

/-- `Addressee::setEmailList`, addressee.cpp:1710-1714. -/
def Contact.setEmailList (c : Contact) (l : List Email) : Contact := { c with emails := l, empty := false }

/-! ### languages -/

/-- `Addressee::removeLang`, addressee.cpp:1716-1723. -/
def Contact.removeLang (c : Contact) (language : QString) : Contact :=
  { c with langs := removeSkipping ParamText.text language c.langs }

/-- `Addressee::insertLang`, addressee.cpp:1731-1748: an existing entry keeps its text and gets the new parameters. -/
def Contact.insertLang (c : Contact) (l : ParamText) : Contact :=
  if (simplified l.text).isEmpty then c
  else
    match findFirst ParamText.text l.text c.langs with
    | some x => { c with empty := false, langs := replaceFirst ParamText.text l.text { x with params := l.params } c.langs }
    | none => { c with empty := false, langs := c.langs ++ [l] }

/-! ### phone numbers -/

/-- `Addressee::insertPhoneNumber`, addressee.cpp:1770-1785. -/
def Contact.insertPhoneNumber (c : Contact) (p : PhoneNumber) : Contact :=
  match findFirst PhoneNumber.id p.id c.phoneNumbers with
  | some _ => { c with empty := false, phoneNumbers := replaceFirst PhoneNumber.id p.id p c.phoneNumbers }
  | none =>
    { c with empty := false, phoneNumbers := if (simplified p.number).isEmpty then c.phoneNumbers else c.phoneNumbers ++ [p] }

/-- `Addressee::removePhoneNumber`, addressee.cpp:1787-1796. -/
def Contact.removePhoneNumber (c : Contact) (p : PhoneNumber) : Contact :=
  { c with phoneNumbers := eraseFirst PhoneNumber.id p.id c.phoneNumbers }

/-- `matchBinaryPattern`, addressee.cpp:2646-2659. -/
def matchBinaryPattern (value pattern : Nat) : Bool := if pattern = 0 then value = 0 else pattern = pattern &&& value

/-- Loop of `Addressee::phoneNumber(type)`, addressee.cpp:1802-1810. -/
def phoneLoop (type : Nat) (current : PhoneNumber) : List PhoneNumber → PhoneNumber
  | [] => current
  | p :: t =>
    if matchBinaryPattern p.type type then
      if p.type &&& phonePref ≠ 0 then p
      else if current.number.isEmpty then phoneLoop type p t
      else phoneLoop type current t
    else phoneLoop type current t

/-- `Addressee::phoneNumber(type)`, addressee.cpp:1798-1813; `fresh` is the id of the local object. -/
def Contact.phoneNumber (c : Contact) (fresh : QString) (type : Nat) : PhoneNumber :=
  phoneLoop type (PhoneNumber.mk' fresh [] type) c.phoneNumbers

/-- `Addressee::phoneNumbers(type)`, addressee.cpp:1827-1835. -/
def Contact.phoneNumbersOf (c : Contact) (type : Nat) : List PhoneNumber :=
  c.phoneNumbers.filter fun p => matchBinaryPattern p.type type

/-- `Addressee::findPhoneNumber`, addressee.cpp:1837-1844: a default object (with a fresh id) when there is none. -/
def Contact.findPhoneNumber (c : Contact) (fresh : QString) (id : QString) : PhoneNumber :=
  (findFirst PhoneNumber.id id c.phoneNumbers).getD { id := fresh }

/-! ### keys -/

/-- `Addressee::insertKey`, addressee.cpp:1846-1858. -/
def Contact.insertKey (c : Contact) (k : Key) : Contact :=
  match findFirst Key.id k.id c.keys with
  | some _ => { c with empty := false, keys := replaceFirst Key.id k.id k c.keys }
  | none => { c with empty := false, keys := c.keys ++ [k] }

/-- `Addressee::removeKey`, addressee.cpp:1860-1866 (`remove_if` and `erase`: all with the id). -/
def Contact.removeKey (c : Contact) (k : Key) : Contact := { c with keys := c.keys.filter fun x => x.id ≠ k.id }

/-- The condition of `Addressee::key` and `Addressee::keys(type, custom)`, addressee.cpp:1868-1886, 1899-1922. -/
def keyMatches (type : KeyType) (custom : QString) (k : Key) : Bool :=
  if k.type = type then
    if type = .custom then
      if custom.isEmpty then true else k.customTypeString = custom
    else true
  else false

/-- `Addressee::key`, addressee.cpp:1868-1886. -/
def Contact.key (c : Contact) (fresh : QString) (type : KeyType) (custom : QString) : Key :=
  (c.keys.find? (keyMatches type custom)).getD (Key.mk' fresh [] type)

/-- `Addressee::keys(type, custom)`, addressee.cpp:1899-1922. -/
def Contact.keysOf (c : Contact) (type : KeyType) (custom : QString) : List Key := c.keys.filter (keyMatches type custom)

/-- `Addressee::findKey`, addressee.cpp:1924-1931. -/
def Contact.findKey (c : Contact) (fresh : QString) (id : QString) : Key := (findFirst Key.id id c.keys).getD { id := fresh }

/-! ### addresses -/

/-- `Addressee::insertAddress`, addressee.cpp:2006-2023. -/
def Contact.insertAddress (c : Contact) (a : Address) : Contact :=
  if a.empty then c
  else
    match findFirst Address.id a.id c.addresses with
    | some _ => { c with empty := false, addresses := replaceFirst Address.id a.id a c.addresses }
    | none => { c with empty := false, addresses := c.addresses ++ [a] }

/-- `Addressee::removeAddress`, addressee.cpp:2025-2033. -/
def Contact.removeAddress (c : Contact) (a : Address) : Contact :=
  { c with addresses := eraseFirst Address.id a.id c.addresses }

/-- Loop of `Addressee::address(type)`, addressee.cpp:2044-2052. -/
def addressLoop (type : Nat) (current : Address) : List Address → Address
  | [] => current
  | a :: t =>
    if matchBinaryPattern a.type type then
      if a.type &&& addressPref ≠ 0 then a
      else if current.empty then addressLoop type a t
      else addressLoop type current t
    else addressLoop type current t

/-- `Addressee::address(type)`, addressee.cpp:2041-2055; `Address(type)` (address.cpp:72-76) is empty. -/
def Contact.address (c : Contact) (fresh : QString) (type : Nat) : Address :=
  addressLoop type { id := fresh, type := type } c.addresses

/-- `Addressee::addresses(type)`, addressee.cpp:2062-2071. -/
def Contact.addressesOf (c : Contact) (type : Nat) : List Address :=
  c.addresses.filter fun a => matchBinaryPattern a.type type

/-- `Addressee::findAddress`, addressee.cpp:2073-2079. -/
def Contact.findAddress (c : Contact) (fresh : QString) (id : QString) : Address :=
  (findFirst Address.id id c.addresses).getD { id := fresh }

/-! ### categories, members, relationships -/

/-- `Addressee::insertCategory`, addressee.cpp:2081-2090. -/
def Contact.insertCategory (c : Contact) (s : QString) : Contact :=
  { c with empty := false, categories := if s ∈ c.categories then c.categories else c.categories ++ [s] }

/-- `Addressee::removeCategory`, addressee.cpp:2092-2097. -/
def Contact.removeCategory (c : Contact) (s : QString) : Contact :=
  if s ∈ c.categories then { c with categories := c.categories.filter (· ≠ s) } else c

/-- `Addressee::hasCategory`, addressee.cpp:2099-2102. -/
def Contact.hasCategory (c : Contact) (s : QString) : Bool := s ∈ c.categories

/-- `Addressee::insertMember`, addressee.cpp:2116-2125. -/
def Contact.insertMember (c : Contact) (s : QString) : Contact :=
  { c with empty := false, members := if s ∈ c.members then c.members else c.members ++ [s] }

/-- `Addressee::insertRelationship`, addressee.cpp:2138-2147. -/
def Contact.insertRelationship (c : Contact) (r : ParamText) : Contact :=
  { c with empty := false, relationships := if r ∈ c.relationships then c.relationships else c.relationships ++ [r] }

/-! ### custom fields -/

/-- `app + '-' + name`, addressee.cpp:2275, 2289, 2298. -/
def qualifiedName (app name : QString) : QString := app ++ qc! '-' :: name

/-- `Addressee::insertCustom`, addressee.cpp:2267-2285. -/
def Contact.insertCustom (c : Contact) (app name value : QString) : Contact :=
  if value.isEmpty || name.isEmpty || app.isEmpty then c
  else
    let q := qualifiedName app name
    match c.customs.find q with
    | some _ => { c with empty := false, customs := c.customs.modify q fun _ => value }
    | none => { c with empty := false, customs := c.customs.insertSorted q value }

/-- `Addressee::removeCustom`, addressee.cpp:2287-2294. -/
def Contact.removeCustom (c : Contact) (app name : QString) : Contact :=
  { c with customs := c.customs.eraseFirst (qualifiedName app name) }

/-- `Addressee::custom`, addressee.cpp:2296-2301. -/
def Contact.custom (c : Contact) (app name : QString) : QString := (c.customs.find (qualifiedName app name)).getD []

/-- The loop of `Addressee::setCustoms`, addressee.cpp:2309-2325: `acc` holds the fields pushed so far (their names are `seen`). -/
def setCustomsLoop (acc : SMap QString) : List QString → SMap QString
  | [] => acc
  | s :: t =>
    match indexOf? (qc! ':') s with
    | none => setCustomsLoop acc t
    | some i =>
      if acc.any fun p => p.1 = s.take i then setCustomsLoop acc t
      else setCustomsLoop (acc ++ [(s.take i, s.drop (i + 1))]) t

/-- `std::sort` by name, addressee.cpp:2326 (insertion sort; the names are distinct, so the sorted order is unique). -/
def sortByName (m : SMap QString) : SMap QString := m.foldl (fun acc p => acc.insertSorted p.1 p.2) []

/-- `Addressee::setCustoms`, addressee.cpp:2303-2326. -/
def Contact.setCustoms (c : Contact) (l : List QString) : Contact :=
  { c with empty := false, customs := sortByName (setCustomsLoop [] l) }

/-- `Addressee::customs`, addressee.cpp:2328-2339. -/
def Contact.customsList (c : Contact) : List QString := c.customs.map fun p => p.1 ++ qc! ':' :: p.2

/-! ### named custom fields: addressee.cpp:2160-2265 -/

/-- `VENDOR_ID`, addressee.cpp:2160. -/
def vendorId : QString := q! "KADDRESSBOOK"

/-- `setAssistantsName`, `setManagersName`, `setOffice`, `setProfession`, `setSpousesName`, `setBlogFeed`,
    addressee.cpp:2188-2265: store the text under the field's name, or remove the field when it is empty. -/
def Contact.setNamedCustom (c : Contact) (field value : QString) : Contact :=
  if !value.isEmpty then c.insertCustom vendorId field value else c.removeCustom vendorId field

/-! ### the first entry of a list as "the" field -/

/-- `setNickName`/`setTitle`/`setRole`/`setOrganization` with a text: addressee.cpp:781-792, 1062-1073, 1113-1124, 1164-1175:
    change the text of the first entry, or add an entry if the list is empty and the text is not. -/
def setFirstText (l : List ParamText) (s : QString) : List ParamText :=
  match l with
  | t :: r => { t with text := s } :: r
  | [] => if s.isEmpty then [] else [{ text := s }]

/-- `nickName()`/`title()`/`role()`/`organization()`: addressee.cpp:818-825, 1088-1095, 1150-1157, 1201-1208. -/
def firstText (l : List ParamText) : QString :=
  match l with
  | t :: _ => t.text
  | [] => []

end KC
