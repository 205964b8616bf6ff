import Verif.Model.LdifConverter
import Verif.Spec.Ldif
import Verif.Spec.Sample
import Verif.Spec.DateTime
/-
  Specification side of the LDIF import and export.
-/
namespace KC.Spec

/-- The text of a document is handed over as a QString with one code unit for each byte. -/
def documentString (t : QByteArray) : QString := fromLatin1 t

/-- The record has a value for the attribute (in any case). -/
def LdifRecord.Has (r : LdifRecord) (name : QString) : Prop := ∃ a ∈ r.attrs, toLowerQ a.1 = name

/-- The names of the parts of a birth date. -/
def birthNames : List QString := [q! "birthyear", q! "birthmonth", q! "birthday"]

/-- Two entries, one before the other, cannot be mixed up in their birth dates: the first says nothing about it, or the second says all of it. -/
def BirthApart (r r' : LdifRecord) : Prop := (∀ n ∈ birthNames, ¬ r.Has n) ∨ (∀ n ∈ birthNames, r'.Has n)

/-- An entry that begins with all that the entries before it say about birth dates (behind an attribute that means nothing to the import). -/
def inheriting (earlier : List LdifRecord) (r : LdifRecord) : LdifRecord :=
  ⟨r.dn, (q! "objectclass", b! "top") :: ((earlier.flatMap (·.attrs)).filter (fun a => toLowerQ a.1 ∈ birthNames) ++ r.attrs)⟩

/-- A contact without its birthday. -/
def noBirthday (c : Contact) : Contact := { c with birthday := none, birthdayWithTime := false, empty := false }

/-- Importing a document, the UUIDs counted from `k`. -/
def ImportGives (E : LdifEnv) (ids : Nat → QString) (now : QDateTime) (k : Nat) (text : QByteArray) (r : List Contact × List Group) : Prop :=
  ldifToAddressee E (fun i => ids (k + i)) now (documentString text) = some r

/-! ### contacts in LDIF -/

/-- A text that survives the conversion to UTF-8 and back: paired surrogates, no byte order mark in front. -/
def LdifValue (s : QString) : Prop := WellFormed s ∧ s.head? ≠ some 0xFEFF

/-- A street of at most two lines, none of them empty (or no street at all). -/
def StreetOK (s : QString) : Prop := s = [] ∨ qc! '\n' ∉ s ∨ ∃ x y, s = x ++ qc! '\n' :: y ∧ x ≠ [] ∧ y ≠ [] ∧ qc! '\n' ∉ x ∧ qc! '\n' ∉ y

/-- A street, town, ... of the address can be expressed. -/
structure LdifAddressOK (E : LdifEnv) (a : Address) : Prop where
  street : StreetOK a.street ∧ LdifValue a.street
  lines : ∀ x y, a.street = x ++ qc! '\n' :: y → LdifValue x ∧ LdifValue y
  locality : LdifValue a.locality
  region : LdifValue a.region
  postalCode : LdifValue a.postalCode
  postOfficeBox : LdifValue a.postOfficeBox
  country : LdifValue a.country
  /-- the country is not a code that stands for a name -/
  countryName : E.countryName a.country = a.country

/-- The department of a contact, with an older place for it. -/
def departmentOf (c : Contact) : QString := if c.department.isEmpty then c.custom (q! "KADDRESSBOOK") (q! "X-Department") else c.department

/-- Contacts whose supported fields can be expressed in LDIF. -/
structure LdifReadable (E : LdifEnv) (c : Contact) : Prop where
  notEmpty : c.empty = false
  named : simplified c.formattedName ≠ [] ∨ c.familyName ≠ []
  texts : ∀ s ∈ [c.givenName, c.familyName, simplified c.formattedName, c.uid, c.text .nickName, c.text .title, c.prefix_, c.text .role,
                 c.text .organization, departmentOf c, E.urlDisplay c.url.url, c.note], LdifValue s
  uid : c.uid ≠ []
  emails : c.emailAddresses.Nodup ∧ ∀ e ∈ c.emailAddresses, e ≠ [] ∧ LdifValue e
  phones : ∀ p ∈ c.phoneNumbers, simplified p.number = p.number ∧ LdifValue p.number
  home : ∀ fresh, LdifAddressOK E (c.address fresh 16)
  work : ∀ fresh, LdifAddressOK E (c.address fresh 32)
  /-- the URL can be made again from the text shown -/
  url : (c.url.url = [] ∧ E.urlDisplay [] = []) ∨
        (c.url.url ≠ [] ∧ E.urlDisplay c.url.url ≠ [] ∧ E.urlOf (E.urlDisplay c.url.url) = c.url.url ∧ E.urlValid c.url.url = true)
  revision : ∀ d, c.revision = some d → (1 ≤ d.date.1 ∧ d.date.1 ≤ 9999) ∧ RealDay d.date ∧ d.time.1 < 24 ∧ d.time.2.1 < 60 ∧ d.time.2.2.1 < 60
  birthday : ∀ d, c.birthday = some d → (d.date.1 = -1 ∨ (1 ≤ d.date.1 ∧ d.date.1 ≤ 2147483647)) ∧ RealDay d.date

/-- The kinds of phone numbers LDIF has a place for: home, work, fax, cell, pager. -/
def ldifPhoneTypes : List Nat := [1, 2, 32, 64, 8192]

/-- The contact `a` has the supported fields of `c`. -/
structure LdifSurvives (E : LdifEnv) (c a : Contact) : Prop where
  givenName : a.givenName = c.givenName
  familyName : a.familyName = c.familyName
  formattedName : a.formattedName = simplified c.formattedName
  uid : a.uid = c.uid
  texts : ∀ k, a.text k = c.text k
  prefix_ : a.prefix_ = c.prefix_
  department : a.department = departmentOf c
  note : a.note = c.note
  emails : a.emailAddresses = c.emailAddresses
  phones : ∀ t ∈ ldifPhoneTypes, ∀ fresh fresh', (a.phoneNumber fresh t).number = (c.phoneNumber fresh' t).number
  home : ∀ fresh fresh', let x := a.address fresh 16; let y := c.address fresh' 16
         x.street = y.street ∧ x.locality = y.locality ∧ x.region = y.region ∧ x.postalCode = y.postalCode ∧ x.country = y.country
  work : ∀ fresh fresh', let x := a.address fresh 32; let y := c.address fresh' 32
         x.street = y.street ∧ x.locality = y.locality ∧ x.region = y.region ∧ x.postalCode = y.postalCode ∧ x.country = y.country ∧ x.postOfficeBox = y.postOfficeBox
  url : a.url.url = c.url.url
  /-- the same clock time, now in the local time zone -/
  revision : ∀ d, c.revision = some d → QDateTime.eq E.toQtEnv a.revision (some { d with time := (d.time.1, d.time.2.1, d.time.2.2.1, 0), zone := none }) = true
  birthday : a.birthday.map (·.date) = c.birthday.map (·.date)

/-- In a list, no contact leaves its birth date to a later one without a full birth date. -/
def BirthdaysApart (c c' : Contact) : Prop := c.birthday = none ∨ ∃ d, c'.birthday = some d ∧ 0 < d.date.1

/-- Functions outside the library, for examples: one country is known. -/
def sampleLdifEnv : LdifEnv := { Sample.env with countryOf := fun s => if s = q! "DE" then some (q! "Germany") else none }

/-- A moment, for examples. -/
def sampleNow : QDateTime := some { date := (2024, 3, 9), time := (12, 30, 5, 0), zone := none }

end KC.Spec
