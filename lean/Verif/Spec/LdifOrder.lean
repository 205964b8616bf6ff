import Verif.Spec.LdifEntry
/-
  Specification: which attributes of an LDIF entry belong together (C85).
-/
namespace KC.Spec

/-- The names of attributes, together when they are about the same thing. -/
def ldifTopics : List (List QString) :=
  [[q! "cn"], [q! "sn"], [q! "givenname"], [q! "uid"], [q! "vocation"], [q! "title"], [q! "ou"], [q! "department"],
   [q! "nickname", q! "xmozillanickname", q! "mozillanickname"], [q! "o", q! "organization", q! "organizationname"],
   [q! "mail", q! "mozillasecondemail", q! "othermailbox"], noteNames, [q! "homeurl", q! "workurl", q! "mozillahomeurl"],
   ldifPhoneKinds.map (·.1), homeStreetNames ++ homeStreet2Names, [q! "mozillahomelocalityname"], [q! "mozillahomestate"], [q! "mozillahomepostalcode"],
   [q! "mozillahomecountryname"], workStreetNames ++ workStreet2Names, [q! "postalcode"], [q! "postofficebox"], [q! "locality", q! "l"],
   [q! "countryname", q! "c"], [q! "st"], [q! "modifytimestamp"], [q! "birthyear"], [q! "birthmonth"], [q! "birthday"], [q! "xbatbirthday"],
   [q! "member"], [q! "display-name"]]

/-- The attributes of an entry about a topic, in order, their names in small letters. -/
def LdifRecord.on (r : LdifRecord) (topic : List QString) : List (QString × QByteArray) :=
  (r.attrs.map fun a => (toLowerQ a.1, a.2)).filter fun a => decide (a.1 ∈ topic)

/-- The entries say the same, in the same order, on every topic. -/
def LdifRecord.SaysTheSame (r s : LdifRecord) : Prop := ∀ topic ∈ ldifTopics, r.on topic = s.on topic

/-- The same contact, but for the ids of its phone numbers and the way its time of revision is given. -/
def SameContact (E : QtEnv) (c d : Contact) : Prop :=
  c.phoneNumbers.map (fun p => (p.type, p.number)) = d.phoneNumbers.map (fun p => (p.type, p.number)) ∧ QDateTime.eq E c.revision d.revision = true ∧
    ({ c with phoneNumbers := [], revision := none } : Contact) = { d with phoneNumbers := [], revision := none }

end KC.Spec
