import Verif.Spec.Built
import Verif.Spec.LdifEntry
/-
  Specification: LDIF entries that say nothing a vCard of a given version could not carry, one condition for each kind of attribute.
-/
namespace KC.Spec

structure RecordFits (E : LdifEnv) (v : Version) (r : LdifRecord) : Prop where
  uid : ∀ s ∈ r.values [q! "uid"], SafeText s ∧ s ≠ []
  formattedName : ∀ s ∈ r.values [q! "cn"], CodedText E.toCodecs v s
  nameParts : ∀ s ∈ r.values [q! "givenname", q! "sn", q! "vocation"], EasyText v s
  department : ∀ s ∈ r.values [q! "department"], EasyText v s
  nickNames : ∀ s ∈ r.values [q! "nickname", q! "xmozillanickname", q! "mozillanickname"], EntryFits v .nickName { text := s }
  titles : ∀ s ∈ r.values [q! "title"], EntryFits v .title { text := s }
  roles : ∀ s ∈ r.values [q! "ou"], EntryFits v .role { text := s }
  organizations : ∀ s ∈ r.values [q! "o", q! "organization", q! "organizationname"], EntryFits v .organization { text := s }
  emails : ∀ s ∈ r.values [q! "mail", q! "mozillasecondemail", q! "othermailbox"], SafeText s ∧ s ≠ []
  /-- all remarks together -/
  note : CodedText E.toCodecs v (List.intercalate (q! "\n") ((r.values noteNames).dropWhile (·.isEmpty)))
  urls : ∀ s ∈ r.values [q! "homeurl", q! "workurl", q! "mozillahomeurl"], E.urlValid (E.urlOf s) = true → UrlText E.toToolEnv (E.urlOf s)
  phones : ∀ p ∈ r.kinded ldifPhoneKinds, SafeText (simplified p.2)
  home : r.values homeNames ≠ [] → AddressOK E.toToolEnv v (r.home E [])
  work : r.values workNames ≠ [] → AddressOK E.toToolEnv v (r.work E [])
  /-- four digits are enough for the year of birth -/
  birthYear : ∀ d, r.birthDate = some d → 1 ≤ d.1 ∧ d.1 ≤ 9999

end KC.Spec
