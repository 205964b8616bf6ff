import Verif.Model.Properties
import Verif.Spec.DateTime
/- Specification: the properties of a contact that scripts can read and write. -/
namespace KC.Spec

/-- The properties that can be written, by the type of their values. -/
def writable : PropertyValue → List QString
  | .text _ => [q! "uid", q! "name", q! "formattedName", q! "familyName", q! "givenName", q! "additionalName", q! "prefix", q! "suffix", q! "mailer", q! "department",
      q! "note", q! "productId", q! "sortString", q! "assistantsName", q! "managersName", q! "office", q! "profession", q! "spousesName"]
  | .flag _ => [q! "changed"]
  | .moment _ => [q! "birthday", q! "deathDate"]
  | .day _ => [q! "anniversary"]
  | .position _ => [q! "geo"]
  | .link _ => [q! "blogFeed"]
  | .locator _ => [q! "url"]
  | .locators _ => [q! "extraUrls"]
  | .emails _ => [q! "emails"]
  | .phoneNumbers _ => [q! "phoneNumbers"]
  | .addresses _ => [q! "addresses"]
  | .texts _ => [q! "categories"]
  | .impps _ => [q! "impps"]
  | .picture _ => [q! "photo"]

/-- The properties that can only be read. -/
def readOnly : List QString :=
  [q! "isEmpty", q! "nickName", q! "birthdayHasTime", q! "title", q! "role", q! "organization", q! "revision", q! "realName", q! "assembledName", q! "preferredEmail",
   q! "customs"]

/-- The other properties in which the value of a property can be seen (besides `isEmpty`). -/
def seenIn : List (QString × List QString) :=
  [(q! "name", [q! "realName"]), (q! "formattedName", [q! "realName"]),
   (q! "familyName", [q! "realName", q! "assembledName"]), (q! "givenName", [q! "realName", q! "assembledName"]),
   (q! "additionalName", [q! "realName", q! "assembledName"]), (q! "prefix", [q! "realName", q! "assembledName"]),
   (q! "suffix", [q! "realName", q! "assembledName"]),
   (q! "birthday", [q! "birthdayHasTime"]), (q! "url", [q! "extraUrls"]), (q! "extraUrls", [q! "url"]), (q! "emails", [q! "preferredEmail"]),
   (q! "anniversary", [q! "customs"]), (q! "assistantsName", [q! "customs"]), (q! "blogFeed", [q! "customs"]), (q! "managersName", [q! "customs"]),
   (q! "office", [q! "customs"]), (q! "profession", [q! "customs"]), (q! "spousesName", [q! "customs"])]

/-- Writing the property `name` can be seen in the property `other`. -/
def Touches (name other : QString) : Prop :=
  other = name ∨ other = q! "isEmpty" ∨ ∃ e ∈ seenIn, e.1 = name ∧ other ∈ e.2

instance (name other : QString) : Decidable (Touches name other) := by unfold Touches; infer_instance

/-- `w` is the value `v`, or compares equal to it with the operator `==` of its type. -/
def SameValue (E : ToolEnv) : PropertyValue → PropertyValue → Prop
  | .moment d, .moment d' => d = d' ∨ QDateTime.eq E.toQtEnv d d' = true
  | .position g, .position g' => g = g' ∨ g.eq g' = true
  | .picture p, .picture p' => p = p' ∨ p.eq E.toQtEnv p' = true
  | v, w => v = w

/-- A contact after some writes. -/
def afterWrites (E : ToolEnv) (c : Contact) (ws : List (QString × PropertyValue)) : Contact := ws.foldl (fun c w => (c.writeNamed E w.1 w.2).2) c

/-- The values of which the library keeps all: not for `url`, which adds to a list, not for anniversaries outside the years 1 to 9999, and blog addresses
    only if reading their text gives the same address. -/
def Kept (E : ToolEnv) : PropertyValue → Prop
  | .locator _ => False
  | .day d => ∀ x, d = some x → RealDay x ∧ 1 ≤ x.1 ∧ x.1 ≤ 9999
  | .link u => E.urlOf u = u
  | _ => True

end KC.Spec
