import Verif.Spec.Versions
import Verif.Spec.Lines
import Verif.Spec.Fold
/-
  Specification: the texts of a contact that are written in front of the colon of a line of its card (names and parameters).
-/
namespace KC.Spec

/-- The names and the values of parameters. -/
def paramTexts (m : ParameterMap) : List QString := m.flatMap fun p => p.1 :: p.2

/-- What an address adds to a head in version 4.0: its label, and its position. -/
def addressTexts (E : ToolEnv) (a : Address) : List QString :=
  (if a.geo.isValid then [E.fmt6 a.geo.latitude, E.fmt6 a.geo.longitude] else []) ++ [a.label]

/-- In version 4.0 the name of the spouse is a parameter. -/
def spouseTexts (c : Contact) : List QString :=
  (c.customs.filter fun p => q! "kaddressbook-x-spousesname" <+: toLowerQ p.1).map (·.2)

/-- The parameters of a contact's entries. -/
def paramMaps (c : Contact) : List ParameterMap :=
  [c.emails.map (·.params), c.organizations.map (·.params), c.roles.map (·.params), c.titles.map (·.params), c.nickNames.map (·.params),
   c.relationships.map (·.params), c.langs.map (·.params), c.clientPidMaps.map (·.params), c.phoneNumbers.map (·.params), c.extraUrls.map (·.params),
   c.calendarUrls.map (·.params), c.impps.map (·.params), c.fieldGroups.map (·.params)].flatten

/-- The texts of the contact that stand in front of the colon of some line: parameters, the names of custom fields and field groups, the types
    of keys and pictures, and in version 4.0 labels and positions of addresses, the sort string and the name of the spouse. -/
def headTexts (E : ToolEnv) (v : Version) (c : Contact) : List QString :=
  [(paramMaps c).flatMap paramTexts, c.customs.map (·.1), c.fieldGroups.map (·.fieldGroupName), c.keys.map (·.customTypeString),
   (c.logo :: c.extraLogos ++ c.photo :: c.extraPhotos).map (·.type),
   if v = .v4_0 then c.addresses.flatMap (addressTexts E) ++ c.sortString :: spouseTexts c else []].flatten

/-- A text on one line. -/
def Unbroken (s : QString) : Prop := (10 : UInt16) ∉ s ∧ (13 : UInt16) ∉ s

/-- The name of a field group can be the name of a property: it has no separators, does not begin with white space and is not one of the two
    names that enclose a card. -/
structure GroupName (s : QString) : Prop where
  sep : qc! ';' ∉ s ∧ qc! ':' ∉ s
  start : ∀ u, s.head? = some u → u.toNat ≠ 32 ∧ ¬ (9 ≤ u.toNat ∧ u.toNat ≤ 13)
  enclosing : s.map (fun u => if 65 ≤ u.toNat ∧ u.toNat ≤ 90 then u.toNat + 32 else u.toNat) ∉ [[98, 101, 103, 105, 110], [101, 110, 100]]

/-- What goes in front of colons keeps to its line. -/
structure Contained (E : ToolEnv) (v : Version) (c : Contact) : Prop where
  heads : ∀ t ∈ headTexts E v c, Unbroken t
  groups : ∀ g ∈ c.fieldGroups, GroupName g.fieldGroupName

/-- A text without quotation marks that does not speak of "quoted-printable". -/
def Unquoting (s : QString) : Prop := qc! '"' ∉ s ∧ ¬ MentionsQP (toLatin1 s)

/-- How many lines a property can have: as many as the contact has entries of that kind. -/
def entries (c : Contact) : List (QString × Nat) :=
  [(q! "ADR", c.addresses.length), (q! "LABEL", c.addresses.length), (q! "EMAIL", c.emails.length), (q! "TEL", c.phoneNumbers.length), (q! "ORG", c.organizations.length),
   (q! "ROLE", c.roles.length), (q! "TITLE", c.titles.length), (q! "NICKNAME", c.nickNames.length), (q! "LANG", c.langs.length),
   (q! "CLIENTPIDMAP", c.clientPidMaps.length), (q! "KEY", c.keys.length), (q! "URL", c.extraUrls.length), (q! "IMPP", c.impps.length),
   (q! "MEMBER", c.members.length), (q! "SOURCE", c.sources.length), (q! "SOUND", c.extraSounds.length + 1)] ++ singleNames.map fun n => (n, 1)

/-- The line is one of the property: it begins with the name and a separator. -/
def isProperty (name : QString) (line : QByteArray) : Bool := (toLatin1 name ++ [c! ';']).isPrefixOf line || (toLatin1 name ++ [c! ':']).isPrefixOf line

/-- The line begins or ends a card, in upper or lower case. -/
def Encloses (line : QByteArray) : Prop := b! "begin:vcard" <+: line.map lowerByte ∨ b! "end:vcard" <+: line.map lowerByte

/-- The lines of a text: it is cut at line breaks, and lines that begin with a space are joined to the one before. (The first one is the empty
    line before the text.) -/
def textLines (text : QByteArray) : List QByteArray := (logicalLines [] ((linesOf text).map dropCR)).drop 1

end KC.Spec
