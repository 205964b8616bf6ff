import Verif.Model.VCardTool
/-
  Specification: the property names of the three versions of vCard.
-/
namespace KC.Spec

/-- The properties of the vCard versions: "vCard - The Electronic Business Card, version 2.1"; RFC 2426 with RFC 4770 (IMPP);
    RFC 6350 with RFC 6474 (DEATHDATE). -/
def standardNames : Version → List QString
  | .v2_1 => [q! "ADR", q! "AGENT", q! "BDAY", q! "EMAIL", q! "FN", q! "GEO", q! "KEY", q! "LABEL", q! "LOGO", q! "MAILER", q! "N", q! "NOTE", q! "ORG",
      q! "PHOTO", q! "REV", q! "ROLE", q! "SOUND", q! "TEL", q! "TITLE", q! "TZ", q! "UID", q! "URL", q! "VERSION"]
  | .v3_0 => [q! "ADR", q! "AGENT", q! "BDAY", q! "CATEGORIES", q! "CLASS", q! "EMAIL", q! "FN", q! "GEO", q! "IMPP", q! "KEY", q! "LABEL", q! "LOGO",
      q! "MAILER", q! "N", q! "NAME", q! "NICKNAME", q! "NOTE", q! "ORG", q! "PHOTO", q! "PRODID", q! "PROFILE", q! "REV", q! "ROLE", q! "SORT-STRING",
      q! "SOUND", q! "SOURCE", q! "TEL", q! "TITLE", q! "TZ", q! "UID", q! "URL", q! "VERSION"]
  | .v4_0 => [q! "ADR", q! "ANNIVERSARY", q! "BDAY", q! "CALADRURI", q! "CALURI", q! "CATEGORIES", q! "CLIENTPIDMAP", q! "DEATHDATE", q! "EMAIL",
      q! "FBURL", q! "FN", q! "GENDER", q! "GEO", q! "IMPP", q! "KEY", q! "KIND", q! "LANG", q! "LOGO", q! "MEMBER", q! "N", q! "NICKNAME", q! "NOTE",
      q! "ORG", q! "PHOTO", q! "PRODID", q! "RELATED", q! "REV", q! "ROLE", q! "SOUND", q! "SOURCE", q! "TEL", q! "TITLE", q! "TZ", q! "UID", q! "URL",
      q! "VERSION", q! "XML"]

/-- Properties of later versions that are written into cards of earlier versions all the same. -/
def laterNames : Version → List QString
  | .v2_1 => [q! "IMPP", q! "NAME", q! "RELATED", q! "SOURCE"]
  | .v3_0 => [q! "RELATED"]
  | .v4_0 => []

/-- A name of one's own: an extension, or the name of one of the contact's field groups ("item1.TEL"). -/
def OwnName (c : Contact) (name : QString) : Prop := q! "X-" <+: name ∨ ∃ g ∈ c.fieldGroups, name = g.fieldGroupName

/-- The beginning of a property with an embedded picture, version 4.0: name, colon and the beginning of the value. -/
def EmbeddedPicture (name : QString) : Prop := q! "LOGO:data:image/" <+: name ∨ q! "PHOTO:data:image/" <+: name

/-- The properties that say one thing about a contact. -/
def singleNames : List QString :=
  [q! "BDAY", q! "CATEGORIES", q! "CLASS", q! "DEATHDATE", q! "FN", q! "GENDER", q! "GEO", q! "KIND", q! "MAILER", q! "N", q! "NAME", q! "NOTE", q! "PRODID",
   q! "REV", q! "SORT-STRING", q! "TZ", q! "UID", q! "VERSION"]

end KC.Spec
