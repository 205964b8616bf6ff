import Verif.Model.ToText
/-
  What the text representation of a contact shows: specification for C81.
-/
namespace KC.Spec

/-- A text without line breaks. -/
def SingleLine (s : QString) : Prop := (10 : UInt16) ∉ s

instance (s : QString) : Decidable (SingleLine s) := inferInstanceAs (Decidable (_ ∉ _))

/-- One line of the representation: two blanks, the label, the value. -/
def shownLine (label value : QString) : QString := q! "  " ++ label ++ q! ": " ++ value ++ [10]

/-- One line of the representation of an item of a list: four blanks, the label, the value. -/
def itemLine (label value : QString) : QString := q! "    " ++ label ++ q! ": " ++ value ++ [10]

/-- The representation of an item of a list: a heading, the values with their labels, and a line with the parameters if there are any: each name, a blank,
    and the values with commas in between. -/
def shownItem (heading : QString) (values : List (QString × QString)) (params : ParameterMap) : QString :=
  heading ++ q! " {\n" ++ values.flatMap (fun p => itemLine p.1 p.2) ++
  (if params = [] then [] else itemLine (q! "parameters") (params.flatMap fun p => p.1 ++ q! " " ++ [qc! ','].intercalate p.2)) ++ q! "}\n"

/-- Qt and the translations give texts without line breaks. -/
structure PlainEnv (E : TextEnv) : Prop where
  tr : ∀ a b, SingleLine b → SingleLine (E.tr a b)
  date : ∀ d, SingleLine (E.dateText d)
  flt : ∀ x, SingleLine (E.fltText x)

/-- Parameters without line breaks. -/
def OneLineParams (m : ParameterMap) : Prop := ∀ p ∈ m, SingleLine p.1 ∧ ∀ v ∈ p.2, SingleLine v

instance (m : ParameterMap) : Decidable (OneLineParams m) := inferInstanceAs (Decidable (∀ p ∈ m, _ ∧ ∀ v ∈ p.2, _))

/-- What is shown of a picture: its type, and its data or its URL. -/
def shownPicture (E : TextEnv) (p : Picture) : QString × (QByteArray ⊕ QString) :=
  (p.type, if p.isIntern then .inl (p.rawBytes E.toToolEnv) else .inr p.url)
/-- What is shown of a sound. -/
def shownSound (s : Sound) : QString × (QByteArray ⊕ QString) := (s.type, if s.isIntern then .inl s.data else .inr s.url)
/-- What is shown of a geographic position: whether it is valid, and the two numbers. -/
def shownGeo (E : TextEnv) (g : Geo) : Bool × QString × QString := (g.isValid, E.fltText g.latitude, E.fltText g.longitude)
/-- What is shown of a key: id, name of the type, the custom type, and the binary data or the text. -/
def shownKey (E : TextEnv) (k : Key) : QString × QString × Option QString × (QByteArray ⊕ QString) :=
  (k.id, keyTypeLabel E.tr k.type, if k.type = .custom then some k.customTypeString else none, if k.isBinary then .inl k.binaryData else .inr k.textData)
/-- What is shown of an address. -/
def shownAddress (E : TextEnv) (a : Address) : Bool × List QString × Bool × QString × QString :=
  (a.empty, [a.id, addressTypeLabel E.tr a.type, a.postOfficeBox, a.extended, a.street, a.locality, a.region, a.postalCode, a.country, a.label],
    shownGeo E a.geo)

/-- The single texts of a contact that are shown, with their labels. -/
def shownTexts (c : Contact) : List (QString × QString) :=
  [(q! "Uid", c.uid), (q! "Name", c.name), (q! "FormattedName", c.formattedName), (q! "FamilyName", c.familyName), (q! "GivenName", c.givenName),
   (q! "AdditionalName", c.additionalName), (q! "Prefix", c.prefix_), (q! "Suffix", c.suffix), (q! "NickName", c.text .nickName), (q! "Mailer", c.mailer),
   (q! "Title", c.text .title), (q! "Role", c.text .role), (q! "Organization", c.text .organization), (q! "Department", c.department), (q! "Note", c.note),
   (q! "ProductId", c.productId), (q! "SortString", c.sortString), (q! "Url", c.url.url), (q! "Kind", c.kind)]

/-- The texts in a contact that are shown have no line breaks. -/
structure OneLineContact (c : Contact) : Prop where
  texts : ∀ p ∈ shownTexts c, SingleLine p.2
  logo : SingleLine c.logo.type ∧ SingleLine c.logo.url
  photo : SingleLine c.photo.type ∧ SingleLine c.photo.url
  sound : SingleLine c.sound.type ∧ SingleLine c.sound.url
  gender : SingleLine c.gender.gender ∧ SingleLine c.gender.comment
  emails : ∀ e ∈ c.emails, SingleLine e.mail ∧ OneLineParams e.params
  langs : ∀ t ∈ c.langs, SingleLine t.text ∧ OneLineParams t.params
  phones : ∀ p ∈ c.phoneNumbers, SingleLine p.number ∧ OneLineParams p.params
  addresses : ∀ a ∈ c.addresses, ∀ t ∈ [a.id, a.postOfficeBox, a.extended, a.street, a.locality, a.region, a.postalCode, a.country, a.label], SingleLine t
  keys : ∀ k ∈ c.keys, SingleLine k.id ∧ SingleLine k.customTypeString ∧ SingleLine k.textData

/-- Two contacts agree on everything that is shown. -/
structure SameShown (E : TextEnv) (c d : Contact) : Prop where
  texts : shownTexts c = shownTexts d
  birthday : E.dateText c.birthday = E.dateText d.birthday
  revision : E.dateText c.revision = E.dateText d.revision
  offset : c.timeZone.offset = d.timeZone.offset
  geo : shownGeo E c.geo = shownGeo E d.geo
  secrecy : secrecyLabel E.tr c.secrecy = secrecyLabel E.tr d.secrecy
  logo : shownPicture E c.logo = shownPicture E d.logo
  photo : shownPicture E c.photo = shownPicture E d.photo
  sound : shownSound c.sound = shownSound d.sound
  gender : c.gender.gender = d.gender.gender ∧ c.gender.comment = d.gender.comment
  emails : c.emails.map (fun e => (e.mail, paramsText e.params)) = d.emails.map (fun e => (e.mail, paramsText e.params))
  langs : c.langs.map (fun t => (t.text, paramsText t.params)) = d.langs.map (fun t => (t.text, paramsText t.params))
  phones : c.phoneNumbers.map (fun p => (p.number, paramsText p.params)) = d.phoneNumbers.map (fun p => (p.number, paramsText p.params))
  addresses : c.addresses.map (shownAddress E) = d.addresses.map (shownAddress E)
  keys : c.keys.map (shownKey E) = d.keys.map (shownKey E)

end KC.Spec
