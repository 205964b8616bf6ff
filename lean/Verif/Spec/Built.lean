import Verif.Spec.Readable
import Verif.Model.Setters
/-
  Specification: calls whose arguments a vCard of a given version can carry. The conditions are those of `Readable`, one for each argument, in place of
  conditions on the finished contact.
-/
namespace KC.Spec

/-- A text that version `v` can carry also as a part of a longer value: it does not end in a backslash, and is plain ASCII in version 2.1. -/
structure EasyText (v : Version) (s : QString) : Prop where
  safe : SafeText s
  last : s.getLast? ≠ some (qc! '\\')
  plain : v = .v2_1 → PlainAscii s

/-- A picture. In versions before 4 nothing is written for an empty one. -/
def PictureFits (E : ToolEnv) (v : Version) (p : Picture) : Prop := if v = .v4_0 then PictureOK E v p else p.isEmpty = false → PictureOK E v p

/-- A web address. -/
def UrlFits (E : ToolEnv) (u : ParamUrl) : Prop := UrlText E u.url ∧ ParamsOK u.params

/-- A messaging address. -/
def ImppFits (E : ToolEnv) (u : ParamUrl) : Prop := UrlText E u.url ∧ ParamsOK u.params ∧ ∀ p ∈ u.params, p.1 ≠ q! "x-service-type"

/-- A calendar address. -/
def CalendarFits (E : ToolEnv) (u : CalendarUrl) : Prop :=
  ParamsOK u.params ∧ u.type ≤ 3 ∧ SafeText (E.urlDisplay u.url) ∧ E.urlDisplay u.url ≠ [] ∧ E.urlOf (E.urlDisplay u.url) = u.url

/-- A nick name (not written in version 2.1), title, role or organization. -/
def EntryFits (v : Version) : TextList → ParamText → Prop
  | .nickName, t => v ≠ .v2_1 → TextOK t
  | .title, t => TextOK t ∧ (v = .v2_1 → PlainAscii t.text)
  | .role, t => TextOK t ∧ (v = .v2_1 → PlainAscii t.text)
  | .organization, t => TextOK t ∧ EasyText v t.text ∧ ∀ p ∈ t.params, p.1 ≠ q! "sort-as"

/-- An address; only version 4 can tell which address a label belongs to. -/
def AddressFits (E : ToolEnv) (v : Version) (a : Address) : Prop := AddressOK E v a ∧ (v ≠ .v4_0 → a.label = [])

/-- A category. -/
def CategoryFits (v : Version) (s : QString) : Prop := EasyText v s ∧ s ≠ []

/-- The arguments of a call on the contact `c` can be carried by version `v`. -/
def CallFits (E : ToolEnv) (v : Version) (c : Contact) : Op → Prop
  | .uid s => SafeText s ∧ s ≠ []
  | .name s => v ≠ .v4_0 → CodedText E.toCodecs v s
  | .kind s => v = .v4_0 → SafeText s
  | .formattedName s => CodedText E.toCodecs v s
  | .familyName s => EasyText v s
  | .givenName s => EasyText v s
  | .additionalName s => EasyText v s
  | .prefix_ s => EasyText v s
  | .suffix s => EasyText v s
  | .mailer s => v ≠ .v4_0 → CodedText E.toCodecs v s
  | .department s => EasyText v s
  | .note s => CodedText E.toCodecs v s
  | .productId s => v ≠ .v2_1 → SafeText s
  | .sortString s => (v = .v3_0 → SafeText s) ∧ (v = .v4_0 → s ≠ [] → ParamOK (q! "sort-as") s)
  | .secrecy _ => True
  | .gender g => v = .v4_0 → g.gender.length ≤ 1 ∧ g.gender ≠ [qc! ';'] ∧ SafeText g.gender ∧ SafeText (g.gender ++ qc! ';' :: g.comment)
  | .timeZone t => t.isValid = true → -6000 < t.offset ∧ t.offset < 6000
  | .geo g => g.isValid = true → PositionOK E E.toFloat g
  | .logo p => PictureFits E v p
  | .photo p => PictureFits E v p
  | .sound s => s.isEmpty = false → SoundOK v s
  | .revision d => DateTimeOK d
  | .deathDate d => v = .v4_0 → DateTimeOK d
  | .birthday d w => ∀ x, d = some x → DateOK x.date ∧ (w = true → TimeOK x.time x.zone)
  | .birthdayDate d => ∀ x, d = some x → DateOK x
  | .insertExtraSound s => s.isEmpty = false → SoundOK v s
  | .insertExtraPhoto p => PictureFits E v p
  | .insertExtraLogo p => PictureFits E v p
  | .extraSounds l => ∀ s ∈ l, s.isEmpty = false → SoundOK v s
  | .extraPhotos l => ∀ p ∈ l, PictureFits E v p
  | .extraLogos l => ∀ p ∈ l, PictureFits E v p
  | .insertExtraUrl u => E.urlValid u.url = true → UrlFits E u
  | .extraUrls l => ∀ u ∈ l, E.urlValid u.url = true ∧ UrlFits E u
  | .url u => E.urlValid u = true → UrlText E u
  | .insertSourceUrl u => UrlText E u
  | .sources l => ∀ u ∈ l, UrlText E u
  | .fieldGroups l => ∀ g ∈ l, GroupOK g
  | .insertFieldGroup g => g.isValid = true → GroupOK g
  | .clientPidMaps l => v = .v4_0 → ∀ t ∈ l, TextOK t
  | .insertClientPidMap t => v = .v4_0 → t.isValid = true → TextOK t
  | .insertImpp u => u.isValidImpp E.toQtEnv = true → ImppFits E u
  | .impps l => ∀ u ∈ l, ImppFits E u ∧ E.urlScheme u.url ≠ []
  | .insertCalendarUrl u => v = .v4_0 → u.isValid E.toQtEnv = true → CalendarFits E u
  /- a preferred address: no other one of the contact is preferred -/
  | .addEmail e => EmailOK v e ∧ (e.isPreferred = true → ∀ x ∈ c.emails, x.mail ≠ e.mail → x.isPreferred = false)
  | .removeEmail _ => True
  | .setEmails l => l.Nodup ∧ ∀ m ∈ l, SafeText m ∧ m ≠ []
  | .setEmailList l => (∀ e ∈ l, EmailOK v e) ∧ (l.map (·.mail)).Nodup ∧ ∀ e ∈ l.tail, e.isPreferred = false
  | .insertLang t => v = .v4_0 → simplified t.text ≠ [] → TextOK t
  | .removeLang _ => True
  | .langs l => v = .v4_0 → (∀ t ∈ l, TextOK t ∧ simplified t.text ≠ []) ∧ (l.map (·.text)).Nodup
  | .insertPhoneNumber p => PhoneOK p
  | .removePhoneNumber _ => True
  | .phoneNumbers l => ∀ p ∈ l, PhoneOK p
  | .insertKey k => k.hasData = true → KeyOK v k
  | .removeKey _ => True
  | .keys l => ∀ k ∈ l, k.hasData = true → KeyOK v k
  | .insertAddress a => a.empty = false → AddressFits E v a
  | .removeAddress _ => True
  | .addresses l => ∀ a ∈ l, AddressFits E v a
  | .insertCategory s => v ≠ .v2_1 → CategoryFits v s
  | .removeCategory _ => True
  | .categories l => v ≠ .v2_1 → ∀ s ∈ l, CategoryFits v s
  | .insertMember s => v = .v4_0 → SafeText s ∧ s ≠ []
  | .members l => v = .v4_0 → (∀ m ∈ l, SafeText m ∧ m ≠ []) ∧ l.Nodup
  | .insertRelationship t => TextOK t
  | .relationships l => (∀ t ∈ l, TextOK t) ∧ l.Nodup
  | .insertCustom app name value => app ≠ [] → name ≠ [] → value ≠ [] → CustomOK E.toCodecs v (qualifiedName app name) value
  | .removeCustom _ _ => True
  | .customs l => ∀ s ∈ l, ∀ name value, s = name ++ qc! ':' :: value → qc! ':' ∉ name → CustomOK E.toCodecs v name value
  | .namedCustom field value => field ≠ [] → value ≠ [] → CustomOK E.toCodecs v (qualifiedName vendorId field) value
  /- the text of an entry is changed, not made empty -/
  | .text k s => (s = [] → c.texts k = []) ∧ (s ≠ [] → EntryFits v k { text := s })
  | .insertText k t => t.isValid = true → EntryFits v k t
  | .texts k l => ∀ t ∈ l, EntryFits v k t
  | .changed _ => True

/-- A history of calls, each with arguments that can be carried. -/
def AllFit (E : ToolEnv) (v : Version) (c : Contact) : List Op → Prop
  | [] => True
  | op :: ops => CallFits E v c op ∧ AllFit E v (c.apply E.toQtEnv op) ops

end KC.Spec
