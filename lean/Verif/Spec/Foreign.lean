import Verif.Spec.Built
import Verif.Spec.CardEntry
/-
  Specification: a vCard, from whatever program, whose properties say nothing that a vCard written by this library could not carry. One condition for each
  kind of property, on what `Spec.CardSays` (C79) says the property stands for; only the last lines are about several properties at once.
-/
namespace KC.Spec

structure CardFits (E : ToolEnv) (v : Version) (L : List VCardLine) : Prop where
  uid : ∀ l ∈ named L [q! "uid"], SafeText (valueText l) ∧ valueText l ≠ []
  texts : ∀ l ∈ named L [q! "fn", q! "note"], CodedText E.toCodecs v (valueText l)
  oldTexts : v ≠ .v4_0 → ∀ l ∈ named L [q! "mailer", q! "name"], CodedText E.toCodecs v (valueText l)
  productId : v ≠ .v2_1 → ∀ l ∈ named L [q! "prodid"], SafeText (valueText l)
  kind : v = .v4_0 → ∀ l ∈ named L [q! "kind"], SafeText (valueText l)
  names : ∀ l ∈ named L [q! "n"], ∀ i s, valueComponent l i = some s → EasyText v s
  organizations : ∀ l ∈ named L [q! "org"], ∀ s, valueComponent l 0 = some s → s ≠ [] → EntryFits v .organization { params := l.params, text := s }
  departments : ∀ l ∈ named L [q! "org"], ∀ s, valueComponent l 1 = some s → EasyText v s
  sorting : ∀ l ∈ named L [q! "n", q! "org", q! "sort-string"], ∀ s, sortText l = some s →
    (v = .v3_0 → SafeText s) ∧ (v = .v4_0 → s ≠ [] → ParamOK (q! "sort-as") s)
  nickNames : ∀ l ∈ named L [q! "nickname"], valueText l ≠ [] → EntryFits v .nickName (paramText l)
  titles : ∀ l ∈ named L [q! "title"], valueText l ≠ [] → EntryFits v .title (paramText l)
  roles : ∀ l ∈ named L [q! "role"], valueText l ≠ [] → EntryFits v .role (paramText l)
  birthday : ∀ l ∈ named L [q! "bday"], ∀ x, (parseDateTime (valueText l)).1 = some x →
    DateOK x.date ∧ ((parseDateTime (valueText l)).2 = true → TimeOK x.time x.zone)
  revision : ∀ l ∈ named L [q! "rev"], DateTimeOK (parseDateTime (valueText l)).1
  deathDate : v = .v4_0 → ∀ l ∈ named L [q! "deathdate"], DateTimeOK (parseDateTime (valueText l)).1
  timeZone : ∀ l ∈ named L [q! "tz"], ∀ t, timeZoneOf l = some t → -6000 < t.offset ∧ t.offset < 6000
  geo : ∀ l ∈ named L [q! "geo"], ∀ g, positionOf E l = some g → g.isValid = true → PositionOK E E.toFloat g
  gender : v = .v4_0 → ∀ l ∈ named L [q! "gender"], ∀ g, genderOf l = some g →
    g.gender.length ≤ 1 ∧ g.gender ≠ [qc! ';'] ∧ SafeText g.gender ∧ SafeText (g.gender ++ qc! ';' :: g.comment)
  categories : v ≠ .v2_1 → ∀ l ∈ named L [q! "categories"], ∀ s ∈ splitString (qc! ',') (valueText l), CategoryFits v s
  emails : ∀ l ∈ named L [q! "email"], EmailOK v { params := l.params, mail := valueText l }
  langs : v = .v4_0 → ∀ l ∈ named L [q! "lang"], simplified (valueText l) ≠ [] → TextOK (paramText l)
  phoneNumbers : ∀ l ∈ named L [q! "tel"], simplified (valueText l) ≠ [] →
    SafeText (simplified (valueText l)) ∧ ParamsOK (l.params.filter fun q => q.1 ≠ q! "type")
  keys : ∀ l ∈ named L [q! "key"], (keyOf l).hasData = true → KeyOK v (keyOf l)
  messaging : ∀ l ∈ L, ∀ u ∈ messagingOf E l, u.url ≠ [] → E.urlScheme u.url ≠ [] → ImppFits E u
  customs : ∀ p ∈ customEntries L, CustomOK E.toCodecs v p.1 p.2
  calendars : v = .v4_0 → ∀ l ∈ named L [q! "fburl", q! "caladruri", q! "caluri"], E.urlValid (calendarOf E l).url = true → CalendarFits E (calendarOf E l)
  urls : ∀ l ∈ named L [q! "url"], E.urlValid (E.urlOf (valueText l)) = true → UrlFits E { params := l.params, url := E.urlOf (valueText l) }
  sources : ∀ l ∈ named L [q! "source"], UrlText E (E.urlOf (valueText l))
  members : v = .v4_0 → ∀ l ∈ named L [q! "member"], SafeText (valueText l) ∧ valueText l ≠ []
  relationships : ∀ l ∈ named L [q! "related"], TextOK (paramText l)
  clientPidMaps : v = .v4_0 → ∀ l ∈ named L [q! "clientpidmap"], valueText l ≠ [] → TextOK (paramText l)
  fieldGroups : ∀ l ∈ L, ∀ g, groupField l = some g → GroupOK g
  pictures : ∀ l ∈ named L [q! "photo", q! "logo"], ∀ p, parsePicture l = some p → PictureFits E v p
  sounds : ∀ l ∈ named L [q! "sound"], (soundOf l).isEmpty = false → SoundOK v (soundOf l)
  /-- the addresses, after each delivery label has been given to an address of its type -/
  addresses : ∀ a ∈ (named L [q! "adr", q! "label"]).foldl (addressStep E) [], AddressOK E v a
  labels : v ≠ .v4_0 → ((named L [q! "adr", q! "label"]).foldl (addressStep E) []).Pairwise fun a b => a.named = b.named → b.label = []
  /-- there are no two preferred e-mail addresses -/
  preferred : ∀ l ∈ named L [q! "email"], ∀ l' ∈ named L [q! "email"], paramIsPreferred l.params = true → paramIsPreferred l'.params = true → valueText l = valueText l'

end KC.Spec
