import Verif.Model.Setters
import Verif.Props.C31
/-
  C59: setting a field of a contact and reading it gives what was set, and changes no other field.
-/
namespace KC

/-- Text and enumeration fields: after the setter the field has exactly the given value and every other field is as before;
    the "empty" mark is cleared unless the value was already there. -/
theorem C59_plain_fields (c : Contact) (s : QString) (y : Secrecy) (g : Gender) :
    c.setUid s = { c with uid := s, empty := c.empty && s = c.uid } ∧
    c.setName s = { c with name := s, empty := c.empty && s = c.name } ∧
    c.setKind s = { c with kind := s, empty := c.empty && s = c.kind } ∧
    c.setFormattedName s = { c with formattedName := s, empty := c.empty && s = c.formattedName } ∧
    c.setFamilyName s = { c with familyName := s, empty := c.empty && s = c.familyName } ∧
    c.setGivenName s = { c with givenName := s, empty := c.empty && s = c.givenName } ∧
    c.setAdditionalName s = { c with additionalName := s, empty := c.empty && s = c.additionalName } ∧
    c.setPrefix s = { c with prefix_ := s, empty := c.empty && s = c.prefix_ } ∧
    c.setSuffix s = { c with suffix := s, empty := c.empty && s = c.suffix } ∧
    c.setMailer s = { c with mailer := s, empty := c.empty && s = c.mailer } ∧
    c.setDepartment s = { c with department := s, empty := c.empty && s = c.department } ∧
    c.setNote s = { c with note := s, empty := c.empty && s = c.note } ∧
    c.setProductId s = { c with productId := s, empty := c.empty && s = c.productId } ∧
    c.setSortString s = { c with sortString := s, empty := c.empty && s = c.sortString } ∧
    c.setSecrecy y = { c with secrecy := y, empty := c.empty && y = c.secrecy } ∧
    c.setGender g = { c with gender := g, empty := c.empty && g = c.gender } := by
  refine ⟨?_, ?_, ?_, ?_, ?_, ?_, ?_, ?_, ?_, ?_, ?_, ?_, ?_, ?_, ?_, ?_⟩ <;>
    simp only [Contact.setUid, Contact.setName, Contact.setKind, Contact.setFormattedName, Contact.setFamilyName,
          Contact.setGivenName, Contact.setAdditionalName, Contact.setPrefix, Contact.setSuffix, Contact.setMailer,
          Contact.setDepartment, Contact.setNote, Contact.setProductId, Contact.setSortString, Contact.setSecrecy,
          Contact.setGender] <;>
    split <;> rename_i h <;> first | (subst h; simp) | simp [h]

/-- Fields of a class with its own comparison: what is read afterwards is the given value, or a value that compares equal to
    it; no other field changes. -/
theorem C59_compared_fields (E : QtEnv) (c : Contact) (t : TimeZone) (g : Geo) (p : Picture) (s : Sound) (d : QDateTime) :
    ((c.setTimeZone t).timeZone = t ∨ t.eq (c.setTimeZone t).timeZone = true) ∧
    { c.setTimeZone t with timeZone := c.timeZone, empty := c.empty } = c ∧
    ((c.setGeo g).geo = g ∨ g.eq (c.setGeo g).geo = true) ∧ { c.setGeo g with geo := c.geo, empty := c.empty } = c ∧
    ((c.setLogo E p).logo = p ∨ p.eq E (c.setLogo E p).logo = true) ∧ { c.setLogo E p with logo := c.logo, empty := c.empty } = c ∧
    ((c.setPhoto E p).photo = p ∨ p.eq E (c.setPhoto E p).photo = true) ∧
    { c.setPhoto E p with photo := c.photo, empty := c.empty } = c ∧
    ((c.setSound s).sound = s ∨ s.eq (c.setSound s).sound = true) ∧ { c.setSound s with sound := c.sound, empty := c.empty } = c ∧
    ((c.setRevision E d).revision = d ∨ QDateTime.eq E d (c.setRevision E d).revision = true) ∧
    { c.setRevision E d with revision := c.revision, empty := c.empty } = c ∧
    ((c.setDeathDate E d).deathDate = d ∨ QDateTime.eq E d (c.setDeathDate E d).deathDate = true) ∧
    { c.setDeathDate E d with deathDate := c.deathDate, empty := c.empty } = c := by
  refine ⟨?_, ?_, ?_, ?_, ?_, ?_, ?_, ?_, ?_, ?_, ?_, ?_, ?_, ?_⟩ <;>
    simp only [Contact.setTimeZone, Contact.setGeo, Contact.setLogo, Contact.setPhoto, Contact.setSound,
          Contact.setRevision, Contact.setDeathDate] <;>
    split <;> simp_all

/-- Birthdays. With a time the given moment is read back (or the same moment in another zone); with a date alone the
    date is read back, without a time. -/
theorem C59_birthday (E : QtEnv) (c : Contact) (d : QDateTime) (day : Option (Int × Nat × Nat)) :
    ((c.setBirthday E d true).birthday = d ∨ QDateTime.eq E d (c.setBirthday E d true).birthday = true) ∧
    (c.setBirthday E d true).birthdayWithTime = true ∧
    ((c.setBirthday E d false).birthday.map (·.date) = d.map (·.date) ∨ QDateTime.eq E d (c.setBirthday E d false).birthday = true) ∧
    (c.setBirthday E d false).birthdayWithTime = false ∧
    (c.setBirthdayDate day).birthday.map (·.date) = day ∧ (c.setBirthdayDate day).birthdayWithTime = false ∧
    (∀ w, { c.setBirthday E d w with birthday := c.birthday, birthdayWithTime := c.birthdayWithTime, empty := c.empty } = c) ∧
    { c.setBirthdayDate day with birthday := c.birthday, birthdayWithTime := c.birthdayWithTime, empty := c.empty } = c := by
  refine ⟨?_, ?_, ?_, ?_, ?_, ?_, ?_, ?_⟩
  · unfold Contact.setBirthday; split <;> simp_all
  · unfold Contact.setBirthday; split <;> simp_all
  · unfold Contact.setBirthday; split
    · simp_all
    · left; cases d <;> simp [QDateTime.midnight]
  · unfold Contact.setBirthday; split <;> simp_all
  · unfold Contact.setBirthdayDate; split
    · simp_all
    · cases day <;> simp
  · unfold Contact.setBirthdayDate; split <;> simp_all
  · intro w; unfold Contact.setBirthday; split <;> rfl
  · unfold Contact.setBirthdayDate; split <;> rfl

theorem texts_setTexts (c : Contact) (k : TextList) (l : List ParamText) : (c.setTexts k l).texts k = l := by cases k <;> rfl

theorem texts_setTexts_ne (c : Contact) {k k' : TextList} (h : k' ≠ k) (l : List ParamText) :
    (c.setTexts k l).texts k' = c.texts k' := by cases k <;> cases k' <;> first | rfl | exact absurd rfl h

theorem setText_cases (c : Contact) (k : TextList) (s : QString) :
    c.setText k s = c.setTexts k (setFirstText (c.texts k) s) ∨ (c.setText k s = c ∧ c.texts k = [] ∧ s = []) := by
  unfold Contact.setText Contact.insertText
  cases h : c.texts k with
  | cons t r => left; simp
  | nil =>
    cases s with
    | nil => right; simp [ParamText.isValid]
    | cons a t => left; simp [ParamText.isValid, setFirstText]

/-- Nick name, title, role and organisation set as text: read back exactly; the other entries of the list, the parameters of
    the first entry and all other fields stay. -/
theorem C59_first_texts (c : Contact) (k : TextList) (s : QString) :
    (c.setText k s).text k = s ∧ ((c.setText k s).texts k).tail = (c.texts k).tail ∧
    (((c.setText k s).texts k).headD {}).params = ((c.texts k).headD {}).params ∧
    (∀ k', k' ≠ k → (c.setText k s).texts k' = c.texts k') ∧
    { (c.setText k s).setTexts k (c.texts k) with empty := c.empty } = c := by
  rcases setText_cases c k s with h | ⟨h, h1, h2⟩
  · rw [h]
    refine ⟨?_, ?_, ?_, fun k' hk => texts_setTexts_ne c hk _, ?_⟩
    · unfold Contact.text; rw [texts_setTexts]
      cases c.texts k with
      | cons t r => rfl
      | nil => cases s <;> rfl
    · rw [texts_setTexts]
      cases c.texts k with
      | cons t r => rfl
      | nil => cases s <;> rfl
    · rw [texts_setTexts]
      cases c.texts k with
      | cons t r => rfl
      | nil => cases s <;> rfl
    · cases k <;> rfl
  · rw [h, h1, h2]
    refine ⟨?_, rfl, rfl, fun k' hk => rfl, ?_⟩
    · unfold Contact.text; rw [h1]; rfl
    · rw [← h1]; cases k <;> rfl

/-- Named custom fields (profession, office, manager, assistant, spouse, blog feed): read back exactly, an empty text
    removes the field, and other custom fields stay. -/
theorem C59_named_customs (c : Contact) (field s : QString) (hf : field ≠ []) (hs : Sorted c.customs) :
    (c.setNamedCustom field s).custom (q! "KADDRESSBOOK") field = s ∧
    (∀ app name, qualifiedName app name ≠ qualifiedName (q! "KADDRESSBOOK") field →
      (c.setNamedCustom field s).custom app name = c.custom app name) := by
  change (c.setNamedCustom field s).custom vendorId field = s ∧
    (∀ app name, qualifiedName app name ≠ qualifiedName vendorId field →
      (c.setNamedCustom field s).custom app name = c.custom app name)
  have hfe : field.isEmpty = false := by cases field with | nil => exact absurd rfl hf | cons => rfl
  have hv : vendorId.isEmpty = false := rfl
  unfold Contact.setNamedCustom
  cases hse : s.isEmpty with
  | true =>
    have : s = [] := by simpa using hse
    subst this
    simp only [Bool.not_true, Bool.false_eq_true, if_false, Contact.removeCustom, Contact.custom]
    refine ⟨?_, ?_⟩
    · rw [find_eraseFirst hs, if_pos rfl]; rfl
    · intro app name hne; rw [find_eraseFirst hs, if_neg (Ne.symm hne)]
  | false =>
    simp only [Bool.not_false, if_true, Contact.insertCustom, hse, hfe, hv, Bool.or_self, Bool.false_eq_true, if_false]
    cases h : c.customs.find (qualifiedName vendorId field) with
    | some v =>
      simp only [Contact.custom, SMap.find_modify]
      refine ⟨by simp [h], ?_⟩
      intro app name hne; rw [if_neg (Ne.symm hne)]
    | none =>
      simp only [Contact.custom, SMap.find_insertSorted h]
      refine ⟨by simp, ?_⟩
      intro app name hne; rw [if_neg (Ne.symm hne)]

/-- The claim is false of `setUrl` and of the overloads `setTitle(Title)` etc.: they add an entry at the end, and
    reading gives the first entry. -/
theorem C59_url_false (E : QtEnv) (u v : QString) (hu : E.urlValid u = true) (hv : E.urlValid v = true) (h : u ≠ v) (w : QString) :
    let c := ((Contact.new w).setUrl E u).setUrl E v
    c.url.url = u ∧ c.url.url ≠ v := by
  simp [Contact.setUrl, Contact.insertExtraUrl, ParamUrl.isValidUrl, hu, hv, Contact.new, Contact.url, h]

theorem C59_object_overload_false : ¬ ∀ (c : Contact) (t : ParamText), t.isValid = true → (c.insertText .title t).text .title = t.text := by
  intro h
  exact absurd (h { uid := [], titles := [{ text := q! "a" }] } { text := q! "b" } (by decide)) (by decide)

/-- Partial: with an empty list they behave as setters. -/
theorem C59_object_overload_partial (E : QtEnv) (c : Contact) (k : TextList) (t : ParamText) (u : QString) :
    (t.isValid = true → c.texts k = [] → (c.insertText k t).texts k = [t]) ∧
    (E.urlValid u = true → c.extraUrls = [] → (c.setUrl E u).url.url = u) := by
  constructor
  · intro h h'; unfold Contact.insertText; rw [if_pos h, h']; cases k <;> rfl
  · intro h h'; simp [Contact.setUrl, Contact.insertExtraUrl, ParamUrl.isValidUrl, h, h', Contact.url]

/-- Lists set as a whole: the list read afterwards is exactly the given one, whatever was there before, and no other field
    changes. -/
theorem C59_whole_lists (c : Contact) :
    (∀ l, (c.setEmailList l).emails = l ∧ { c.setEmailList l with emails := c.emails, empty := c.empty } = c) ∧
    (∀ l, (c.setLangs l).langs = l ∧ { c.setLangs l with langs := c.langs, empty := c.empty } = c) ∧
    (∀ l, (c.setPhoneNumbers l).phoneNumbers = l ∧ { c.setPhoneNumbers l with phoneNumbers := c.phoneNumbers, empty := c.empty } = c) ∧
    (∀ l, (c.setKeys l).keys = l ∧ { c.setKeys l with keys := c.keys, empty := c.empty } = c) ∧
    (∀ l, (c.setAddresses l).addresses = l ∧ { c.setAddresses l with addresses := c.addresses, empty := c.empty } = c) ∧
    (∀ l, (c.setCategories l).categories = l ∧ { c.setCategories l with categories := c.categories, empty := c.empty } = c) ∧
    (∀ l, (c.setMembers l).members = l ∧ { c.setMembers l with members := c.members, empty := c.empty } = c) ∧
    (∀ l, (c.setRelationships l).relationships = l ∧ { c.setRelationships l with relationships := c.relationships, empty := c.empty } = c) ∧
    (∀ l, (c.setExtraSoundList l).extraSounds = l ∧ { c.setExtraSoundList l with extraSounds := c.extraSounds, empty := c.empty } = c) ∧
    (∀ l, (c.setExtraPhotoList l).extraPhotos = l ∧ { c.setExtraPhotoList l with extraPhotos := c.extraPhotos, empty := c.empty } = c) ∧
    (∀ l, (c.setExtraLogoList l).extraLogos = l ∧ { c.setExtraLogoList l with extraLogos := c.extraLogos, empty := c.empty } = c) ∧
    (∀ l, (c.setExtraUrlList l).extraUrls = l ∧ { c.setExtraUrlList l with extraUrls := c.extraUrls, empty := c.empty } = c) ∧
    (∀ l, (c.setSourcesUrlList l).sources = l ∧ { c.setSourcesUrlList l with sources := c.sources, empty := c.empty } = c) ∧
    (∀ l, (c.setFieldGroupList l).fieldGroups = l ∧ { c.setFieldGroupList l with fieldGroups := c.fieldGroups, empty := c.empty } = c) ∧
    (∀ l, (c.setClientPidMapList l).clientPidMaps = l ∧ { c.setClientPidMapList l with clientPidMaps := c.clientPidMaps, empty := c.empty } = c) ∧
    (∀ l, (c.setImppList l).impps = l ∧ { c.setImppList l with impps := c.impps, empty := c.empty } = c) ∧
    (∀ k l, (c.setTexts k l).texts k = l ∧ (∀ k', k' ≠ k → (c.setTexts k l).texts k' = c.texts k') ∧
      { (c.setTexts k l).setTexts k (c.texts k) with empty := c.empty } = c) := by
  refine ⟨fun l => ⟨rfl, rfl⟩, fun l => ⟨rfl, rfl⟩, fun l => ⟨rfl, rfl⟩, fun l => ⟨rfl, rfl⟩, fun l => ⟨rfl, rfl⟩, fun l => ⟨rfl, rfl⟩, fun l => ⟨rfl, rfl⟩, fun l => ⟨rfl, rfl⟩, fun l => ⟨rfl, rfl⟩, fun l => ⟨rfl, rfl⟩, fun l => ⟨rfl, rfl⟩, fun l => ⟨rfl, rfl⟩, fun l => ⟨rfl, rfl⟩, fun l => ⟨rfl, rfl⟩, fun l => ⟨rfl, rfl⟩, fun l => ⟨rfl, rfl⟩,
    fun k l => ⟨texts_setTexts c k l, fun k' h => texts_setTexts_ne c h l, ?_⟩⟩
  cases k <;> rfl

/-- E-mail addresses set as a list of texts: exactly these addresses are read back, in order, the first of them is the preferred one,
    none carries parameters, and no other field changes. -/
theorem C59_emails (c : Contact) (l : List QString) :
    (c.setEmails l).emailAddresses = l ∧ (c.setEmails l).preferredEmail = l.headD [] ∧
    (∀ e ∈ (c.setEmails l).emails, e.params = []) ∧ { c.setEmails l with emails := c.emails, empty := c.empty } = c := by
  refine ⟨?_, ?_, ?_, rfl⟩
  · simp [Contact.setEmails, Contact.emailAddresses, Function.comp_def]
  · cases l <;> rfl
  · intro e he
    simp only [Contact.setEmails, List.mem_map] at he
    obtain ⟨m, _, rfl⟩ := he; rfl

/-- Entries added to a list: a valid one is appended, an invalid one is ignored, and no other field changes. -/
theorem C59_additions (E : QtEnv) (c : Contact) (s : Sound) (p : Picture) (u : ParamUrl) (src : QString) (g : FieldGroup) (t : ParamText)
    (cu : CalendarUrl) (k : TextList) :
    ((c.insertExtraSound s).extraSounds = c.extraSounds ++ [s] ∧ { c.insertExtraSound s with extraSounds := c.extraSounds, empty := c.empty } = c) ∧
    ((c.insertExtraPhoto p).extraPhotos = c.extraPhotos ++ [p] ∧ { c.insertExtraPhoto p with extraPhotos := c.extraPhotos, empty := c.empty } = c) ∧
    ((c.insertExtraLogo p).extraLogos = c.extraLogos ++ [p] ∧ { c.insertExtraLogo p with extraLogos := c.extraLogos, empty := c.empty } = c) ∧
    ((c.insertExtraUrl E u).extraUrls = c.extraUrls ++ (if E.urlValid u.url = true then [u] else []) ∧
      { c.insertExtraUrl E u with extraUrls := c.extraUrls, empty := c.empty } = c) ∧
    ((c.insertSourceUrl src).sources = c.sources ++ [src] ∧ { c.insertSourceUrl src with sources := c.sources, empty := c.empty } = c) ∧
    ((c.insertFieldGroup g).fieldGroups = c.fieldGroups ++ (if g.fieldGroupName ≠ [] then [g] else []) ∧
      { c.insertFieldGroup g with fieldGroups := c.fieldGroups, empty := c.empty } = c) ∧
    ((c.insertClientPidMap t).clientPidMaps = c.clientPidMaps ++ (if t.text ≠ [] then [t] else []) ∧
      { c.insertClientPidMap t with clientPidMaps := c.clientPidMaps, empty := c.empty } = c) ∧
    ((c.insertImpp E u).impps = c.impps ++ (if u.url ≠ [] ∧ E.urlScheme u.url ≠ [] then [u] else []) ∧
      { c.insertImpp E u with impps := c.impps, empty := c.empty } = c) ∧
    ((c.insertCalendarUrl E cu).calendarUrls = c.calendarUrls ++ (if cu.type ≠ 0 ∧ E.urlValid cu.url = true then [cu] else []) ∧
      { c.insertCalendarUrl E cu with calendarUrls := c.calendarUrls, empty := c.empty } = c) ∧
    ((c.insertText k t).texts k = c.texts k ++ (if t.text ≠ [] then [t] else []) ∧
      (∀ k', k' ≠ k → (c.insertText k t).texts k' = c.texts k') ∧ { (c.insertText k t).setTexts k (c.texts k) with empty := c.empty } = c) := by
  refine ⟨⟨rfl, rfl⟩, ⟨rfl, rfl⟩, ⟨rfl, rfl⟩, ⟨?_, ?_⟩, ⟨rfl, rfl⟩, ⟨?_, ?_⟩, ⟨?_, ?_⟩, ⟨?_, ?_⟩, ⟨?_, rfl⟩, ⟨?_, ?_, ?_⟩⟩
  · unfold Contact.insertExtraUrl ParamUrl.isValidUrl; split <;> simp_all
  · unfold Contact.insertExtraUrl; split <;> rfl
  · unfold Contact.insertFieldGroup FieldGroup.isValid; split <;> simp_all
  · unfold Contact.insertFieldGroup; split <;> rfl
  · unfold Contact.insertClientPidMap ParamText.isValid; split <;> simp_all
  · unfold Contact.insertClientPidMap; split <;> rfl
  · unfold Contact.insertImpp ParamUrl.isValidImpp; split <;> simp_all
  · unfold Contact.insertImpp; split <;> rfl
  · unfold Contact.insertCalendarUrl CalendarUrl.isValid; simp only; split <;> simp_all
  · unfold Contact.insertText ParamText.isValid; split
    · rw [texts_setTexts]; simp_all
    · simp_all
  · intro k' h; unfold Contact.insertText; split
    · exact texts_setTexts_ne c h _
    · rfl
  · unfold Contact.insertText; split <;> cases k <;> rfl

/-- Non-vacuity. -/
example : ((Contact.new (q! "u")).setText .title (q! "Dr")).text .title = q! "Dr" ∧
    (((Contact.new (q! "u")).setText .title (q! "Dr")).setText .title []).text .title = [] ∧
    ((Contact.new (q! "u")).setNamedCustom (q! "X-Office") (q! "7")).custom vendorId (q! "X-Office") = q! "7" := by decide

end KC
