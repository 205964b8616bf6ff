import Verif.Props.C54
import Mathlib.Data.List.Induction
/-
  C70. Calls that are about different fields do not interfere
-/
namespace KC
namespace Spec

/-- The fields of a contact. The birthday and the mark whether it has a time are one field. -/
inductive Field where
  | uid | name | kind | formattedName | familyName | givenName | additionalName | prefix_ | suffix | mailer | department | note | productId | sortString | secrecy | gender | timeZone | geo | logo | photo | sound | revision
  | deathDate | extraSounds | extraPhotos | extraLogos | extraUrls | sources | fieldGroups | clientPidMaps | impps | calendarUrls | emails | langs | phoneNumbers | keys | addresses | categories | members | relationships | customs | changed
  | birthday | text (k : TextList)
deriving DecidableEq

/-- The field a call is about. -/
def fieldOf : Op → Field
  | .uid _ => .uid
  | .name _ => .name
  | .kind _ => .kind
  | .formattedName _ => .formattedName
  | .familyName _ => .familyName
  | .givenName _ => .givenName
  | .additionalName _ => .additionalName
  | .prefix_ _ => .prefix_
  | .suffix _ => .suffix
  | .mailer _ => .mailer
  | .department _ => .department
  | .note _ => .note
  | .productId _ => .productId
  | .sortString _ => .sortString
  | .secrecy _ => .secrecy
  | .gender _ => .gender
  | .timeZone _ => .timeZone
  | .geo _ => .geo
  | .logo _ => .logo
  | .photo _ => .photo
  | .sound _ => .sound
  | .revision _ => .revision
  | .deathDate _ => .deathDate
  | .extraSounds _ | .insertExtraSound _ => .extraSounds
  | .extraPhotos _ | .insertExtraPhoto _ => .extraPhotos
  | .extraLogos _ | .insertExtraLogo _ => .extraLogos
  | .extraUrls _ | .insertExtraUrl _ | .url _ => .extraUrls
  | .sources _ | .insertSourceUrl _ => .sources
  | .fieldGroups _ | .insertFieldGroup _ => .fieldGroups
  | .clientPidMaps _ | .insertClientPidMap _ => .clientPidMaps
  | .impps _ | .insertImpp _ => .impps
  | .langs _ | .insertLang _ | .removeLang _ => .langs
  | .phoneNumbers _ | .insertPhoneNumber _ | .removePhoneNumber _ => .phoneNumbers
  | .keys _ | .insertKey _ | .removeKey _ => .keys
  | .addresses _ | .insertAddress _ | .removeAddress _ => .addresses
  | .categories _ | .insertCategory _ | .removeCategory _ => .categories
  | .members _ | .insertMember _ => .members
  | .relationships _ | .insertRelationship _ => .relationships
  | .customs _ | .insertCustom _ _ _ | .removeCustom _ _ | .namedCustom _ _ => .customs
  | .changed _ => .changed
  | .birthday _ _ | .birthdayDate _ => .birthday
  | .insertCalendarUrl _ => .calendarUrls
  | .addEmail _ | .removeEmail _ | .setEmails _ | .setEmailList _ => .emails
  | .text k _ | .insertText k _ | .texts k _ => .text k

/-- Two contacts have the same data in a field. -/
def SameIn (a b : Contact) : Field → Prop
  | .uid => a.uid = b.uid
  | .name => a.name = b.name
  | .kind => a.kind = b.kind
  | .formattedName => a.formattedName = b.formattedName
  | .familyName => a.familyName = b.familyName
  | .givenName => a.givenName = b.givenName
  | .additionalName => a.additionalName = b.additionalName
  | .prefix_ => a.prefix_ = b.prefix_
  | .suffix => a.suffix = b.suffix
  | .mailer => a.mailer = b.mailer
  | .department => a.department = b.department
  | .note => a.note = b.note
  | .productId => a.productId = b.productId
  | .sortString => a.sortString = b.sortString
  | .secrecy => a.secrecy = b.secrecy
  | .gender => a.gender = b.gender
  | .timeZone => a.timeZone = b.timeZone
  | .geo => a.geo = b.geo
  | .logo => a.logo = b.logo
  | .photo => a.photo = b.photo
  | .sound => a.sound = b.sound
  | .revision => a.revision = b.revision
  | .deathDate => a.deathDate = b.deathDate
  | .extraSounds => a.extraSounds = b.extraSounds
  | .extraPhotos => a.extraPhotos = b.extraPhotos
  | .extraLogos => a.extraLogos = b.extraLogos
  | .extraUrls => a.extraUrls = b.extraUrls
  | .sources => a.sources = b.sources
  | .fieldGroups => a.fieldGroups = b.fieldGroups
  | .clientPidMaps => a.clientPidMaps = b.clientPidMaps
  | .impps => a.impps = b.impps
  | .calendarUrls => a.calendarUrls = b.calendarUrls
  | .emails => a.emails = b.emails
  | .langs => a.langs = b.langs
  | .phoneNumbers => a.phoneNumbers = b.phoneNumbers
  | .keys => a.keys = b.keys
  | .addresses => a.addresses = b.addresses
  | .categories => a.categories = b.categories
  | .members => a.members = b.members
  | .relationships => a.relationships = b.relationships
  | .customs => a.customs = b.customs
  | .changed => a.changed = b.changed
  | .birthday => a.birthday = b.birthday ∧ a.birthdayWithTime = b.birthdayWithTime
  | .text .nickName => a.nickNames = b.nickNames
  | .text .title => a.titles = b.titles
  | .text .role => a.roles = b.roles
  | .text .organization => a.organizations = b.organizations

/-- The calls of a history that are about a field, in their order. -/
def callsFor (f : Field) (ops : List Op) : List Op := ops.filter fun op => fieldOf op = f

end Spec
open Spec

/-- `b` with one field of `a`. -/
def copyField (a b : Contact) : Field → Contact
  | .uid => { b with uid := a.uid }
  | .name => { b with name := a.name }
  | .kind => { b with kind := a.kind }
  | .formattedName => { b with formattedName := a.formattedName }
  | .familyName => { b with familyName := a.familyName }
  | .givenName => { b with givenName := a.givenName }
  | .additionalName => { b with additionalName := a.additionalName }
  | .prefix_ => { b with prefix_ := a.prefix_ }
  | .suffix => { b with suffix := a.suffix }
  | .mailer => { b with mailer := a.mailer }
  | .department => { b with department := a.department }
  | .note => { b with note := a.note }
  | .productId => { b with productId := a.productId }
  | .sortString => { b with sortString := a.sortString }
  | .secrecy => { b with secrecy := a.secrecy }
  | .gender => { b with gender := a.gender }
  | .timeZone => { b with timeZone := a.timeZone }
  | .geo => { b with geo := a.geo }
  | .logo => { b with logo := a.logo }
  | .photo => { b with photo := a.photo }
  | .sound => { b with sound := a.sound }
  | .revision => { b with revision := a.revision }
  | .deathDate => { b with deathDate := a.deathDate }
  | .extraSounds => { b with extraSounds := a.extraSounds }
  | .extraPhotos => { b with extraPhotos := a.extraPhotos }
  | .extraLogos => { b with extraLogos := a.extraLogos }
  | .extraUrls => { b with extraUrls := a.extraUrls }
  | .sources => { b with sources := a.sources }
  | .fieldGroups => { b with fieldGroups := a.fieldGroups }
  | .clientPidMaps => { b with clientPidMaps := a.clientPidMaps }
  | .impps => { b with impps := a.impps }
  | .calendarUrls => { b with calendarUrls := a.calendarUrls }
  | .emails => { b with emails := a.emails }
  | .langs => { b with langs := a.langs }
  | .phoneNumbers => { b with phoneNumbers := a.phoneNumbers }
  | .keys => { b with keys := a.keys }
  | .addresses => { b with addresses := a.addresses }
  | .categories => { b with categories := a.categories }
  | .members => { b with members := a.members }
  | .relationships => { b with relationships := a.relationships }
  | .customs => { b with customs := a.customs }
  | .changed => { b with changed := a.changed }
  | .birthday => { b with birthday := a.birthday, birthdayWithTime := a.birthdayWithTime }
  | .text .nickName => { b with nickNames := a.nickNames }
  | .text .title => { b with titles := a.titles }
  | .text .role => { b with roles := a.roles }
  | .text .organization => { b with organizations := a.organizations }

theorem sameIn_refl (a : Contact) (f : Field) : SameIn a a f := by
  cases f with
  | birthday => exact ⟨rfl, rfl⟩
  | text k => cases k <;> rfl
  | _ => rfl

theorem sameIn_trans {a b c : Contact} {f : Field} (h : SameIn a b f) (h' : SameIn b c f) : SameIn a c f := by
  cases f with
  | birthday => exact ⟨Eq.trans h.1 h'.1, Eq.trans h.2 h'.2⟩
  | text k => cases k <;> exact Eq.trans h h'
  | _ => exact Eq.trans h h'

theorem sameIn_symm {a b : Contact} {f : Field} (h : SameIn a b f) : SameIn b a f := by
  cases f with
  | birthday => exact ⟨Eq.symm h.1, Eq.symm h.2⟩
  | text k => cases k <;> exact Eq.symm h
  | _ => exact Eq.symm h

theorem copyField_other (a b : Contact) {f g : Field} (h : g ≠ f) : SameIn (copyField a b f) b g := by
  cases f with
  | text k => cases k <;> cases g <;> first | exact absurd rfl h | exact ⟨rfl, rfl⟩ | rfl | (rename_i k; cases k <;> first | exact absurd rfl h | rfl)
  | _ => cases g <;> first | exact absurd rfl h | exact ⟨rfl, rfl⟩ | rfl | (rename_i k; cases k <;> rfl)

/-- Contacts that agree in all fields and in the mark whether they are empty are the same. -/
theorem contact_same_fields {a b : Contact} (h : ∀ f, SameIn a b f) (he : a.empty = b.empty) : a = b := by
  cases a
  cases b
  simp only [Contact.mk.injEq]
  exact ⟨h .uid, h .name, h .formattedName, h .familyName, h .givenName, h .additionalName, h .prefix_, h .suffix, (h .birthday).1, (h .birthday).2, h .mailer, h .timeZone, h .geo, h .department, h .note, h .productId, h .revision, h .sortString, h .secrecy, h .logo, h .photo, h .sound, h .deathDate, h .phoneNumbers, h .addresses, h .keys, h .emails, h .langs, h .impps, h .gender, h .kind, h .categories, h .customs, h .calendarUrls, h .extraSounds, h .extraPhotos, h .extraLogos, h .extraUrls, h .sources, h .members, h .relationships, h .fieldGroups, h (.text .title), h (.text .role), h (.text .organization), h (.text .nickName), h .clientPidMaps, he, h .changed⟩

/-- A call changes only its own field and the mark whether the contact is empty. -/
theorem apply_frame (E : QtEnv) (c : Contact) (op : Op) :
    c.apply E op = copyField (c.apply E op) { c with empty := (c.apply E op).empty } (fieldOf op) := by
  cases op with
  | addEmail e => simp only [Contact.apply, Contact.addEmail]; split <;> rfl
  | insertLang t => simp only [Contact.apply, Contact.insertLang]; split <;> first | rfl | (split <;> rfl)
  | insertPhoneNumber p => simp only [Contact.apply, Contact.insertPhoneNumber]; split <;> rfl
  | insertKey p => simp only [Contact.apply, Contact.insertKey]; split <;> rfl
  | insertAddress p => simp only [Contact.apply, Contact.insertAddress]; split <;> first | rfl | (split <;> rfl)
  | insertCustom a n v => simp only [Contact.apply, Contact.insertCustom]; split <;> first | rfl | (split <;> rfl)
  | removeCategory s => simp only [Contact.apply, Contact.removeCategory]; split <;> rfl
  | namedCustom f v =>
    simp only [Contact.apply, Contact.setNamedCustom, Contact.insertCustom, Contact.removeCustom]
    split <;> first | rfl | (split <;> first | rfl | (split <;> rfl))
  | text k s =>
    simp only [Contact.apply, Contact.setText, Contact.insertText, Contact.setTexts]
    split
    · cases k <;> rfl
    · split <;> cases k <;> rfl
  | insertText k t =>
    simp only [Contact.apply, Contact.insertText, Contact.setTexts]
    split <;> cases k <;> rfl
  | texts k l => cases k <;> rfl
  | url u => simp only [Contact.apply, Contact.setUrl, Contact.insertExtraUrl]; split <;> rfl
  | _ => first
      | rfl
      | (simp only [Contact.apply, Contact.setUid, Contact.setName, Contact.setKind, Contact.setFormattedName, Contact.setFamilyName,
          Contact.setGivenName, Contact.setAdditionalName, Contact.setPrefix, Contact.setSuffix, Contact.setMailer,
          Contact.setDepartment, Contact.setNote, Contact.setProductId, Contact.setSortString, Contact.setSecrecy,
          Contact.setGender, Contact.setTimeZone, Contact.setGeo, Contact.setLogo, Contact.setPhoto, Contact.setSound,
          Contact.setRevision, Contact.setDeathDate, Contact.setBirthday, Contact.setBirthdayDate, Contact.insertExtraUrl,
          Contact.insertFieldGroup, Contact.insertClientPidMap, Contact.insertImpp]
         split <;> rfl)

/-- What a call does to its field, and whether it marks the contact as not empty, depends on the old data of that field only. -/
theorem apply_local (E : QtEnv) (c d : Contact) (op : Op) (h : SameIn c d (fieldOf op)) :
    SameIn (c.apply E op) (d.apply E op) (fieldOf op) ∧
      ((c.apply E op).empty = c.empty ∧ (d.apply E op).empty = d.empty ∨ (c.apply E op).empty = false ∧ (d.apply E op).empty = false) := by
  cases op with
  | birthday t w =>
    obtain ⟨h1, h2⟩ := h
    simp only [fieldOf, SameIn, Contact.apply, Contact.setBirthday, h1, h2]
    split <;> simp_all
  | birthdayDate t =>
    obtain ⟨h1, h2⟩ := h
    simp only [fieldOf, SameIn, Contact.apply, Contact.setBirthdayDate, h1, h2]
    split <;> simp_all
  | text k s =>
    cases k <;>
    · simp only [fieldOf, SameIn] at h ⊢
      simp only [Contact.apply, Contact.setText, Contact.insertText, Contact.setTexts, Contact.texts, h]
      split
      · simp_all
      · split <;> simp_all
  | insertText k t =>
    cases k <;>
    · simp only [fieldOf, SameIn] at h ⊢
      simp only [Contact.apply, Contact.insertText, Contact.setTexts, Contact.texts, h]
      split <;> simp_all
  | texts k l => cases k <;> exact ⟨rfl, .inr ⟨rfl, rfl⟩⟩
  | _ =>
    simp only [fieldOf, SameIn] at h ⊢
    simp only [Contact.apply, Contact.setUid, Contact.setName, Contact.setKind, Contact.setFormattedName, Contact.setFamilyName,
          Contact.setGivenName, Contact.setAdditionalName, Contact.setPrefix, Contact.setSuffix, Contact.setMailer,
          Contact.setDepartment, Contact.setNote, Contact.setProductId, Contact.setSortString, Contact.setSecrecy,
          Contact.setGender, Contact.setTimeZone, Contact.setGeo, Contact.setLogo, Contact.setPhoto, Contact.setSound,
          Contact.setRevision, Contact.setDeathDate, Contact.insertExtraUrl, Contact.setUrl,
          Contact.insertFieldGroup, Contact.insertClientPidMap, Contact.insertImpp, Contact.insertExtraSound, Contact.insertExtraPhoto, Contact.insertExtraLogo,
          Contact.setExtraSoundList, Contact.setExtraPhotoList, Contact.setExtraLogoList, Contact.setExtraUrlList, Contact.insertSourceUrl, Contact.setSourcesUrlList,
          Contact.setFieldGroupList, Contact.setClientPidMapList, Contact.setImppList, Contact.insertCalendarUrl, Contact.addEmail, Contact.removeEmail,
          Contact.setEmails, Contact.setEmailList, Contact.insertLang, Contact.removeLang, Contact.setLangs, Contact.insertPhoneNumber, Contact.removePhoneNumber,
          Contact.setPhoneNumbers, Contact.insertKey, Contact.removeKey, Contact.setKeys, Contact.insertAddress, Contact.removeAddress, Contact.setAddresses,
          Contact.insertCategory, Contact.removeCategory, Contact.setCategories, Contact.insertMember, Contact.setMembers, Contact.insertRelationship,
          Contact.setRelationships, Contact.insertCustom, Contact.removeCustom, Contact.setCustoms, Contact.setNamedCustom, Contact.setChanged, h]
    repeat' split
    all_goals simp_all

theorem apply_other (E : QtEnv) (c : Contact) (op : Op) {g : Field} (h : g ≠ fieldOf op) : SameIn (c.apply E op) c g := by
  rw [apply_frame E c op]
  refine sameIn_trans (copyField_other _ _ h) ?_
  cases g with
  | birthday => exact ⟨rfl, rfl⟩
  | text k => cases k <;> rfl
  | _ => rfl

theorem callsFor_snoc (f : Field) (ops : List Op) (op : Op) : callsFor f (ops ++ [op]) = if fieldOf op = f then callsFor f ops ++ [op] else callsFor f ops := by
  unfold callsFor
  rw [List.filter_append]
  split <;> simp_all

theorem after_snoc (E : QtEnv) (u : QString) (ops : List Op) (op : Op) : contactAfter E u (ops ++ [op]) = (contactAfter E u ops).apply E op := by
  simp [contactAfter, List.foldl_append]

/-! ### The property -/

/-- **C70.** After any history of calls, a field has the data it has after the calls about that field alone. -/
theorem C70_fields (E : QtEnv) (u : QString) (ops : List Op) (f : Field) : SameIn (contactAfter E u ops) (contactAfter E u (callsFor f ops)) f := by
  induction ops using List.reverseRecOn with
  | nil => exact sameIn_refl _ f
  | append_singleton ops op ih =>
    rw [after_snoc, callsFor_snoc]
    split
    · rename_i h
      subst h
      rw [after_snoc]
      exact (apply_local E _ _ op ih).1
    · rename_i h
      exact sameIn_trans (apply_other E _ op (Ne.symm h)) ih

/-- A contact is empty exactly if it is empty after the calls about each field alone. -/
theorem empty_fields (E : QtEnv) (u : QString) (ops : List Op) : (contactAfter E u ops).empty = true ↔ ∀ f, (contactAfter E u (callsFor f ops)).empty = true := by
  induction ops using List.reverseRecOn with
  | nil => exact ⟨fun _ _ => rfl, fun _ => rfl⟩
  | append_singleton ops op ih =>
    have hl := (apply_local E _ _ op (C70_fields E u ops (fieldOf op))).2
    have hf : ∀ f, (contactAfter E u (callsFor f (ops ++ [op]))).empty =
        if fieldOf op = f then ((contactAfter E u (callsFor f ops)).apply E op).empty else (contactAfter E u (callsFor f ops)).empty := by
      intro f
      rw [callsFor_snoc]
      split
      · rw [after_snoc]
      · rfl
    rw [after_snoc]
    rcases hl with ⟨h1, h2⟩ | ⟨h1, h2⟩
    · rw [h1, ih]
      refine forall_congr' fun f => ?_
      rw [hf f]
      split
      · rename_i h
        subst h
        rw [h2]
      · rfl
    · rw [h1]
      refine ⟨fun h => absurd h (by decide), fun h => ?_⟩
      have := h (fieldOf op)
      rw [hf, if_pos rfl, h2] at this
      exact this

/-- **C70.** Two histories whose calls about each field are the same and in the same order give the same contact: the order of calls about different fields
    does not matter. -/
theorem C70_order (E : QtEnv) (u : QString) (ops ops' : List Op) (h : ∀ f, callsFor f ops = callsFor f ops') : contactAfter E u ops = contactAfter E u ops' := by
  apply contact_same_fields
  · intro f
    have h1 := C70_fields E u ops f
    rw [h f] at h1
    exact sameIn_trans h1 (sameIn_symm (C70_fields E u ops' f))
  · rw [Bool.eq_iff_iff, empty_fields, empty_fields]
    exact forall_congr' fun f => by rw [h f]

/-- **C70.** Two calls in a row about different fields can be swapped. -/
theorem C70_swap (E : QtEnv) (u : QString) (before after : List Op) (a b : Op) (h : fieldOf a ≠ fieldOf b) :
    contactAfter E u (before ++ a :: b :: after) = contactAfter E u (before ++ b :: a :: after) := by
  apply C70_order
  intro f
  simp only [callsFor, List.filter_append, List.filter_cons]
  congr 1
  by_cases ha : fieldOf a = f
  · by_cases hb : fieldOf b = f
    · exact absurd (ha.trans hb.symm) h
    · simp [ha, hb]
  · simp [ha]

/-- what a field has after a call about it that no other call about it follows -/
theorem after_last (E : QtEnv) (u : QString) (before after : List Op) (f : Field) (op : Op) (hf : fieldOf op = f) (h : callsFor f after = []) :
    SameIn (contactAfter E u (before ++ op :: after)) ((contactAfter E u (callsFor f before)).apply E op) f := by
  have := C70_fields E u (before ++ op :: after) f
  have e : callsFor f (before ++ op :: after) = callsFor f before ++ [op] := by
    unfold callsFor at h ⊢
    rw [List.filter_append, List.filter_cons, h]
    simp [hf]
  rwa [e, after_snoc] at this

/-- **C70.** The last value set for a field of one text or value is the one read, whatever other calls came before, between and after. -/
theorem C70_last (E : QtEnv) (u : QString) (before after : List Op) (s : QString) (y : Secrecy) (g : Gender) (b : Bool) :
    (callsFor .uid after = [] → (contactAfter E u (before ++ .uid s :: after)).uid = s) ∧
    (callsFor .name after = [] → (contactAfter E u (before ++ .name s :: after)).name = s) ∧
    (callsFor .kind after = [] → (contactAfter E u (before ++ .kind s :: after)).kind = s) ∧
    (callsFor .formattedName after = [] → (contactAfter E u (before ++ .formattedName s :: after)).formattedName = s) ∧
    (callsFor .familyName after = [] → (contactAfter E u (before ++ .familyName s :: after)).familyName = s) ∧
    (callsFor .givenName after = [] → (contactAfter E u (before ++ .givenName s :: after)).givenName = s) ∧
    (callsFor .additionalName after = [] → (contactAfter E u (before ++ .additionalName s :: after)).additionalName = s) ∧
    (callsFor .prefix_ after = [] → (contactAfter E u (before ++ .prefix_ s :: after)).prefix_ = s) ∧
    (callsFor .suffix after = [] → (contactAfter E u (before ++ .suffix s :: after)).suffix = s) ∧
    (callsFor .mailer after = [] → (contactAfter E u (before ++ .mailer s :: after)).mailer = s) ∧
    (callsFor .department after = [] → (contactAfter E u (before ++ .department s :: after)).department = s) ∧
    (callsFor .note after = [] → (contactAfter E u (before ++ .note s :: after)).note = s) ∧
    (callsFor .productId after = [] → (contactAfter E u (before ++ .productId s :: after)).productId = s) ∧
    (callsFor .sortString after = [] → (contactAfter E u (before ++ .sortString s :: after)).sortString = s) ∧
    (callsFor .secrecy after = [] → (contactAfter E u (before ++ .secrecy y :: after)).secrecy = y) ∧
    (callsFor .gender after = [] → (contactAfter E u (before ++ .gender g :: after)).gender = g) ∧
    (callsFor .changed after = [] → (contactAfter E u (before ++ .changed b :: after)).changed = b) := by
  have key := after_last E u before after
  refine ⟨fun h => Eq.trans (key .uid (.uid s) rfl h) ?_, fun h => Eq.trans (key .name (.name s) rfl h) ?_, fun h => Eq.trans (key .kind (.kind s) rfl h) ?_,
    fun h => Eq.trans (key .formattedName (.formattedName s) rfl h) ?_, fun h => Eq.trans (key .familyName (.familyName s) rfl h) ?_,
    fun h => Eq.trans (key .givenName (.givenName s) rfl h) ?_, fun h => Eq.trans (key .additionalName (.additionalName s) rfl h) ?_,
    fun h => Eq.trans (key .prefix_ (.prefix_ s) rfl h) ?_, fun h => Eq.trans (key .suffix (.suffix s) rfl h) ?_, fun h => Eq.trans (key .mailer (.mailer s) rfl h) ?_,
    fun h => Eq.trans (key .department (.department s) rfl h) ?_, fun h => Eq.trans (key .note (.note s) rfl h) ?_, fun h => Eq.trans (key .productId (.productId s) rfl h) ?_,
    fun h => Eq.trans (key .sortString (.sortString s) rfl h) ?_, fun h => Eq.trans (key .secrecy (.secrecy y) rfl h) ?_, fun h => Eq.trans (key .gender (.gender g) rfl h) ?_,
    fun h => Eq.trans (key .changed (.changed b) rfl h) ?_⟩
  · simp only [Contact.apply, Contact.setUid]; split <;> simp_all
  · simp only [Contact.apply, Contact.setName]; split <;> simp_all
  · simp only [Contact.apply, Contact.setKind]; split <;> simp_all
  · simp only [Contact.apply, Contact.setFormattedName]; split <;> simp_all
  · simp only [Contact.apply, Contact.setFamilyName]; split <;> simp_all
  · simp only [Contact.apply, Contact.setGivenName]; split <;> simp_all
  · simp only [Contact.apply, Contact.setAdditionalName]; split <;> simp_all
  · simp only [Contact.apply, Contact.setPrefix]; split <;> simp_all
  · simp only [Contact.apply, Contact.setSuffix]; split <;> simp_all
  · simp only [Contact.apply, Contact.setMailer]; split <;> simp_all
  · simp only [Contact.apply, Contact.setDepartment]; split <;> simp_all
  · simp only [Contact.apply, Contact.setNote]; split <;> simp_all
  · simp only [Contact.apply, Contact.setProductId]; split <;> simp_all
  · simp only [Contact.apply, Contact.setSortString]; split <;> simp_all
  · simp only [Contact.apply, Contact.setSecrecy]; split <;> simp_all
  · simp only [Contact.apply, Contact.setGender]; split <;> simp_all
  · rfl

/-- setting the text of a list of texts -/
private theorem setText_text (c : Contact) (k : TextList) (s : QString) : firstText ((c.setText k s).texts k) = s := by
  have first : ∀ l : List ParamText, l ≠ [] → firstText (setFirstText l s) = s := by
    intro l hl
    cases l with
    | nil => exact absurd rfl hl
    | cons t r => rfl
  unfold Contact.setText
  split
  · rename_i h
    have h0 : c.texts k ≠ [] := by simpa using h
    cases k <;> exact first _ h0
  · rename_i h
    have h0 : c.texts k = [] := by simpa using h
    unfold Contact.insertText
    split
    · rw [h0]
      cases k <;> rfl
    · rename_i hv
      rw [h0]
      simp [ParamText.isValid] at hv
      simp [firstText, hv]

/-- **C70.** A list that is set is the list that is read, whatever other calls came before, between and after. -/
theorem C70_lists (E : QtEnv) (u : QString) (before after : List Op) :
    (∀ l : List Sound, callsFor .extraSounds after = [] → (contactAfter E u (before ++ .extraSounds l :: after)).extraSounds = l) ∧
    (∀ l : List Picture, callsFor .extraPhotos after = [] → (contactAfter E u (before ++ .extraPhotos l :: after)).extraPhotos = l) ∧
    (∀ l : List Picture, callsFor .extraLogos after = [] → (contactAfter E u (before ++ .extraLogos l :: after)).extraLogos = l) ∧
    (∀ l : List ParamUrl, callsFor .extraUrls after = [] → (contactAfter E u (before ++ .extraUrls l :: after)).extraUrls = l) ∧
    (∀ l : List QString, callsFor .sources after = [] → (contactAfter E u (before ++ .sources l :: after)).sources = l) ∧
    (∀ l : List FieldGroup, callsFor .fieldGroups after = [] → (contactAfter E u (before ++ .fieldGroups l :: after)).fieldGroups = l) ∧
    (∀ l : List ParamText, callsFor .clientPidMaps after = [] → (contactAfter E u (before ++ .clientPidMaps l :: after)).clientPidMaps = l) ∧
    (∀ l : List ParamUrl, callsFor .impps after = [] → (contactAfter E u (before ++ .impps l :: after)).impps = l) ∧
    (∀ l : List ParamText, callsFor .langs after = [] → (contactAfter E u (before ++ .langs l :: after)).langs = l) ∧
    (∀ l : List PhoneNumber, callsFor .phoneNumbers after = [] → (contactAfter E u (before ++ .phoneNumbers l :: after)).phoneNumbers = l) ∧
    (∀ l : List Key, callsFor .keys after = [] → (contactAfter E u (before ++ .keys l :: after)).keys = l) ∧
    (∀ l : List Address, callsFor .addresses after = [] → (contactAfter E u (before ++ .addresses l :: after)).addresses = l) ∧
    (∀ l : List QString, callsFor .categories after = [] → (contactAfter E u (before ++ .categories l :: after)).categories = l) ∧
    (∀ l : List QString, callsFor .members after = [] → (contactAfter E u (before ++ .members l :: after)).members = l) ∧
    (∀ l : List ParamText, callsFor .relationships after = [] → (contactAfter E u (before ++ .relationships l :: after)).relationships = l) ∧
    (∀ l : List Email, callsFor .emails after = [] → (contactAfter E u (before ++ .setEmailList l :: after)).emails = l) ∧
    (∀ l : List QString, callsFor .emails after = [] → (contactAfter E u (before ++ .setEmails l :: after)).emails.map (·.mail) = l) ∧
    (∀ (k : TextList) (l : List ParamText), callsFor (.text k) after = [] → (contactAfter E u (before ++ .texts k l :: after)).texts k = l) ∧
    (∀ (k : TextList) (s : QString), callsFor (.text k) after = [] → (contactAfter E u (before ++ .text k s :: after)).text k = s) := by
  have key := after_last E u before after
  refine ⟨fun l h => key .extraSounds (.extraSounds l) rfl h, fun l h => key .extraPhotos (.extraPhotos l) rfl h, fun l h => key .extraLogos (.extraLogos l) rfl h, fun l h => key .extraUrls (.extraUrls l) rfl h, fun l h => key .sources (.sources l) rfl h, fun l h => key .fieldGroups (.fieldGroups l) rfl h, fun l h => key .clientPidMaps (.clientPidMaps l) rfl h, fun l h => key .impps (.impps l) rfl h, fun l h => key .langs (.langs l) rfl h, fun l h => key .phoneNumbers (.phoneNumbers l) rfl h, fun l h => key .keys (.keys l) rfl h, fun l h => key .addresses (.addresses l) rfl h, fun l h => key .categories (.categories l) rfl h, fun l h => key .members (.members l) rfl h, fun l h => key .relationships (.relationships l) rfl h,
    fun l h => key .emails (.setEmailList l) rfl h, fun l h => ?_, fun k l h => ?_, fun k s h => ?_⟩
  · have e := key .emails (.setEmails l) rfl h
    rw [show (contactAfter E u (before ++ .setEmails l :: after)).emails = _ from e]
    simp only [Contact.apply, Contact.setEmails, List.map_map]
    exact List.map_id l
  · have e := key (.text k) (.texts k l) rfl h
    cases k <;> exact e
  · have e := key (.text k) (.text k s) rfl h
    have e2 : (contactAfter E u (before ++ .text k s :: after)).texts k = (((contactAfter E u (callsFor (.text k) before)).apply E (.text k s))).texts k := by
      cases k <;> exact e
    unfold Contact.text
    rw [e2]
    exact setText_text _ k s

/-- **C70.** The last time zone, place, sound, time stamp, birthday and picture set is the one read, as far as these kinds of values are told apart: a
    value that compares equal to the one already there is not stored (a date of birth set with a time is covered by `C70_birthday` below). -/
theorem C70_compared (E : QtEnv) (u : QString) (before after : List Op) :
    (∀ t : TimeZone, callsFor .timeZone after = [] → ∃ r, (contactAfter E u (before ++ .timeZone t :: after)).timeZone = r ∧
      r.isValid = t.isValid ∧ (t.isValid = true → r.offset = t.offset)) ∧
    (∀ g : Geo, callsFor .geo after = [] → ∃ r, (contactAfter E u (before ++ .geo g :: after)).geo = r ∧ (r = g ∨ (r.isValid = g.isValid ∧
      (g.isValid = true → r.latitude.eq g.latitude = true ∧ r.longitude.eq g.longitude = true)))) ∧
    (∀ s : Sound, callsFor .sound after = [] → ∃ r, (contactAfter E u (before ++ .sound s :: after)).sound = r ∧
      r.isIntern = s.isIntern ∧ r.type = s.type ∧ (if s.isIntern then r.data = s.data else r.url = s.url)) ∧
    (∀ d : QDateTime, callsFor .revision after = [] → QDateTime.eq E d (contactAfter E u (before ++ .revision d :: after)).revision = true) ∧
    (∀ d : QDateTime, callsFor .deathDate after = [] → QDateTime.eq E d (contactAfter E u (before ++ .deathDate d :: after)).deathDate = true) ∧
    (∀ d : Option (Int × Nat × Nat), callsFor .birthday after = [] → ∃ r, contactAfter E u (before ++ .birthdayDate d :: after) = r ∧
      r.birthday.map (·.date) = d ∧ r.birthdayWithTime = false) ∧
    (∀ p : Picture, callsFor .photo after = [] → ∃ r, (contactAfter E u (before ++ .photo p :: after)).photo = r ∧ (r = p ∨ p.eq E r = true)) ∧
    (∀ p : Picture, callsFor .logo after = [] → ∃ r, (contactAfter E u (before ++ .logo p :: after)).logo = r ∧ (r = p ∨ p.eq E r = true)) := by
  have key := after_last E u before after
  have refl : ∀ d, QDateTime.eq E d d = true := by
    intro d
    cases d <;> simp [QDateTime.eq]
  refine ⟨fun t h => ⟨_, key .timeZone (.timeZone t) rfl h, ?_⟩, fun g h => ⟨_, key .geo (.geo g) rfl h, ?_⟩, fun s h => ⟨_, key .sound (.sound s) rfl h, ?_⟩,
    fun d h => ?_, fun d h => ?_, fun d h => ⟨_, rfl, ?_⟩, fun p h => ⟨_, key .photo (.photo p) rfl h, ?_⟩, fun p h => ⟨_, key .logo (.logo p) rfl h, ?_⟩⟩
  · simp only [Contact.apply, Contact.setTimeZone]
    split
    · rename_i h
      unfold TimeZone.eq at h
      grind
    · exact ⟨rfl, fun _ => rfl⟩
  · simp only [Contact.apply, Contact.setGeo]
    split
    · rename_i h
      unfold Geo.eq at h
      refine Or.inr ?_
      grind
    · exact Or.inl rfl
  · simp only [Contact.apply, Contact.setSound]
    split
    · rename_i h
      unfold Sound.eq at h
      grind
    · exact ⟨rfl, rfl, by split <;> rfl⟩
  · rw [show _ = _ from key .revision (.revision d) rfl h]
    simp only [Contact.apply, Contact.setRevision]
    split
    · assumption
    · exact refl d
  · rw [show _ = _ from key .deathDate (.deathDate d) rfl h]
    simp only [Contact.apply, Contact.setDeathDate]
    split
    · assumption
    · exact refl d
  · obtain ⟨e1, e2⟩ := key .birthday (.birthdayDate d) rfl h
    rw [e1, e2]
    simp only [Contact.apply, Contact.setBirthdayDate]
    split
    · rename_i h
      simp only [Bool.and_eq_true, decide_eq_true_eq, Bool.not_eq_true'] at h
      exact ⟨h.1.symm, h.2⟩
    · refine ⟨?_, rfl⟩
      cases d <;> rfl
  · simp only [Contact.apply, Contact.setPhoto]
    split
    · exact Or.inr (by assumption)
    · exact Or.inl rfl
  · simp only [Contact.apply, Contact.setLogo]
    split
    · exact Or.inr (by assumption)
    · exact Or.inl rfl

/-- **C70.** A date of birth that is set with its time of day is the one read: the same moment, with a time. Set without its time, the contact has a date
    of birth without a time, which is midnight of the day that was set or - when the one there before was the same moment - the one there before. -/
theorem C70_birthday (E : QtEnv) (u : QString) (before after : List Op) (d : QDateTime) (h : callsFor .birthday after = []) :
    (∃ r, contactAfter E u (before ++ .birthday d true :: after) = r ∧ QDateTime.eq E d r.birthday = true ∧ r.birthdayWithTime = true) ∧
    (∃ r, contactAfter E u (before ++ .birthday d false :: after) = r ∧ r.birthdayWithTime = false ∧
      (r.birthday = d.map (fun x => { x with time := (0, 0, 0, 0) }) ∨
        ((contactAfter E u before).birthdayWithTime = false ∧ r.birthday = (contactAfter E u before).birthday ∧
          QDateTime.eq E d (contactAfter E u before).birthday = true))) := by
  have refl : ∀ d, QDateTime.eq E d d = true := by
    intro d
    cases d <;> simp [QDateTime.eq]
  have hb := C70_fields E u before .birthday
  refine ⟨⟨_, rfl, ?_⟩, ⟨_, rfl, ?_⟩⟩
  · obtain ⟨e1, e2⟩ := after_last E u before after .birthday (.birthday d true) rfl h
    rw [e1, e2]
    simp only [Contact.apply, Contact.setBirthday]
    split
    · rename_i h
      simp only [Bool.and_eq_true, decide_eq_true_eq] at h
      exact h
    · exact ⟨refl d, rfl⟩
  · obtain ⟨e1, e2⟩ := after_last E u before after .birthday (.birthday d false) rfl h
    rw [e1, e2, hb.1, hb.2]
    simp only [Contact.apply, Contact.setBirthday]
    split
    · rename_i h
      simp only [Bool.and_eq_true, decide_eq_true_eq] at h
      exact ⟨h.2, Or.inr ⟨h.2, rfl, h.1⟩⟩
    · exact ⟨rfl, Or.inl rfl⟩

/-- **C70 is false of days of birth with time zones**: the 2nd of January at midnight in Greenwich is the 1st at 23 o'clock one hour to the west; when the
    contact was born on that 2nd, setting the 1st (without a time) changes nothing and the 2nd stays. -/
theorem C70_birthday_false (E : QtEnv) (u : QString) (h : E.instant (2000, 1, 1) (23, 0, 0, 0) (some (-3600)) = E.instant (2000, 1, 2) (0, 0, 0, 0) (some 0)) :
    (contactAfter E u [.birthday (some { date := (2000, 1, 2), time := (0, 0, 0, 0), zone := some 0 }) false,
      .birthday (some { date := (2000, 1, 1), time := (23, 0, 0, 0), zone := some (-3600) }) false]).birthday.map (·.date) = some (2000, 1, 2) := by
  simp [contactAfter, Contact.apply, Contact.setBirthday, QDateTime.eq, QDateTime.midnight, Contact.new, h]

/-! ### Instances -/

/-- a history with calls about four fields -/
def mixedCalls : List Op := [.givenName (q! "Ann"), .addEmail { mail := q! "a@b" }, .givenName (q! "Anna"), .insertCategory (q! "x"), .note (q! "n")]

example : callsFor .givenName mixedCalls = [.givenName (q! "Ann"), .givenName (q! "Anna")] := rfl
example : callsFor .emails mixedCalls = [.addEmail { mail := q! "a@b" }] := rfl
example : fieldOf (.givenName (q! "Ann")) ≠ fieldOf (.addEmail { mail := q! "a@b" }) := by decide
example (E : QtEnv) : (contactAfter E (q! "u") mixedCalls).givenName = q! "Anna" := rfl

example (E : QtEnv) : (contactAfter E (q! "u") (mixedCalls ++ .categories [q! "y", q! "z"] :: mixedCalls.take 3)).categories = [q! "y", q! "z"] :=
  (C70_lists E (q! "u") mixedCalls (mixedCalls.take 3)).2.2.2.2.2.2.2.2.2.2.2.2.1 _ rfl
/-- The hypothesis of `C70_birthday_false` holds of real clocks. -/
example (E : QtEnv) (h : ∀ y m d hh mm ss ms z, E.instant (y, m, d) (hh, mm, ss, ms) (some z) = ((((y * 12 + m) * 31 + d) * 24 + hh) * 3600 + mm * 60 + ss - z) * 1000 + ms) :
    E.instant (2000, 1, 1) (23, 0, 0, 0) (some (-3600)) = E.instant (2000, 1, 2) (0, 0, 0, 0) (some 0) := by
  rw [h, h]
  decide

end KC
