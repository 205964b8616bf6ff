import Verif.Lemmas.LdifPairs
import Verif.Lemmas.Fields1
/-
  The import of the attributes of an exported contact, field by field.
-/
namespace KC
open KC.Spec

/-! ### attributes by their meaning -/

/-- Do something for every attribute with a value. -/
def runField {α : Type} (g : LdifField → QString → α → α) : List (LdifField × QString) → α → α
  | [], x => x
  | p :: l, x => runField g l (if p.2.isEmpty then x else g p.1 p.2 x)

theorem runField_cons {α : Type} (g : LdifField → QString → α → α) (k : LdifField) (v : QString) (l : List (LdifField × QString)) (x : α) :
    runField g ((k, v) :: l) x = runField g l (if v.isEmpty then x else g k v x) := rfl

theorem runField_nil {α : Type} (g : LdifField → QString → α → α) (x : α) : runField g [] x = x := rfl

theorem runField_append {α : Type} (g : LdifField → QString → α → α) (l l' : List (LdifField × QString)) (x : α) :
    runField g (l ++ l') x = runField g l' (runField g l x) := by
  induction l generalizing x with
  | nil => rfl
  | cons p l ih => exact ih _

theorem runField_id {α : Type} (g : LdifField → QString → α → α) (l : List (LdifField × QString)) (h : ∀ p ∈ l, ∀ x, g p.1 p.2 x = x) (x : α) :
    runField g l x = x := by
  induction l generalizing x with
  | nil => rfl
  | cons p l ih =>
    rw [runField, h p (by simp), ite_self]
    exact ih (fun q hq => h q (by simp [hq])) x

theorem runField_filter {α : Type} (g : LdifField → QString → α → α) (rel : LdifField → Bool) (h : ∀ k v x, rel k = false → g k v x = x)
    (l : List (LdifField × QString)) (x : α) : runField g l x = runField g (l.filter fun p => rel p.1) x := by
  induction l generalizing x with
  | nil => rfl
  | cons p l ih =>
    cases hr : rel p.1 with
    | true => rw [List.filter_cons_of_pos (by simp [hr]), runField, runField, ih]
    | false => rw [List.filter_cons_of_neg (by simp [hr]), runField, h _ _ _ hr, ite_self, ih]

/-- The attributes with their meaning. -/
def fieldsOf (ps : List (QString × QString)) : List (LdifField × QString) := ps.map fun p => (ldifField false p.1, p.2)

theorem ldifField_plain {name : QString} (b : Bool) (h : plainName name = true) : ldifField b name = ldifField false name := by
  have : name.isEmpty = false := by
    cases name with
    | nil => exact absurd rfl (plainName_chars h).1
    | cons => rfl
  unfold ldifField
  rw [this]
  simp

theorem evalPairs_fields (E : LdifEnv) (ids : Nat → QString) (ps : List (QString × QString)) (h : ∀ p ∈ ps, plainName p.1 = true) (s : LdifState) :
    evalPairs E ids s ps = runField (fun k v s => ldifApply E ids s k v) (fieldsOf ps) s := by
  induction ps generalizing s with
  | nil => rfl
  | cons p ps ih =>
    have ih' := ih (fun q hq => h q (by simp [hq]))
    simp only [evalPairs, written] at ih'
    simp only [fieldsOf, List.map_cons, runField_cons]
    cases hv : p.2.isEmpty with
    | true =>
      rw [if_pos rfl, ← fieldsOf, ← ih', evalPairs, written, List.filter_cons_of_neg (by simp [hv])]
    | false =>
      rw [if_neg (by decide), ← fieldsOf, ← ih', evalPairs, written, List.filter_cons_of_pos (by simp [hv]), List.foldl_cons, evaluatePair,
        ldifField_plain _ (h p (by simp))]

/-- Following one part of the state. -/
theorem runField_part {α : Type} (E : LdifEnv) (ids : Nat → QString) (π : LdifState → α) (g : LdifField → QString → α → α) (I : LdifState → Prop)
    (l : List (LdifField × QString))
    (h : ∀ p ∈ l, ∀ s, p.2 ≠ [] → I s → I (ldifApply E ids s p.1 p.2) ∧ π (ldifApply E ids s p.1 p.2) = g p.1 p.2 (π s)) (s : LdifState) (hs : I s) :
    I (runField (fun k v s => ldifApply E ids s k v) l s) ∧ π (runField (fun k v s => ldifApply E ids s k v) l s) = runField g l (π s) := by
  induction l generalizing s with
  | nil => exact ⟨hs, rfl⟩
  | cons p l ih =>
    have ih' := ih (fun q hq => h q (by simp [hq]))
    rw [runField, runField]
    cases hv : p.2.isEmpty with
    | true => exact ih' s hs
    | false =>
      have h1 := h p (by simp) s (by intro he; rw [he] at hv; simp at hv) hs
      have h2 := ih' _ h1.1
      rw [h1.2] at h2
      exact h2

/-- The e-mail addresses after the first. -/
def emailFields (es : List QString) : List (LdifField × QString) := (es.drop 1).map fun e => (.email, e)

/-- The meanings before and after the e-mail addresses. -/
def fields1 (c : Contact) : List (LdifField × QString) :=
  [(.ignored, q! "top"), (.ignored, q! "person"), (.ignored, q! "organizationalPerson"), (.givenName, c.givenName), (.familyName, c.familyName),
   (.formattedName, simplified c.formattedName), (.uid, c.uid), (.nickName, c.text .nickName), (.nickName, c.text .nickName),
   (.nickName, c.text .nickName), (.email, c.preferredEmail)]

def fields2 (E : LdifEnv) (fresh : QString) (c : Contact) : List (LdifField × QString) :=
  let home := c.address fresh 16
  let work := c.address fresh 32
  [(.phone 2, (c.phoneNumber fresh 2).number), (.phone 32, (c.phoneNumber fresh 32).number), (.phone 1, (c.phoneNumber fresh 1).number),
   (.phone 64, (c.phoneNumber fresh 64).number), (.phone 64, (c.phoneNumber fresh 64).number), (.phone 8192, (c.phoneNumber fresh 8192).number),
   (.phone 8192, (c.phoneNumber fresh 8192).number), (.homeStreet, home.street), (.workPostalCode, work.postalCode),
   (.workPostOfficeBox, work.postOfficeBox), (.homeStreet, (streetLines home.street).1), (.homeStreet2, (streetLines home.street).2),
   (.homeLocality, home.locality), (.homeRegion, home.region), (.homePostalCode, home.postalCode), (.homeCountry, E.countryName home.country),
   (.workLocality, work.locality), (.workStreet, work.street), (.workStreet, (streetLines work.street).1), (.workStreet2, (streetLines work.street).2),
   (.workCountry, E.countryName work.country), (.workLocality, work.locality), (.workCountry, E.countryName work.country), (.workRegion, work.region),
   (.title, c.text .title), (.prefix_, c.prefix_), (.role, c.text .role), (.organization, c.text .organization), (.organization, c.text .organization),
   (.organization, c.text .organization), (.department, departmentOf c), (.url, E.urlDisplay c.url.url), (.url, E.urlDisplay c.url.url),
   (.url, E.urlDisplay c.url.url), (.note, c.note), (.revision, revisionText c.revision), (.birthYear, (birthTexts c.birthday).1),
   (.birthMonth, (birthTexts c.birthday).2.1), (.birthDay, (birthTexts c.birthday).2.2)]

theorem fieldsOf_ldifPairs (E : LdifEnv) (fresh : QString) (c : Contact) :
    fieldsOf (ldifPairs E fresh c) = fields1 c ++ emailFields c.emailAddresses ++ fields2 E fresh c := by
  have e1 : fieldsOf (ldifPairs1 c) = fields1 c := rfl
  have e2 : fieldsOf (ldifPairs2 E fresh c) = fields2 E fresh c := rfl
  have e3 : fieldsOf (emailPairs c.emailAddresses) = emailFields c.emailAddresses := by
    unfold emailPairs emailFields
    cases c.emailAddresses.drop 1 with
    | nil => rfl
    | cons e t =>
      simp only [fieldsOf, List.map_cons, List.map_map]
      have a1 : ldifField false (q! "mozillasecondemail") = .email := by decide
      have a2 : ldifField false (q! "othermailbox") = .email := by decide
      simp only [Function.comp_def, a1, a2]
  have : fieldsOf (ldifPairs E fresh c) = fieldsOf (ldifPairs1 c) ++ fieldsOf (emailPairs c.emailAddresses) ++ fieldsOf (ldifPairs2 E fresh c) := by
    simp [ldifPairs, fieldsOf]
  rw [this, e1, e2, e3]

/-- The state after the attributes of an exported contact. -/
def afterExport (E : LdifEnv) (ids : Nat → QString) (fresh : QString) (c : Contact) (s : LdifState) : LdifState :=
  evalPairs E ids s (ldifPairs E fresh c)

theorem after_part {α : Type} (E : LdifEnv) (ids : Nat → QString) (fresh : QString) (c : Contact) (π : LdifState → α) (g : LdifField → QString → α → α)
    (I : LdifState → Prop)
    (h : ∀ p ∈ fields1 c ++ emailFields c.emailAddresses ++ fields2 E fresh c, ∀ s, p.2 ≠ [] → I s →
      I (ldifApply E ids s p.1 p.2) ∧ π (ldifApply E ids s p.1 p.2) = g p.1 p.2 (π s)) (s : LdifState) (hs : I s) :
    I (afterExport E ids fresh c s) ∧
    π (afterExport E ids fresh c s) = runField g (fields2 E fresh c) (runField g (emailFields c.emailAddresses) (runField g (fields1 c) (π s))) := by
  have := runField_part E ids π g I (fields1 c ++ emailFields c.emailAddresses ++ fields2 E fresh c) h s hs
  rw [runField_append, runField_append] at this
  unfold afterExport
  rw [evalPairs_fields E ids _ (fun p hp => (ldifPairs_names E fresh c p hp).1), fieldsOf_ldifPairs]
  rw [runField_append, runField_append]
  rw [runField_append, runField_append] at this
  exact this

theorem fields_noBat (E : LdifEnv) (fresh : QString) (c : Contact) :
    ∀ p ∈ fields1 c ++ emailFields c.emailAddresses ++ fields2 E fresh c, p.1 ≠ .batBirthday ∧ p.1 ≠ .noteLine ∧ p.1 ≠ .member ∧ p.1 ≠ .groupName := by
  intro p hp
  simp only [List.mem_append] at hp
  have k1 : ∀ f ∈ (fields1 c).map (·.1), f ≠ .batBirthday ∧ f ≠ .noteLine ∧ f ≠ .member ∧ f ≠ .groupName := by
    have : (fields1 c).map (·.1) = (fields1 (Contact.new [])).map (·.1) := rfl
    rw [this]; decide
  have k2 : ∀ f ∈ (fields2 E fresh c).map (·.1), f ≠ .batBirthday ∧ f ≠ .noteLine ∧ f ≠ .member ∧ f ≠ .groupName := by
    have : (fields2 E fresh c).map (·.1) = (fields2 sampleLdifEnv [] (Contact.new [])).map (·.1) := rfl
    rw [this]; decide
  rcases hp with (hp | hp) | hp
  · exact k1 _ (List.mem_map.2 ⟨p, hp, rfl⟩)
  · obtain ⟨e, _, rfl⟩ := List.mem_map.1 hp
    simp
  · exact k2 _ (List.mem_map.2 ⟨p, hp, rfl⟩)

/-- The attributes that an exported contact has none of. -/
def Exported (k : LdifField) : Prop := k ≠ .batBirthday ∧ k ≠ .noteLine ∧ k ≠ .member ∧ k ≠ .groupName

/-- Following a part that the e-mail addresses do not change. -/
theorem after_simple {α : Type} (E : LdifEnv) (ids : Nat → QString) (fresh : QString) (c : Contact) (π : LdifState → α) (g : LdifField → QString → α → α)
    (rel : LdifField → Bool)
    (h : ∀ k v s, Exported k → v ≠ [] → π (ldifApply E ids s k v) = g k v (π s)) (hr : ∀ k v x, rel k = false → g k v x = x) (he : rel .email = false)
    (s : LdifState) :
    π (afterExport E ids fresh c s) = runField g ((fields1 c ++ fields2 E fresh c).filter fun p => rel p.1) (π s) := by
  have := (after_part E ids fresh c π g (fun _ => True)
    (fun p hp s hv _ => ⟨trivial, h p.1 p.2 s (fields_noBat E fresh c p hp) hv⟩) s trivial).2
  rw [this, ← runField_filter g rel hr, runField_append]
  congr 1
  apply runField_id
  intro p hp x
  obtain ⟨e, _, rfl⟩ := List.mem_map.1 hp
  exact hr _ e x he

/-! ### what one attribute does to the contact -/

/-- A field that is stored. -/
def store (k : LdifField) (k' : LdifField) (v x : QString) : QString := if k' = k then v else x

/-- The note. -/
def storeNote (k : LdifField) (v x : QString) : QString := if k = .note then (if x.isEmpty then v else x ++ q! "\n" ++ v) else x
/-- A list of texts. -/
def storeText (k : LdifField) (k' : LdifField) (v : QString) (x : List ParamText) : List ParamText := if k' = k then setFirstText x v else x
/-- The e-mail addresses. -/
def storeEmail (k : LdifField) (v : QString) (x : List Email) : List Email :=
  if k = .email then (if v ∈ x.map (·.mail) then x else x ++ [{ mail := v }]) else x
/-- The URLs. -/
def storeUrl (E : LdifEnv) (k : LdifField) (v : QString) (x : List ParamUrl) : List ParamUrl :=
  if k = .url then (if (x.headD {}).url.isEmpty && E.urlValid (E.urlOf v) then x ++ [{ url := E.urlOf v }] else x) else x
/-- The revision. -/
def storeRevision (E : LdifEnv) (k : LdifField) (v : QString) (x : QDateTime) : QDateTime :=
  if k = .revision then (if v ≠ q! "0Z" ∧ (vCardStringToDate v).isSome = true ∧ QDateTime.eq E.toQtEnv (vCardStringToDate v) x = false then vCardStringToDate v else x) else x
/-- The phone numbers. -/
def storePhone (id : QString) (k : LdifField) (v : QString) (x : List PhoneNumber) : List PhoneNumber :=
  match k with
  | .phone t => ((Contact.new []).setPhoneNumbers x |>.insertPhoneNumber (PhoneNumber.mk' id v t)).phoneNumbers
  | _ => x

/-- The contact with the fields an attribute changes. -/
def storeAll (E : LdifEnv) (id : QString) (k : LdifField) (v : QString) (c : Contact) (e : Bool) : Contact :=
  { c with
    givenName := store .givenName k v c.givenName
    familyName := store .familyName k v c.familyName
    formattedName := store .formattedName k v c.formattedName
    uid := store .uid k v c.uid
    prefix_ := store .prefix_ k v c.prefix_
    department := store .department k v c.department
    note := storeNote k v c.note
    nickNames := storeText .nickName k v c.nickNames
    titles := storeText .title k v c.titles
    roles := storeText .role k v c.roles
    organizations := storeText .organization k v c.organizations
    emails := storeEmail k v c.emails
    extraUrls := storeUrl E k v c.extraUrls
    revision := storeRevision E k v c.revision
    phoneNumbers := storePhone id k v c.phoneNumbers
    empty := e }

theorem ite_uid (c : Contact) (b : Prop) [Decidable b] (d : Contact) (h : b → c = d) : (if b then c else d) = d := by
  split
  · exact h ‹_›
  · rfl

theorem setText_nick (c : Contact) (v : QString) (hv : v ≠ []) : ∃ e, c.setText .nickName v = { c with nickNames := setFirstText c.nickNames v, empty := e } := by
  unfold Contact.setText Contact.texts Contact.insertText Contact.setTexts ParamText.isValid
  cases v with
  | nil => exact absurd rfl hv
  | cons x v =>
    cases h : c.nickNames with
    | nil => exact ⟨false, by simp [setFirstText, Contact.texts, h]⟩
    | cons => exact ⟨false, by simp [setFirstText]⟩

theorem setText_title (c : Contact) (v : QString) (hv : v ≠ []) : ∃ e, c.setText .title v = { c with titles := setFirstText c.titles v, empty := e } := by
  unfold Contact.setText Contact.texts Contact.insertText Contact.setTexts ParamText.isValid
  cases v with
  | nil => exact absurd rfl hv
  | cons x v =>
    cases h : c.titles with
    | nil => exact ⟨false, by simp [setFirstText, Contact.texts, h]⟩
    | cons => exact ⟨false, by simp [setFirstText]⟩

theorem setText_role (c : Contact) (v : QString) (hv : v ≠ []) : ∃ e, c.setText .role v = { c with roles := setFirstText c.roles v, empty := e } := by
  unfold Contact.setText Contact.texts Contact.insertText Contact.setTexts ParamText.isValid
  cases v with
  | nil => exact absurd rfl hv
  | cons x v =>
    cases h : c.roles with
    | nil => exact ⟨false, by simp [setFirstText, Contact.texts, h]⟩
    | cons => exact ⟨false, by simp [setFirstText]⟩

theorem setText_organization (c : Contact) (v : QString) (hv : v ≠ []) :
    ∃ e, c.setText .organization v = { c with organizations := setFirstText c.organizations v, empty := e } := by
  unfold Contact.setText Contact.texts Contact.insertText Contact.setTexts ParamText.isValid
  cases v with
  | nil => exact absurd rfl hv
  | cons x v =>
    cases h : c.organizations with
    | nil => exact ⟨false, by simp [setFirstText, Contact.texts, h]⟩
    | cons => exact ⟨false, by simp [setFirstText]⟩

theorem setNote_eq (c : Contact) (v : QString) : ∃ e, c.setNote v = { c with note := v, empty := e } := by
  unfold Contact.setNote
  split
  · subst v; exact ⟨c.empty, rfl⟩
  · exact ⟨false, rfl⟩

theorem findFirst_mail (m : QString) (l : List Email) : m ∉ l.map (·.mail) → findFirst Email.mail m l = none := by
  induction l with
  | nil => intro _; rfl
  | cons e l ih =>
    intro h
    simp only [List.map_cons, List.mem_cons, not_or] at h
    rw [findFirst, if_neg (fun x => h.1 x.symm)]
    exact ih h.2

theorem apply_contact (E : LdifEnv) (ids : Nat → QString) (k : LdifField) (v : QString) (s : LdifState) (hk : Exported k) (hv : v ≠ []) :
    ∃ e, (ldifApply E ids s k v).a = storeAll E (ids s.next) k v s.a e := by
  obtain ⟨h1, h2, h3, h4⟩ := hk
  cases k
  case ignored => exact ⟨s.a.empty, rfl⟩
  case noteLine => exact absurd rfl h2
  case batBirthday => exact absurd rfl h1
  case member => exact absurd rfl h3
  case groupName => exact absurd rfl h4
  case givenName =>
    simp only [ldifApply, Contact.setGivenName]
    split
    · subst v; exact ⟨s.a.empty, rfl⟩
    · exact ⟨false, rfl⟩
  case familyName =>
    simp only [ldifApply, Contact.setFamilyName]
    split
    · subst v; exact ⟨s.a.empty, rfl⟩
    · exact ⟨false, rfl⟩
  case uid =>
    simp only [ldifApply, Contact.setUid]
    split
    · subst v; exact ⟨s.a.empty, rfl⟩
    · exact ⟨false, rfl⟩
  case prefix_ =>
    simp only [ldifApply, Contact.setPrefix]
    split
    · subst v; exact ⟨s.a.empty, rfl⟩
    · exact ⟨false, rfl⟩
  case formattedName =>
    simp only [ldifApply, Contact.setFormattedName]
    split
    · subst v; exact ⟨s.a.empty, rfl⟩
    · exact ⟨false, rfl⟩
  case department =>
    simp only [ldifApply, Contact.setDepartment]
    split
    · subst v; exact ⟨s.a.empty, rfl⟩
    · exact ⟨false, rfl⟩
  case nickName => obtain ⟨e, he⟩ := setText_nick s.a v hv; exact ⟨e, he⟩
  case title => obtain ⟨e, he⟩ := setText_title s.a v hv; exact ⟨e, he⟩
  case role => obtain ⟨e, he⟩ := setText_role s.a v hv; exact ⟨e, he⟩
  case organization => obtain ⟨e, he⟩ := setText_organization s.a v hv; exact ⟨e, he⟩
  case note =>
    simp only [ldifApply]
    cases hn : s.a.note with
    | nil =>
      obtain ⟨e, he⟩ := setNote_eq s.a v
      refine ⟨e, ?_⟩
      simp only [List.isEmpty_nil, Bool.not_true, Bool.false_eq_true, if_false, hn, List.nil_append, he]
      simp [storeAll, store, storeNote, storeText, storeEmail, storeUrl, storeRevision, storePhone, hn]
    | cons x n =>
      obtain ⟨e, he⟩ := setNote_eq s.a (x :: n ++ q! "\n")
      simp only [List.isEmpty_cons, Bool.not_false, if_true, he]
      obtain ⟨e', he'⟩ := setNote_eq { s.a with note := (x :: n ++ q! "\n"), empty := e } (x :: n ++ q! "\n" ++ v)
      refine ⟨e', ?_⟩
      rw [he']
      simp [storeAll, store, storeNote, storeText, storeEmail, storeUrl, storeRevision, storePhone, hn]
  case email =>
    simp only [ldifApply]
    by_cases hm : v ∈ s.a.emails.map (·.mail)
    · refine ⟨s.a.empty, ?_⟩
      have : s.a.emailAddresses.contains v = true := by simpa [Contact.emailAddresses] using hm
      simp only [this, if_true]
      simp only [storeAll, storeEmail, if_true, if_pos hm]
      rfl
    · refine ⟨false, ?_⟩
      have : s.a.emailAddresses.contains v = false := by simpa [Contact.emailAddresses] using hm
      simp only [this, Bool.false_eq_true, if_false]
      unfold Contact.addEmail
      rw [findFirst_mail v _ hm]
      simp only [storeAll, storeEmail, if_true, if_neg hm]
      rfl
  case url =>
    simp only [ldifApply, Contact.insertExtraUrl]
    by_cases h1 : s.a.url.url.isEmpty = true
    · by_cases h2 : E.urlValid (E.urlOf v) = true
      · refine ⟨false, ?_⟩
        have h3 : ParamUrl.isValidUrl E.toQtEnv { url := E.urlOf v } = true := h2
        have h1' : (s.a.extraUrls.headD {}).url.isEmpty = true := h1
        simp only [h1, h3, if_true, storeAll, storeUrl, h1', h2, Bool.and_self]
        rfl
      · refine ⟨s.a.empty, ?_⟩
        have h3 : ¬ ParamUrl.isValidUrl E.toQtEnv { url := E.urlOf v } = true := h2
        simp only [h1, if_true, if_neg h3, storeAll, storeUrl]
        rw [if_neg (by simp [h2])]
        rfl
    · refine ⟨s.a.empty, ?_⟩
      have h1' : ¬ (s.a.extraUrls.headD {}).url.isEmpty = true := h1
      simp only [if_neg h1, storeAll, storeUrl, if_true]
      rw [if_neg (by simp only [Bool.and_eq_true]; exact fun x => h1' x.1)]
      rfl
  case revision =>
    simp only [ldifApply, Contact.setRevision]
    by_cases h0 : v = q! "0Z"
    · refine ⟨s.a.empty, ?_⟩
      simp only [if_pos h0, storeAll, storeRevision, if_true]
      rw [if_neg (by simp [h0])]
      rfl
    · rw [if_neg h0]
      by_cases h1 : (vCardStringToDate v).isSome = true
      · rw [if_pos h1]
        cases h2 : QDateTime.eq E.toQtEnv (vCardStringToDate v) s.a.revision with
        | true =>
          refine ⟨s.a.empty, ?_⟩
          simp only [if_true, storeAll, storeRevision]
          rw [if_neg (by simp [h2])]
          rfl
        | false =>
          refine ⟨false, ?_⟩
          rw [if_neg Bool.false_ne_true]
          simp only [if_true, storeAll, storeRevision]
          rw [if_pos ⟨h0, h1, h2⟩]
          rfl
      · refine ⟨s.a.empty, ?_⟩
        rw [if_neg h1]
        simp only [if_true, storeAll, storeRevision]
        rw [if_neg (by simp [h1])]
        rfl
  case phone t =>
    refine ⟨false, ?_⟩
    simp only [ldifApply]
    unfold Contact.insertPhoneNumber
    cases hf : findFirst PhoneNumber.id (PhoneNumber.mk' (ids s.next) v t).id s.a.phoneNumbers with
    | some x =>
      simp only [storeAll, storePhone, Contact.setPhoneNumbers, Contact.insertPhoneNumber, hf]
      rfl
    | none =>
      simp only [storeAll, storePhone, Contact.setPhoneNumbers, Contact.insertPhoneNumber, hf]
      rfl
  all_goals exact ⟨s.a.empty, rfl⟩

/-! ### the fields after the attributes of an exported contact -/

theorem ite_empty (v : QString) : (if v.isEmpty then [] else v) = v := by cases v <;> rfl

theorem after_store (E : LdifEnv) (ids : Nat → QString) (fresh : QString) (c : Contact) (s : LdifState) :
    (afterExport E ids fresh c s).a.givenName = (if c.givenName.isEmpty then s.a.givenName else c.givenName) ∧
    (afterExport E ids fresh c s).a.familyName = (if c.familyName.isEmpty then s.a.familyName else c.familyName) ∧
    (afterExport E ids fresh c s).a.formattedName = (if (simplified c.formattedName).isEmpty then s.a.formattedName else simplified c.formattedName) ∧
    (afterExport E ids fresh c s).a.uid = (if c.uid.isEmpty then s.a.uid else c.uid) ∧
    (afterExport E ids fresh c s).a.prefix_ = (if c.prefix_.isEmpty then s.a.prefix_ else c.prefix_) ∧
    (afterExport E ids fresh c s).a.department = (if (departmentOf c).isEmpty then s.a.department else departmentOf c) := by
  have sim : ∀ (π : Contact → QString) (k : LdifField), (∀ id k' v c e, π (storeAll E id k' v c e) = store k k' v (π c)) → k ≠ .email →
      π (afterExport E ids fresh c s).a = runField (store k) ((fields1 c ++ fields2 E fresh c).filter fun p => p.1 = k) (π s.a) := by
    intro π k h hk
    refine after_simple E ids fresh c (fun s => π s.a) (store k) (fun k' => k' = k) ?_ ?_ (decide_eq_false (fun e => hk e.symm)) s
    · intro k' v s' hk' hv
      obtain ⟨e, he⟩ := apply_contact E ids k' v s' hk' hv
      simp only [he]
      exact h _ _ _ _ _
    · intro k' v x hk'
      exact if_neg (of_decide_eq_false hk')
  exact ⟨sim (fun c => c.givenName) .givenName (fun _ _ _ _ _ => rfl) (by decide),
    sim (fun c => c.familyName) .familyName (fun _ _ _ _ _ => rfl) (by decide),
    sim (fun c => c.formattedName) .formattedName (fun _ _ _ _ _ => rfl) (by decide),
    sim (fun c => c.uid) .uid (fun _ _ _ _ _ => rfl) (by decide),
    sim (fun c => c.prefix_) .prefix_ (fun _ _ _ _ _ => rfl) (by decide),
    sim (fun c => c.department) .department (fun _ _ _ _ _ => rfl) (by decide)⟩

theorem firstText_set (v : QString) : firstText (setFirstText [] v) = v := by
  cases v <;> rfl

theorem firstText_run (k : LdifField) (n : Nat) (hn : 0 < n) (v : QString) : firstText (runField (storeText k) (List.replicate n (k, v)) []) = v := by
  cases v with
  | nil =>
    have : ∀ n x, runField (storeText k) (List.replicate n (k, [])) x = x := by
      intro n
      induction n with
      | zero => intro x; rfl
      | succ n ih => intro x; rw [List.replicate_succ, runField_cons]; exact ih x
    rw [this]
    rfl
  | cons a v =>
    have : ∀ n, runField (storeText k) (List.replicate n (k, a :: v)) [{ text := a :: v }] = [{ text := a :: v }] := by
      intro n
      induction n with
      | zero => rfl
      | succ n ih =>
        rw [List.replicate_succ, runField_cons]
        have : storeText k k (a :: v) [{ text := a :: v }] = [{ text := a :: v }] := by simp [storeText, setFirstText]
        rw [this]
        exact ih
    cases n with
    | zero => omega
    | succ n =>
      rw [List.replicate_succ, runField_cons]
      have e : storeText k k (a :: v) [] = [{ text := a :: v }] := by simp [storeText, setFirstText]
      rw [e]
      simp only [List.isEmpty_cons, Bool.false_eq_true, if_false, this]
      rfl

theorem after_texts (E : LdifEnv) (ids : Nat → QString) (fresh : QString) (c : Contact) (s : LdifState) (h0 : ∀ k, s.a.texts k = []) :
    ∀ k, (afterExport E ids fresh c s).a.text k = c.text k := by
  have sim : ∀ (π : Contact → List ParamText) (k : LdifField), (∀ id k' v c e, π (storeAll E id k' v c e) = storeText k k' v (π c)) → k ≠ .email →
      π (afterExport E ids fresh c s).a = runField (storeText k) ((fields1 c ++ fields2 E fresh c).filter fun p => p.1 = k) (π s.a) := by
    intro π k h hk
    refine after_simple E ids fresh c (fun s => π s.a) (storeText k) (fun k' => k' = k) ?_ ?_ (decide_eq_false (fun e => hk e.symm)) s
    · intro k' v s' hk' hv
      obtain ⟨e, he⟩ := apply_contact E ids k' v s' hk' hv
      simp only [he]
      exact h _ _ _ _ _
    · intro k' v x hk'
      exact if_neg (of_decide_eq_false hk')
  intro k
  cases k with
  | nickName =>
    have e0 : s.a.nickNames = [] := h0 .nickName
    have := sim (fun c => c.nickNames) .nickName (fun _ _ _ _ _ => rfl) (by decide)
    have goal : firstText (afterExport E ids fresh c s).a.nickNames = c.text .nickName := by
      rw [this, e0]
      have : ((fields1 c ++ fields2 E fresh c).filter fun p => p.1 = .nickName) = List.replicate 3 (.nickName, c.text .nickName) := rfl
      rw [this]
      exact firstText_run .nickName 3 (by omega) _
    exact goal
  | title =>
    have e0 : s.a.titles = [] := h0 .title
    have := sim (fun c => c.titles) .title (fun _ _ _ _ _ => rfl) (by decide)
    have goal : firstText (afterExport E ids fresh c s).a.titles = c.text .title := by
      rw [this, e0]
      have : ((fields1 c ++ fields2 E fresh c).filter fun p => p.1 = .title) = List.replicate 1 (.title, c.text .title) := rfl
      rw [this]
      exact firstText_run .title 1 (by omega) _
    exact goal
  | role =>
    have e0 : s.a.roles = [] := h0 .role
    have := sim (fun c => c.roles) .role (fun _ _ _ _ _ => rfl) (by decide)
    have goal : firstText (afterExport E ids fresh c s).a.roles = c.text .role := by
      rw [this, e0]
      have : ((fields1 c ++ fields2 E fresh c).filter fun p => p.1 = .role) = List.replicate 1 (.role, c.text .role) := rfl
      rw [this]
      exact firstText_run .role 1 (by omega) _
    exact goal
  | organization =>
    have e0 : s.a.organizations = [] := h0 .organization
    have := sim (fun c => c.organizations) .organization (fun _ _ _ _ _ => rfl) (by decide)
    have goal : firstText (afterExport E ids fresh c s).a.organizations = c.text .organization := by
      rw [this, e0]
      have : ((fields1 c ++ fields2 E fresh c).filter fun p => p.1 = .organization) = List.replicate 3 (.organization, c.text .organization) := rfl
      rw [this]
      exact firstText_run .organization 3 (by omega) _
    exact goal

theorem after_note (E : LdifEnv) (ids : Nat → QString) (fresh : QString) (c : Contact) (s : LdifState) (h0 : s.a.note = []) :
    (afterExport E ids fresh c s).a.note = c.note := by
  have := after_simple E ids fresh c (fun s => s.a.note) storeNote (fun k => k = .note) (by
    intro k' v s' hk' hv
    obtain ⟨e, he⟩ := apply_contact E ids k' v s' hk' hv
    simp only [he]
    rfl) (fun k v x hk => if_neg (of_decide_eq_false hk)) rfl s
  rw [this]
  have e1 : ((fields1 c ++ fields2 E fresh c).filter fun p => p.1 = .note) = [(.note, c.note)] := rfl
  rw [e1, h0, runField_cons, runField_nil]
  cases hv : c.note <;> rfl

/-- The part of the contact that no attribute changes. -/
theorem after_rest (E : LdifEnv) (ids : Nat → QString) (fresh : QString) (c : Contact) (s : LdifState) :
    ((afterExport E ids fresh c s).a.name, (afterExport E ids fresh c s).a.birthday, (afterExport E ids fresh c s).a.birthdayWithTime,
      (afterExport E ids fresh c s).a.addresses, (afterExport E ids fresh c s).group) = (s.a.name, s.a.birthday, s.a.birthdayWithTime, s.a.addresses, s.group) := by
  have := after_simple E ids fresh c (fun s => (s.a.name, s.a.birthday, s.a.birthdayWithTime, s.a.addresses, s.group)) (fun _ _ x => x) (fun _ => false) (by
    intro k' v s' hk' hv
    obtain ⟨e, he⟩ := apply_contact E ids k' v s' hk' hv
    simp only [he]
    have hg : (ldifApply E ids s' k' v).group = s'.group := by
      cases k' <;> first | rfl | exact absurd rfl hk'.1 | exact absurd rfl hk'.2.2.1 | exact absurd rfl hk'.2.2.2
    rw [hg]
    rfl) (fun _ _ _ _ => rfl) rfl s
  rw [this, runField_id _ _ (fun _ _ _ => rfl)]

theorem runField_emails (es : List QString) (he : ∀ e ∈ es, e ≠ []) (x : List Email) (hn : es.Nodup) (hd : ∀ e ∈ es, e ∉ x.map (·.mail)) :
    (runField storeEmail (es.map fun e => (.email, e)) x).map (·.mail) = x.map (·.mail) ++ es := by
  induction es generalizing x with
  | nil => simp [runField_nil]
  | cons e es ih =>
    have h1 : e.isEmpty = false := by
      cases e with
      | nil => exact absurd rfl (he [] (by simp))
      | cons => rfl
    simp only [List.map_cons, runField_cons, h1, Bool.false_eq_true, if_false]
    have h2 : storeEmail .email e x = x ++ [{ mail := e }] := by
      simp only [storeEmail, if_true]
      rw [if_neg (hd e (by simp))]
    rw [h2, ih (fun a ha => he a (by simp [ha])) _ (List.nodup_cons.1 hn).2]
    · simp
    · intro a ha
      simp only [List.map_append, List.map_cons, List.map_nil, List.mem_append, List.mem_singleton, not_or]
      exact ⟨hd a (by simp [ha]), fun e' => (List.nodup_cons.1 hn).1 (e' ▸ ha)⟩

theorem after_emails (E : LdifEnv) (ids : Nat → QString) (fresh : QString) (c : Contact) (s : LdifState) (h0 : s.a.emails = [])
    (hc : c.emailAddresses.Nodup ∧ ∀ e ∈ c.emailAddresses, e ≠ []) : (afterExport E ids fresh c s).a.emailAddresses = c.emailAddresses := by
  have := (after_part E ids fresh c (fun s => s.a.emails) storeEmail (fun _ => True) (by
    intro p hp s' hv _
    obtain ⟨e, he⟩ := apply_contact E ids p.1 p.2 s' (fields_noBat E fresh c p hp) hv
    simp only [he]
    exact ⟨trivial, rfl⟩) s trivial).2
  have goal : (afterExport E ids fresh c s).a.emails.map (·.mail) = c.emailAddresses := by
    rw [this]
    have flt := runField_filter storeEmail (fun k => k = .email) (fun k v x hk => if_neg (of_decide_eq_false hk))
    have e1 : ∀ x, runField storeEmail (fields2 E fresh c) x = x := by
      intro x
      rw [flt]
      rfl
    have e2 : runField storeEmail (fields1 c) s.a.emails = runField storeEmail [(.email, c.preferredEmail)] [] := by
      rw [h0, flt]
      rfl
    rw [e1, e2, ← runField_append]
    cases hE : c.emails with
    | nil =>
      simp [emailFields, Contact.emailAddresses, hE, Contact.preferredEmail, runField_cons, runField_nil]
    | cons e t =>
      have : [(LdifField.email, c.preferredEmail)] ++ emailFields c.emailAddresses = c.emailAddresses.map fun e => (.email, e) := by
        simp [emailFields, Contact.emailAddresses, hE, Contact.preferredEmail]
      rw [this, runField_emails _ hc.2 [] hc.1 (by simp)]
      simp
  exact goal

theorem after_url (E : LdifEnv) (ids : Nat → QString) (fresh : QString) (c : Contact) (s : LdifState) (h0 : s.a.extraUrls = [])
    (hu : (c.url.url = [] ∧ E.urlDisplay [] = []) ∨
        (c.url.url ≠ [] ∧ E.urlDisplay c.url.url ≠ [] ∧ E.urlOf (E.urlDisplay c.url.url) = c.url.url ∧ E.urlValid c.url.url = true)) :
    (afterExport E ids fresh c s).a.url.url = c.url.url := by
  have := after_simple E ids fresh c (fun s => s.a.extraUrls) (storeUrl E) (fun k => k = .url) (by
    intro k' v s' hk' hv
    obtain ⟨e, he⟩ := apply_contact E ids k' v s' hk' hv
    simp only [he]
    rfl) (fun k v x hk => if_neg (of_decide_eq_false hk)) rfl s
  have goal : ((afterExport E ids fresh c s).a.extraUrls.headD {}).url = c.url.url := by
    rw [this, h0]
    have e1 : ((fields1 c ++ fields2 E fresh c).filter fun p => p.1 = .url) =
      [(.url, E.urlDisplay c.url.url), (.url, E.urlDisplay c.url.url), (.url, E.urlDisplay c.url.url)] := rfl
    rw [e1]
    simp only [runField_cons, runField_nil]
    generalize hx : c.url.url = u at *
    rcases hu with ⟨rfl, h2⟩ | ⟨h1, h2, h3, h4⟩
    · simp only [h2, List.isEmpty_nil, if_true]
      rfl
    · have h5 : (E.urlDisplay u).isEmpty = false := by cases hd : E.urlDisplay u with | nil => exact absurd hd h2 | cons => rfl
      have h6 : List.isEmpty u = false := by cases u with | nil => exact absurd rfl h1 | cons => rfl
      simp [storeUrl, h5, h3, h4, h6]
  exact goal

theorem after_revision (E : LdifEnv) (ids : Nat → QString) (fresh : QString) (c : Contact) (s : LdifState) (d : QDateTime)
    (hr : revisionText c.revision ≠ []) (h0 : revisionText c.revision ≠ q! "0Z") (hd : vCardStringToDate (revisionText c.revision) = d) (hs : d.isSome = true) :
    QDateTime.eq E.toQtEnv d (afterExport E ids fresh c s).a.revision = true ∨ (afterExport E ids fresh c s).a.revision = d := by
  have := after_simple E ids fresh c (fun s => s.a.revision) (storeRevision E) (fun k => k = .revision) (by
    intro k' v s' hk' hv
    obtain ⟨e, he⟩ := apply_contact E ids k' v s' hk' hv
    simp only [he]
    rfl) (fun k v x hk => if_neg (of_decide_eq_false hk)) rfl s
  have h5 : (revisionText c.revision).isEmpty = false := by cases hx : revisionText c.revision with | nil => exact absurd hx hr | cons => rfl
  have e1 : ((fields1 c ++ fields2 E fresh c).filter fun p => p.1 = .revision) = [(.revision, revisionText c.revision)] := rfl
  rw [this, e1, runField_cons, runField_nil, h5]
  simp only [storeRevision, if_true, Bool.false_eq_true, if_false, hd, hs, true_and]
  cases hq : QDateTime.eq E.toQtEnv d s.a.revision with
  | true => exact .inl (by rw [if_neg (by simp)]; exact hq)
  | false => exact .inr (by rw [if_pos ⟨h0, rfl⟩])

/-! ### phone numbers -/

/-- The number found for a type. -/
def storeNumber (t : Nat) (k : LdifField) (v x : QString) : QString :=
  match k with
  | .phone t' => if t' = t ∧ x = [] then v else x
  | _ => x

theorem phoneLoop_step (t : Nat) (cur q : PhoneNumber) (l : List PhoneNumber) (h : q.type &&& phonePref = 0) :
    phoneLoop t cur (q :: l) = phoneLoop t (if matchBinaryPattern q.type t = true then (if cur.number.isEmpty then q else cur) else cur) l := by
  rw [phoneLoop]
  split
  · rw [if_neg (by simp [h])]
    split <;> rfl
  · rfl

theorem phoneLoop_snoc (t : Nat) (cur : PhoneNumber) (l : List PhoneNumber) (p : PhoneNumber) (h : ∀ q ∈ l, q.type &&& phonePref = 0) :
    phoneLoop t cur (l ++ [p]) = phoneLoop t (phoneLoop t cur l) [p] := by
  induction l generalizing cur with
  | nil => rfl
  | cons q l ih =>
    have hq := h q (by simp)
    rw [List.cons_append, phoneLoop_step _ _ _ _ hq, phoneLoop_step _ _ _ _ hq, ih _ (fun x hx => h x (by simp [hx]))]

/-- The phone numbers of the contact being read. -/
def PhonesRead (ids : Nat → QString) (s : LdifState) : Prop := ∀ p ∈ s.a.phoneNumbers, p.type ∈ ldifPhoneTypes ∧ ∃ i, i < s.next ∧ p.id = ids i

theorem phone_types : ∀ t ∈ ldifPhoneTypes, ∀ t' ∈ ldifPhoneTypes, t &&& phonePref = 0 ∧ (matchBinaryPattern t' t = true ↔ t' = t) := by decide

theorem findFirst_phone (m : QString) (l : List PhoneNumber) : (∀ p ∈ l, p.id ≠ m) → findFirst PhoneNumber.id m l = none := by
  induction l with
  | nil => intro _; rfl
  | cons e l ih =>
    intro h
    rw [findFirst, if_neg (h e (by simp))]
    exact ih (fun p hp => h p (by simp [hp]))

theorem apply_next (E : LdifEnv) (ids : Nat → QString) (k : LdifField) (v : QString) (s : LdifState) :
    s.next ≤ (ldifApply E ids s k v).next := by
  cases k <;> first | exact Nat.le_refl _ | exact Nat.le_succ _

theorem after_phones (E : LdifEnv) (ids : Nat → QString) (hids : ∀ i j, ids i = ids j → i = j) (fresh : QString) (c : Contact) (s : LdifState)
    (h0 : s.a.phoneNumbers = []) (hc : ∀ p ∈ c.phoneNumbers, simplified p.number = p.number) :
    ∀ t ∈ ldifPhoneTypes, ∀ fresh' fresh'', ((afterExport E ids fresh c s).a.phoneNumber fresh' t).number = (c.phoneNumber fresh'' t).number := by
  intro t ht fresh' fresh''
  have hnum : ∀ f t', simplified (c.phoneNumber f t').number = (c.phoneNumber f t').number := by
    intro f t'
    have : ∀ (l : List PhoneNumber) cur, simplified cur.number = cur.number → (∀ p ∈ l, simplified p.number = p.number) →
        simplified (phoneLoop t' cur l).number = (phoneLoop t' cur l).number := by
      intro l
      induction l with
      | nil => intro cur h _; exact h
      | cons p l ih =>
        intro cur h hl
        have hp := hl p (by simp)
        have hl' : ∀ q ∈ l, simplified q.number = q.number := fun q hq => hl q (by simp [hq])
        rw [phoneLoop]
        split
        · split
          · exact hp
          · split
            · exact ih _ hp hl'
            · exact ih _ h hl'
        · exact ih _ h hl'
    exact this c.phoneNumbers _ rfl hc
  have fr : ∀ f f' t', (c.phoneNumber f t').number = (c.phoneNumber f' t').number := by
    intro f f' t'
    have : ∀ (l : List PhoneNumber) (a b : PhoneNumber), a.number = b.number → (phoneLoop t' a l).number = (phoneLoop t' b l).number := by
      intro l
      induction l with
      | nil => intro a b h; exact h
      | cons p l ih =>
        intro a b h
        rw [phoneLoop, phoneLoop, h]
        split
        · split
          · rfl
          · split
            · rfl
            · exact ih _ _ h
        · exact ih _ _ h
    exact this c.phoneNumbers _ _ rfl
  have hph : ∀ p ∈ fields1 c ++ emailFields c.emailAddresses ++ fields2 E fresh c, ∀ t', p.1 = .phone t' →
      t' ∈ ldifPhoneTypes ∧ simplified p.2 = p.2 := by
    intro p hp t' ht'
    simp only [List.mem_append] at hp
    rcases hp with (hp | hp) | hp
    · exfalso
      have : ∀ f ∈ (fields1 c).map (·.1), ∀ t', f ≠ .phone t' := by
        simp [fields1]
      exact this _ (List.mem_map.2 ⟨p, hp, rfl⟩) t' ht'
    · obtain ⟨e, _, rfl⟩ := List.mem_map.1 hp
      simp at ht'
    · have hp' : p ∈ (fields2 E fresh c).filter (fun p => match p.1 with | .phone _ => true | _ => false) :=
        List.mem_filter.2 ⟨hp, by rw [ht']⟩
      have e1 : ((fields2 E fresh c).filter (fun p => match p.1 with | .phone _ => true | _ => false)) =
          [2, 32, 1, 64, 64, 8192, 8192].map fun t => (.phone t, (c.phoneNumber fresh t).number) := rfl
      rw [e1] at hp'
      obtain ⟨t'', ht'', rfl⟩ := List.mem_map.1 hp'
      simp only [LdifField.phone.injEq] at ht'
      subst ht'
      refine ⟨?_, hnum _ _⟩
      have : ∀ a ∈ [2, 32, 1, 64, 64, 8192, 8192], a ∈ ldifPhoneTypes := by decide
      exact this _ ht''
  have key := after_part E ids fresh c (fun s => (s.a.phoneNumber fresh' t).number) (storeNumber t) (PhonesRead ids) (by
    intro p hp s' hv hs'
    obtain ⟨e, he⟩ := apply_contact E ids p.1 p.2 s' (fields_noBat E fresh c p hp) hv
    have hn := apply_next E ids p.1 p.2 s'
    have hpn : (ldifApply E ids s' p.1 p.2).a.phoneNumbers = storePhone (ids s'.next) p.1 p.2 s'.a.phoneNumbers := by rw [he]; rfl
    have keep : storePhone (ids s'.next) p.1 p.2 s'.a.phoneNumbers = s'.a.phoneNumbers → (∀ x, storeNumber t p.1 p.2 x = x) →
        PhonesRead ids (ldifApply E ids s' p.1 p.2) ∧
        ((ldifApply E ids s' p.1 p.2).a.phoneNumber fresh' t).number = storeNumber t p.1 p.2 ((s'.a.phoneNumber fresh' t).number) := by
      intro h1 h2
      rw [h2]
      constructor
      · intro q hq
        rw [hpn, h1] at hq
        obtain ⟨h3, i, hi, h4⟩ := hs' q hq
        exact ⟨h3, i, by omega, h4⟩
      · simp only [Contact.phoneNumber, hpn, h1]
    cases hk : p.1 with
    | phone t' =>
      obtain ⟨h1, h2⟩ := hph p hp t' hk
      rw [hk] at hpn
      have hfind : findFirst PhoneNumber.id (ids s'.next) s'.a.phoneNumbers = none := by
        apply findFirst_phone
        intro q hq e
        obtain ⟨_, i, hi, h4⟩ := hs' q hq
        have := hids i s'.next (by rw [← h4, e])
        omega
      have hne : (simplified (simplified p.2)).isEmpty = false := by
        rw [h2, h2]
        cases hx : p.2 with
        | nil => exact absurd hx hv
        | cons => rfl
      have e2 : storePhone (ids s'.next) (.phone t') p.2 s'.a.phoneNumbers = s'.a.phoneNumbers ++ [PhoneNumber.mk' (ids s'.next) p.2 t'] := by
        simp only [storePhone, Contact.setPhoneNumbers, Contact.insertPhoneNumber, PhoneNumber.mk', hfind, cleanupNumber, hne, Bool.false_eq_true, if_false]
      rw [e2] at hpn
      have hn' : (ldifApply E ids s' (.phone t') p.2).next = s'.next + 1 := rfl
      constructor
      · intro q hq
        rw [hpn] at hq
        rcases List.mem_append.1 hq with hq | hq
        · obtain ⟨h3, i, hi, h4⟩ := hs' q hq
          exact ⟨h3, i, by omega, h4⟩
        · rw [List.mem_singleton] at hq
          subst hq
          exact ⟨h1, s'.next, by omega, rfl⟩
      · simp only [Contact.phoneNumber, hpn]
        rw [phoneLoop_snoc _ _ _ _ (fun q hq => (phone_types _ (hs' q hq).1 _ ht).1)]
        generalize phoneLoop t (PhoneNumber.mk' fresh' [] t) s'.a.phoneNumbers = cur
        have hm : matchBinaryPattern (PhoneNumber.mk' (ids s'.next) p.2 t').type t = true ↔ t' = t := (phone_types t ht t' h1).2
        have hpr : (PhoneNumber.mk' (ids s'.next) p.2 t').type &&& phonePref = 0 := (phone_types t' h1 t ht).1
        have e3 : (PhoneNumber.mk' (ids s'.next) p.2 t').number = p.2 := h2
        rw [phoneLoop_step _ _ _ _ hpr]
        simp only [phoneLoop, storeNumber]
        by_cases htt : t' = t
        · rw [if_pos (hm.2 htt)]
          by_cases hc' : cur.number = []
          · rw [if_pos (by simp [hc']), if_pos ⟨htt, hc'⟩, e3]
          · rw [if_neg (by simpa using hc'), if_neg (fun x => hc' x.2)]
        · rw [if_neg (fun x => htt (hm.1 x)), if_neg (fun x => htt x.1)]
    | _ =>
      rw [hk] at keep
      exact keep rfl (fun _ => rfl)) s (by intro p hp; rw [h0] at hp; simp at hp)
  have hk2 := key.2
  rw [hk2]
  have e0 : (s.a.phoneNumber fresh' t).number = [] := by simp [Contact.phoneNumber, h0, phoneLoop, PhoneNumber.mk']; rfl
  have flt := runField_filter (storeNumber t) (fun k => match k with | .phone _ => true | _ => false) (fun k v x hk => by
    cases k <;> first | rfl | simp at hk)
  have e1 : ∀ x, runField (storeNumber t) (fields1 c) x = x := by intro x; rw [flt]; rfl
  have e2 : ∀ x, runField (storeNumber t) (emailFields c.emailAddresses) x = x := by
    intro x
    apply runField_id
    intro p hp y
    obtain ⟨e, _, rfl⟩ := List.mem_map.1 hp
    rfl
  rw [e0, e1, e2, flt]
  have e3 : ((fields2 E fresh c).filter (fun p => match p.1 with | .phone _ => true | _ => false)) =
      [2, 32, 1, 64, 64, 8192, 8192].map fun t => (.phone t, (c.phoneNumber fresh t).number) := rfl
  rw [e3, fr fresh'' fresh t]
  have run : ∀ (ts : List Nat) (x : QString), (x = [] ∨ x = (c.phoneNumber fresh t).number) → (t ∈ ts ∨ x = (c.phoneNumber fresh t).number) →
      runField (storeNumber t) (ts.map fun t => (.phone t, (c.phoneNumber fresh t).number)) x = (c.phoneNumber fresh t).number := by
    intro ts
    induction ts with
    | nil => intro x _ h; rcases h with h | h; simp at h; exact h
    | cons a ts ih =>
      intro x hx h
      rw [List.map_cons, runField_cons]
      simp only [storeNumber]
      by_cases hat : a = t
      · subst hat
        refine ih _ ?_ (.inr ?_)
        · rcases hx with hx | hx
          · subst hx
            simp only [and_self, if_true]
            cases hn : (c.phoneNumber fresh a).number <;> simp
          · right
            rw [hx]
            split
            · rfl
            · split <;> rfl
        · rcases hx with hx | hx
          · subst hx
            simp only [and_self, if_true]
            cases hn : (c.phoneNumber fresh a).number <;> simp
          · rw [hx]
            split
            · rfl
            · split <;> rfl
      · have e : (if (c.phoneNumber fresh a).number.isEmpty = true then x else if a = t ∧ x = [] then (c.phoneNumber fresh a).number else x) = x := by
          have : ¬ (a = t ∧ x = []) := fun y => hat y.1
          rw [if_neg this, ite_self]
        rw [e]
        refine ih x hx ?_
        rcases h with h | h
        · rcases List.mem_cons.1 h with h | h
          · exact absurd h.symm hat
          · exact .inl h
        · exact .inr h
  have mem : ∀ a ∈ ldifPhoneTypes, a ∈ [2, 32, 1, 64, 64, 8192, 8192] := by decide
  exact run _ [] (.inl rfl) (.inl (mem t ht))

/-! ### addresses -/

/-- The street. -/
def storeStreet (k1 k2 : LdifField) (k : LdifField) (v x : QString) : QString := if k = k1 then v else if k = k2 then x ++ q! "\n" ++ v else x
/-- The country. -/
def storeCountry (E : LdifEnv) (k1 : LdifField) (k : LdifField) (v x : QString) : QString := if k = k1 then E.readCountry v else x
/-- Something was stored. -/
def storeAny (ks : List LdifField) (k : LdifField) (_ : QString) (x : Bool) : Bool := if k ∈ ks then false else x

def homeFields : List LdifField := [.homeStreet, .homeStreet2, .homeLocality, .homeRegion, .homePostalCode, .homeCountry]
def workFields : List LdifField := [.workStreet, .workStreet2, .workLocality, .workRegion, .workPostalCode, .workCountry, .workPostOfficeBox]

theorem runField_any (ks : List LdifField) (l : List (LdifField × QString)) (h : ∀ p ∈ l, p.1 ∈ ks) (b : Bool) :
    runField (storeAny ks) l b = (b && l.all fun p => p.2.isEmpty) := by
  induction l generalizing b with
  | nil => simp [runField]
  | cons p l ih =>
    rw [runField, ih (fun q hq => h q (by simp [hq])), storeAny, if_pos (h p (by simp)), List.all_cons]
    cases p.2.isEmpty <;> simp

theorem streetLines_cases {s : QString} (h : StreetOK s) :
    (s = [] ∧ streetLines s = ([], [])) ∨ (s ≠ [] ∧ streetLines s = (s, [])) ∨
    ∃ x y, s = x ++ qc! '\n' :: y ∧ x ≠ [] ∧ y ≠ [] ∧ streetLines s = (x, y) := by
  rcases h with rfl | h | ⟨x, y, rfl, hx, hy, hx', hy'⟩
  · exact .inl ⟨rfl, rfl⟩
  · cases s with
    | nil => exact .inl ⟨rfl, rfl⟩
    | cons a s =>
      refine .inr (.inl ⟨by simp, ?_⟩)
      unfold streetLines
      rw [splitOn_of_not_mem _ _ h]
      rfl
  · refine .inr (.inr ⟨x, y, rfl, hx, hy, ?_⟩)
    unfold streetLines
    rw [splitOn_append_sep, splitOn_of_not_mem _ _ hx', splitOn_of_not_mem _ _ hy']
    rfl

theorem runField_street (k1 k2 : LdifField) (hk : k1 ≠ k2) {s : QString} (h : StreetOK s) :
    runField (storeStreet k1 k2) [(k1, s), (k1, (streetLines s).1), (k2, (streetLines s).2)] [] = s := by
  have h1 : ∀ v x, storeStreet k1 k2 k1 v x = v := fun v x => if_pos rfl
  have h2 : ∀ v x, storeStreet k1 k2 k2 v x = x ++ q! "\n" ++ v := fun v x => by rw [storeStreet, if_neg (fun e => hk e.symm), if_pos rfl]
  rcases streetLines_cases h with ⟨rfl, h⟩ | ⟨hs, h⟩ | ⟨x, y, rfl, hx, hy, h⟩
  · rw [h]; rfl
  · rw [h]
    cases s with
    | nil => exact absurd rfl hs
    | cons a s => simp [runField_cons, runField_nil, h1]
  · rw [h]
    cases x with
    | nil => exact absurd rfl hx
    | cons a x =>
      cases y with
      | nil => exact absurd rfl hy
      | cons b y => simp [runField_cons, runField_nil, h1, h2]

theorem after_home (E : LdifEnv) (ids : Nat → QString) (fresh : QString) (c : Contact) (s : LdifState)
    (h0 : ∃ id, s.home = { id := id, type := 16 }) (hst : StreetOK (c.address fresh 16).street) (hco : E.countryName (c.address fresh 16).country = (c.address fresh 16).country) :
    let h := (afterExport E ids fresh c s).home
    let a := c.address fresh 16
    h.id = s.home.id ∧ h.type = 16 ∧ h.street = a.street ∧ h.locality = a.locality ∧ h.region = a.region ∧ h.postalCode = a.postalCode ∧
      h.country = a.country ∧
      (h.empty = true → a.street = [] ∧ a.locality = [] ∧ a.region = [] ∧ a.postalCode = [] ∧ a.country = []) := by
  obtain ⟨id, h0⟩ := h0
  have sim : ∀ (π : Address → QString) (k : LdifField), (∀ k' v s, π (ldifApply E ids s k' v).home = store k k' v (π s.home)) → k ≠ .email →
      π (afterExport E ids fresh c s).home = runField (store k) ((fields1 c ++ fields2 E fresh c).filter fun p => p.1 = k) (π s.home) := by
    intro π k h hk
    exact after_simple E ids fresh c (fun s => π s.home) (store k) (fun k' => k' = k) (fun k' v s' _ _ => h k' v s')
      (fun k' v x hk' => if_neg (of_decide_eq_false hk')) (decide_eq_false (fun e => hk e.symm)) s
  have hit := after_simple E ids fresh c (fun s => (s.home.id, s.home.type)) (fun _ _ x => x) (fun _ => false)
    (fun k' v s' _ _ => by cases k' <;> rfl) (fun _ _ _ _ => rfl) rfl s
  rw [runField_id _ _ (fun _ _ _ => rfl)] at hit
  simp only [Prod.mk.injEq] at hit
  have hs := after_simple E ids fresh c (fun s => s.home.street) (storeStreet .homeStreet .homeStreet2) (fun k => k = .homeStreet || k = .homeStreet2)
    (fun k' v s' _ _ => by cases k' <;> rfl) (fun k v x hk => by cases k <;> first | rfl | simp at hk) rfl s
  have hl := sim (fun a => a.locality) .homeLocality (fun k' v s => by cases k' <;> rfl) (by decide)
  have hr := sim (fun a => a.region) .homeRegion (fun k' v s => by cases k' <;> rfl) (by decide)
  have hp := sim (fun a => a.postalCode) .homePostalCode (fun k' v s => by cases k' <;> rfl) (by decide)
  have hc := after_simple E ids fresh c (fun s => s.home.country) (storeCountry E .homeCountry) (fun k => k = .homeCountry)
    (fun k' v s' _ _ => by cases k' <;> rfl) (fun k v x hk => if_neg (of_decide_eq_false hk)) rfl s
  have he := after_simple E ids fresh c (fun s => s.home.empty) (storeAny homeFields) (fun k => k ∈ homeFields)
    (fun k' v s' _ _ => by cases k' <;> rfl) (fun k v x hk => if_neg (of_decide_eq_false hk)) rfl s
  rw [h0] at hs hl hr hp hc he
  have f1 : ((fields1 c ++ fields2 E fresh c).filter fun p => p.1 = .homeStreet || p.1 = .homeStreet2) =
    [(.homeStreet, (c.address fresh 16).street), (.homeStreet, (streetLines (c.address fresh 16).street).1), (.homeStreet2, (streetLines (c.address fresh 16).street).2)] := rfl
  have f2 : ((fields1 c ++ fields2 E fresh c).filter fun p => p.1 = .homeLocality) = [(.homeLocality, (c.address fresh 16).locality)] := rfl
  have f3 : ((fields1 c ++ fields2 E fresh c).filter fun p => p.1 = .homeRegion) = [(.homeRegion, (c.address fresh 16).region)] := rfl
  have f4 : ((fields1 c ++ fields2 E fresh c).filter fun p => p.1 = .homePostalCode) = [(.homePostalCode, (c.address fresh 16).postalCode)] := rfl
  have f5 : ((fields1 c ++ fields2 E fresh c).filter fun p => p.1 = .homeCountry) = [(.homeCountry, E.countryName (c.address fresh 16).country)] := rfl
  have f6 : ((fields1 c ++ fields2 E fresh c).filter fun p => p.1 ∈ homeFields) =
    [(.homeStreet, (c.address fresh 16).street), (.homeStreet, (streetLines (c.address fresh 16).street).1), (.homeStreet2, (streetLines (c.address fresh 16).street).2),
     (.homeLocality, (c.address fresh 16).locality), (.homeRegion, (c.address fresh 16).region), (.homePostalCode, (c.address fresh 16).postalCode),
     (.homeCountry, E.countryName (c.address fresh 16).country)] := rfl
  rw [f1, runField_street _ _ (by decide) hst] at hs
  rw [f2, runField_cons, runField_nil] at hl
  rw [f3, runField_cons, runField_nil] at hr
  rw [f4, runField_cons, runField_nil] at hp
  rw [f5, runField_cons, runField_nil, hco] at hc
  rw [f6, runField_any homeFields _ (by simp [homeFields]), hco] at he
  refine ⟨hit.1, ?_, hs, ?_, ?_, ?_, ?_, ?_⟩
  · have := hit.2; rw [h0] at this; exact this
  · rw [hl]; exact ite_empty _
  · rw [hr]; exact ite_empty _
  · rw [hp]; exact ite_empty _
  · rw [hc]
    have : storeCountry E .homeCountry .homeCountry (c.address fresh 16).country [] = (c.address fresh 16).country := by
      rw [storeCountry, if_pos rfl, LdifEnv.readCountry, hco, ite_self]
    rw [this]
    exact ite_empty _
  · intro hem
    rw [hem] at he
    have he := he.symm
    simp only [List.all_cons, List.all_nil, Bool.and_eq_true, List.isEmpty_iff, Bool.true_and] at he
    exact ⟨he.1, he.2.2.2.1, he.2.2.2.2.1, he.2.2.2.2.2.1, he.2.2.2.2.2.2.1⟩

theorem after_work (E : LdifEnv) (ids : Nat → QString) (fresh : QString) (c : Contact) (s : LdifState)
    (h0 : ∃ id, s.work = { id := id, type := 32 }) (hst : StreetOK (c.address fresh 32).street) (hco : E.countryName (c.address fresh 32).country = (c.address fresh 32).country) :
    let h := (afterExport E ids fresh c s).work
    let a := c.address fresh 32
    h.id = s.work.id ∧ h.type = 32 ∧ h.street = a.street ∧ h.locality = a.locality ∧ h.region = a.region ∧ h.postalCode = a.postalCode ∧
      h.country = a.country ∧ h.postOfficeBox = a.postOfficeBox ∧
      (h.empty = true → a.street = [] ∧ a.locality = [] ∧ a.region = [] ∧ a.postalCode = [] ∧ a.country = [] ∧ a.postOfficeBox = []) := by
  obtain ⟨id, h0⟩ := h0
  have sim : ∀ (π : Address → QString) (k : LdifField), (∀ k' v s, π (ldifApply E ids s k' v).work = store k k' v (π s.work)) → k ≠ .email →
      π (afterExport E ids fresh c s).work = runField (store k) ((fields1 c ++ fields2 E fresh c).filter fun p => p.1 = k) (π s.work) := by
    intro π k h hk
    exact after_simple E ids fresh c (fun s => π s.work) (store k) (fun k' => k' = k) (fun k' v s' _ _ => h k' v s')
      (fun k' v x hk' => if_neg (of_decide_eq_false hk')) (decide_eq_false (fun e => hk e.symm)) s
  have hit := after_simple E ids fresh c (fun s => (s.work.id, s.work.type)) (fun _ _ x => x) (fun _ => false)
    (fun k' v s' _ _ => by cases k' <;> rfl) (fun _ _ _ _ => rfl) rfl s
  rw [runField_id _ _ (fun _ _ _ => rfl)] at hit
  simp only [Prod.mk.injEq] at hit
  have hs := after_simple E ids fresh c (fun s => s.work.street) (storeStreet .workStreet .workStreet2) (fun k => k = .workStreet || k = .workStreet2)
    (fun k' v s' _ _ => by cases k' <;> rfl) (fun k v x hk => by cases k <;> first | rfl | simp at hk) rfl s
  have hl := sim (fun a => a.locality) .workLocality (fun k' v s => by cases k' <;> rfl) (by decide)
  have hr := sim (fun a => a.region) .workRegion (fun k' v s => by cases k' <;> rfl) (by decide)
  have hp := sim (fun a => a.postalCode) .workPostalCode (fun k' v s => by cases k' <;> rfl) (by decide)
  have hb := sim (fun a => a.postOfficeBox) .workPostOfficeBox (fun k' v s => by cases k' <;> rfl) (by decide)
  have hc := after_simple E ids fresh c (fun s => s.work.country) (storeCountry E .workCountry) (fun k => k = .workCountry)
    (fun k' v s' _ _ => by cases k' <;> rfl) (fun k v x hk => if_neg (of_decide_eq_false hk)) rfl s
  have he := after_simple E ids fresh c (fun s => s.work.empty) (storeAny workFields) (fun k => k ∈ workFields)
    (fun k' v s' _ _ => by cases k' <;> rfl) (fun k v x hk => if_neg (of_decide_eq_false hk)) rfl s
  rw [h0] at hs hl hr hp hb hc he
  have f1 : ((fields1 c ++ fields2 E fresh c).filter fun p => p.1 = .workStreet || p.1 = .workStreet2) =
    [(.workStreet, (c.address fresh 32).street), (.workStreet, (streetLines (c.address fresh 32).street).1), (.workStreet2, (streetLines (c.address fresh 32).street).2)] := rfl
  have f2 : ((fields1 c ++ fields2 E fresh c).filter fun p => p.1 = .workLocality) =
    [(.workLocality, (c.address fresh 32).locality), (.workLocality, (c.address fresh 32).locality)] := rfl
  have f3 : ((fields1 c ++ fields2 E fresh c).filter fun p => p.1 = .workRegion) = [(.workRegion, (c.address fresh 32).region)] := rfl
  have f4 : ((fields1 c ++ fields2 E fresh c).filter fun p => p.1 = .workPostalCode) = [(.workPostalCode, (c.address fresh 32).postalCode)] := rfl
  have f7 : ((fields1 c ++ fields2 E fresh c).filter fun p => p.1 = .workPostOfficeBox) = [(.workPostOfficeBox, (c.address fresh 32).postOfficeBox)] := rfl
  have f5 : ((fields1 c ++ fields2 E fresh c).filter fun p => p.1 = .workCountry) =
    [(.workCountry, E.countryName (c.address fresh 32).country), (.workCountry, E.countryName (c.address fresh 32).country)] := rfl
  have f6 : ((fields1 c ++ fields2 E fresh c).filter fun p => p.1 ∈ workFields) =
    [(.workPostalCode, (c.address fresh 32).postalCode), (.workPostOfficeBox, (c.address fresh 32).postOfficeBox),
     (.workLocality, (c.address fresh 32).locality), (.workStreet, (c.address fresh 32).street), (.workStreet, (streetLines (c.address fresh 32).street).1),
     (.workStreet2, (streetLines (c.address fresh 32).street).2), (.workCountry, E.countryName (c.address fresh 32).country),
     (.workLocality, (c.address fresh 32).locality), (.workCountry, E.countryName (c.address fresh 32).country), (.workRegion, (c.address fresh 32).region)] := rfl
  have twice : ∀ (g : LdifField → QString → QString → QString) (k : LdifField) (v : QString), (∀ x, g k v x = v) →
      runField g [(k, v), (k, v)] [] = v := by
    intro g k v hg
    simp only [runField_cons, runField_nil, hg]
    cases v <;> rfl
  rw [f1, runField_street _ _ (by decide) hst] at hs
  rw [f2, twice _ _ _ (fun x => if_pos rfl)] at hl
  rw [f3, runField_cons, runField_nil] at hr
  rw [f4, runField_cons, runField_nil] at hp
  rw [f7, runField_cons, runField_nil] at hb
  have hcs : ∀ x, storeCountry E .workCountry .workCountry (c.address fresh 32).country x = (c.address fresh 32).country := by
    intro x
    rw [storeCountry, if_pos rfl, LdifEnv.readCountry, hco, ite_self]
  rw [f5, hco, twice _ _ _ hcs] at hc
  rw [f6, runField_any workFields _ (by simp [workFields]), hco] at he
  refine ⟨hit.1, ?_, hs, hl, ?_, ?_, hc, ?_, ?_⟩
  · have := hit.2; rw [h0] at this; exact this
  · rw [hr]; exact ite_empty _
  · rw [hp]; exact ite_empty _
  · rw [hb]; exact ite_empty _
  · intro hem
    rw [hem] at he
    have he := he.symm
    simp only [List.all_cons, List.all_nil, Bool.and_eq_true, List.isEmpty_iff, Bool.true_and] at he
    exact ⟨he.2.2.2.1, he.2.2.1, he.2.2.2.2.2.2.2.2.2.1, he.1, he.2.2.2.2.2.2.1, he.2.1⟩

/-! ### birth dates -/

/-- The parts of a birth date. -/
def storeBirth (k : LdifField) (v : QString) (x : Int × Int × Int) : Int × Int × Int :=
  match k with
  | .birthYear => ((toInt32 v).getD (-1), x.2)
  | .birthMonth => (x.1, (toInt32 v).getD 0, x.2.2)
  | .birthDay => (x.1, x.2.1, (toInt32 v).getD 0)
  | _ => x

theorem after_birth (E : LdifEnv) (ids : Nat → QString) (fresh : QString) (c : Contact) (s : LdifState) :
    (afterExport E ids fresh c s).birth =
      runField storeBirth [(.birthYear, (birthTexts c.birthday).1), (.birthMonth, (birthTexts c.birthday).2.1), (.birthDay, (birthTexts c.birthday).2.2)] s.birth := by
  have := after_simple E ids fresh c LdifState.birth storeBirth (fun k => k = .birthYear || k = .birthMonth || k = .birthDay)
    (fun k' v s' _ _ => by cases k' <;> rfl) (fun k v x hk => by cases k <;> first | rfl | simp at hk) rfl s
  rw [this]
  rfl

theorem toInt32_dec (n : Nat) (h : n ≤ 2147483647) : toInt32 (dec n) = some (n : Int) := by
  have hd : ∀ u ∈ dec n, 48 ≤ u.toNat ∧ u.toNat ≤ 57 := dec_chars n
  have hfold : ∀ n, (dec n).foldl (fun n c => 10 * n + (c.toNat - 48)) 0 = n := by
    intro n
    induction n using Nat.strongRecOn with
    | _ n ih =>
      by_cases h10 : n < 10
      · rw [dec_lt10 n h10]
        simp [(dig_facts n h10).2.2.2.2.2.2.1]
      · rw [dec_step n (by omega), List.foldl_append, ih (n / 10) (by omega)]
        simp only [List.foldl_cons, List.foldl_nil, (dig_facts (n % 10) (by omega)).2.2.2.2.2.2.1]
        omega
  have hsp : trimmedQ (dec n) = dec n := by
    apply trim_none
    intro x hx
    have := hd x hx
    have key : ∀ m : Fin 10, isSpaceQ (UInt16.ofNat (48 + m.val)) = false := by decide
    have e : x = UInt16.ofNat (48 + (x.toNat - 48)) := by
      rw [show 48 + (x.toNat - 48) = x.toNat by omega]
      exact UInt16.toNat_inj.1 (by simp)
    rw [e]
    exact key ⟨x.toNat - 48, by omega⟩
  have hany : (dec n).any (fun c => c < 48 || 57 < c) = false := by
    rw [List.any_eq_false]
    intro x hx
    have := hd x hx
    simp only [Bool.or_eq_true, decide_eq_true_eq, not_or, UInt16.lt_iff_toNat_lt]
    have e1 : (48 : UInt16).toNat = 48 := rfl
    have e2 : (57 : UInt16).toNat = 57 := rfl
    omega
  have hf := hfold n
  unfold toInt32
  rw [hsp]
  cases hx : dec n with
  | nil =>
    exfalso
    by_cases h10 : n < 10
    · rw [dec_lt10 n h10] at hx; simp at hx
    · rw [dec_step n (by omega)] at hx; simp at hx
  | cons a t =>
    rw [hx] at hd hany hf
    have ha := hd a (by simp)
    have n1 : a ≠ qc! '-' := by intro e; rw [e] at ha; exact absurd ha.1 (by decide)
    have n2 : a ≠ qc! '+' := by intro e; rw [e] at ha; exact absurd ha.1 (by decide)
    simp only [if_neg n1, if_neg n2, List.isEmpty_cons, Bool.false_or, hany, Bool.false_eq_true, if_false, hf, Option.map_some]
    show (if (decide (-2147483648 ≤ (n : Int)) && decide ((n : Int) ≤ 2147483647)) = true then some (n : Int) else none) = some (n : Int)
    rw [if_pos (by simp; omega)]

theorem dec_ne (n : Nat) : (dec n).isEmpty = false := by
  by_cases h10 : n < 10
  · rw [dec_lt10 n h10]; rfl
  · rw [dec_step n (by omega)]; simp

end KC
