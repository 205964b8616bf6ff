import Verif.Lemmas.LdifFields
import Verif.Lemmas.DateTime
import Verif.Lemmas.LdifImport
import Verif.Spec.LdifEntry
/-
  The import of one LDIF entry, field by field.
-/
namespace KC
open KC.Spec

/-- A list of texts. -/
def entryText (k : LdifField) (k' : LdifField) (v : QString) (x : List ParamText) : List ParamText :=
  if k' = k then (if x = [] ∧ v = [] then x else setFirstText x v) else x

/-- The birthday and whether it has a time. -/
def entryBat (k : LdifField) (v : QString) (x : QDateTime × Bool) : QDateTime × Bool :=
  if k = .batBirthday then
    (if validDate (toIntQ (midQ v 0 4)) (toIntQ (midQ v 4 2)) (toIntQ (midQ v 6 2)) then
      (if (some (toIntQ (midQ v 0 4), (toIntQ (midQ v 4 2)).toNat, (toIntQ (midQ v 6 2)).toNat) = x.1.map (·.date) && !x.2) = true then x
       else (some { date := (toIntQ (midQ v 0 4), (toIntQ (midQ v 4 2)).toNat, (toIntQ (midQ v 6 2)).toNat), time := (0, 0, 0, 0), zone := none }, false))
     else x)
  else x

/-- The contact with the fields an attribute changes. -/
def entryAll (E : LdifEnv) (id : QString) (k : LdifField) (v : QString) (c : Contact) (e : Bool) : Contact :=
  { c with
    givenName := store .givenName k v c.givenName
    familyName := store .familyName k v c.familyName
    formattedName := store .formattedName k v c.formattedName
    uid := store .uid k v c.uid
    prefix_ := store .prefix_ k v c.prefix_
    department := store .department k v c.department
    note := storeNote k v c.note
    nickNames := entryText .nickName k v c.nickNames
    titles := entryText .title k v c.titles
    roles := entryText .role k v c.roles
    organizations := entryText .organization k v c.organizations
    emails := storeEmail k v c.emails
    extraUrls := storeUrl E k v c.extraUrls
    revision := storeRevision E k v c.revision
    phoneNumbers := storePhone id k v c.phoneNumbers
    birthday := (entryBat k v (c.birthday, c.birthdayWithTime)).1
    birthdayWithTime := (entryBat k v (c.birthday, c.birthdayWithTime)).2
    empty := e }

theorem entry_nick (c : Contact) (v : QString) :
    ∃ e, c.setText .nickName v = { c with nickNames := if c.nickNames = [] ∧ v = [] then c.nickNames else setFirstText c.nickNames v, empty := e } := by
  by_cases h : c.nickNames = [] ∧ v = []
  · refine ⟨c.empty, ?_⟩
    rw [if_pos h]
    obtain ⟨h, rfl⟩ := h
    have e : c.setText .nickName [] = c := by simp [Contact.setText, Contact.texts, h, Contact.insertText, ParamText.isValid]
    exact e
  · rw [if_neg h]
    by_cases hv : v = []
    · subst hv
      have hl : c.nickNames ≠ [] := fun e => h ⟨e, rfl⟩
      refine ⟨false, ?_⟩
      have : (c.texts .nickName).isEmpty = false := by
        show c.nickNames.isEmpty = false
        cases hc : c.nickNames with
        | nil => exact absurd hc hl
        | cons => rfl
      simp only [Contact.setText, this, Bool.not_false, if_true]
      rfl
    · exact setText_nick c v hv

theorem entry_title (c : Contact) (v : QString) :
    ∃ e, c.setText .title v = { c with titles := if c.titles = [] ∧ v = [] then c.titles else setFirstText c.titles v, empty := e } := by
  by_cases h : c.titles = [] ∧ v = []
  · refine ⟨c.empty, ?_⟩
    rw [if_pos h]
    obtain ⟨h, rfl⟩ := h
    have e : c.setText .title [] = c := by simp [Contact.setText, Contact.texts, h, Contact.insertText, ParamText.isValid]
    exact e
  · rw [if_neg h]
    by_cases hv : v = []
    · subst hv
      have hl : c.titles ≠ [] := fun e => h ⟨e, rfl⟩
      refine ⟨false, ?_⟩
      have : (c.texts .title).isEmpty = false := by
        show c.titles.isEmpty = false
        cases hc : c.titles with
        | nil => exact absurd hc hl
        | cons => rfl
      simp only [Contact.setText, this, Bool.not_false, if_true]
      rfl
    · exact setText_title c v hv

theorem entry_role (c : Contact) (v : QString) :
    ∃ e, c.setText .role v = { c with roles := if c.roles = [] ∧ v = [] then c.roles else setFirstText c.roles v, empty := e } := by
  by_cases h : c.roles = [] ∧ v = []
  · refine ⟨c.empty, ?_⟩
    rw [if_pos h]
    obtain ⟨h, rfl⟩ := h
    have e : c.setText .role [] = c := by simp [Contact.setText, Contact.texts, h, Contact.insertText, ParamText.isValid]
    exact e
  · rw [if_neg h]
    by_cases hv : v = []
    · subst hv
      have hl : c.roles ≠ [] := fun e => h ⟨e, rfl⟩
      refine ⟨false, ?_⟩
      have : (c.texts .role).isEmpty = false := by
        show c.roles.isEmpty = false
        cases hc : c.roles with
        | nil => exact absurd hc hl
        | cons => rfl
      simp only [Contact.setText, this, Bool.not_false, if_true]
      rfl
    · exact setText_role c v hv

theorem entry_organization (c : Contact) (v : QString) :
    ∃ e, c.setText .organization v = { c with organizations := if c.organizations = [] ∧ v = [] then c.organizations else setFirstText c.organizations v, empty := e } := by
  by_cases h : c.organizations = [] ∧ v = []
  · refine ⟨c.empty, ?_⟩
    rw [if_pos h]
    obtain ⟨h, rfl⟩ := h
    have e : c.setText .organization [] = c := by simp [Contact.setText, Contact.texts, h, Contact.insertText, ParamText.isValid]
    exact e
  · rw [if_neg h]
    by_cases hv : v = []
    · subst hv
      have hl : c.organizations ≠ [] := fun e => h ⟨e, rfl⟩
      refine ⟨false, ?_⟩
      have : (c.texts .organization).isEmpty = false := by
        show c.organizations.isEmpty = false
        cases hc : c.organizations with
        | nil => exact absurd hc hl
        | cons => rfl
      simp only [Contact.setText, this, Bool.not_false, if_true]
      rfl
    · exact setText_organization c v hv

theorem entry_contact (E : LdifEnv) (ids : Nat → QString) (k : LdifField) (v : QString) (s : LdifState) (hk : k ≠ .noteLine) :
    ∃ e, (ldifApply E ids s k v).a = entryAll E (ids s.next) k v s.a e := by
  cases k
  case ignored => exact ⟨s.a.empty, rfl⟩
  case noteLine => exact absurd rfl hk
  case batBirthday =>
    simp only [ldifApply, Contact.setBirthdayDate]
    split
    · rename_i hv
      split
      · rename_i h
        refine ⟨s.a.empty, ?_⟩
        simp only [entryAll, entryBat, if_true, if_pos hv, h]
        rfl
      · rename_i h
        refine ⟨false, ?_⟩
        simp only [entryAll, entryBat, if_true, if_pos hv, if_neg h]
        rfl
    · rename_i hv
      refine ⟨s.a.empty, ?_⟩
      simp only [entryAll, entryBat, if_true, if_neg hv]
      rfl
  case givenName =>
    simp only [ldifApply, Contact.setGivenName]
    split
    · subst v; exact ⟨s.a.empty, rfl⟩
    · exact ⟨false, rfl⟩
  case familyName =>
    simp only [ldifApply, Contact.setFamilyName]
    split
    · subst v; exact ⟨s.a.empty, rfl⟩
    · exact ⟨false, rfl⟩
  case uid =>
    simp only [ldifApply, Contact.setUid]
    split
    · subst v; exact ⟨s.a.empty, rfl⟩
    · exact ⟨false, rfl⟩
  case prefix_ =>
    simp only [ldifApply, Contact.setPrefix]
    split
    · subst v; exact ⟨s.a.empty, rfl⟩
    · exact ⟨false, rfl⟩
  case formattedName =>
    simp only [ldifApply, Contact.setFormattedName]
    split
    · subst v; exact ⟨s.a.empty, rfl⟩
    · exact ⟨false, rfl⟩
  case department =>
    simp only [ldifApply, Contact.setDepartment]
    split
    · subst v; exact ⟨s.a.empty, rfl⟩
    · exact ⟨false, rfl⟩
  case nickName => obtain ⟨e, he⟩ := entry_nick s.a v; exact ⟨e, he⟩
  case title => obtain ⟨e, he⟩ := entry_title s.a v; exact ⟨e, he⟩
  case role => obtain ⟨e, he⟩ := entry_role s.a v; exact ⟨e, he⟩
  case organization => obtain ⟨e, he⟩ := entry_organization s.a v; exact ⟨e, he⟩
  case note =>
    simp only [ldifApply]
    cases hn : s.a.note with
    | nil =>
      obtain ⟨e, he⟩ := setNote_eq s.a v
      refine ⟨e, ?_⟩
      simp only [List.isEmpty_nil, Bool.not_true, Bool.false_eq_true, if_false, hn, List.nil_append, he]
      simp [entryAll, store, storeNote, entryText, storeEmail, storeUrl, storeRevision, storePhone, entryBat, hn]
    | cons x n =>
      obtain ⟨e, he⟩ := setNote_eq s.a (x :: n ++ q! "\n")
      simp only [List.isEmpty_cons, Bool.not_false, if_true, he]
      obtain ⟨e', he'⟩ := setNote_eq { s.a with note := (x :: n ++ q! "\n"), empty := e } (x :: n ++ q! "\n" ++ v)
      refine ⟨e', ?_⟩
      rw [he']
      simp [entryAll, store, storeNote, entryText, storeEmail, storeUrl, storeRevision, storePhone, entryBat, hn]
  case email =>
    simp only [ldifApply]
    by_cases hm : v ∈ s.a.emails.map (·.mail)
    · refine ⟨s.a.empty, ?_⟩
      have : s.a.emailAddresses.contains v = true := by simpa [Contact.emailAddresses] using hm
      simp only [this, if_true]
      simp only [entryAll, storeEmail, if_true, if_pos hm]
      rfl
    · refine ⟨false, ?_⟩
      have : s.a.emailAddresses.contains v = false := by simpa [Contact.emailAddresses] using hm
      simp only [this, Bool.false_eq_true, if_false]
      unfold Contact.addEmail
      rw [findFirst_mail v _ hm]
      simp only [entryAll, storeEmail, if_true, if_neg hm]
      rfl
  case url =>
    simp only [ldifApply, Contact.insertExtraUrl]
    by_cases h1 : s.a.url.url.isEmpty = true
    · by_cases h2 : E.urlValid (E.urlOf v) = true
      · refine ⟨false, ?_⟩
        have h3 : ParamUrl.isValidUrl E.toQtEnv { url := E.urlOf v } = true := h2
        have h1' : (s.a.extraUrls.headD {}).url.isEmpty = true := h1
        simp only [h1, h3, if_true, entryAll, storeUrl, h1', h2, Bool.and_self]
        rfl
      · refine ⟨s.a.empty, ?_⟩
        have h3 : ¬ ParamUrl.isValidUrl E.toQtEnv { url := E.urlOf v } = true := h2
        simp only [h1, if_true, if_neg h3, entryAll, storeUrl]
        rw [if_neg (by simp [h2])]
        rfl
    · refine ⟨s.a.empty, ?_⟩
      have h1' : ¬ (s.a.extraUrls.headD {}).url.isEmpty = true := h1
      simp only [if_neg h1, entryAll, storeUrl, if_true]
      rw [if_neg (by simp only [Bool.and_eq_true]; exact fun x => h1' x.1)]
      rfl
  case revision =>
    simp only [ldifApply, Contact.setRevision]
    by_cases h0 : v = q! "0Z"
    · refine ⟨s.a.empty, ?_⟩
      simp only [if_pos h0, entryAll, storeRevision, if_true]
      rw [if_neg (by simp [h0])]
      rfl
    · rw [if_neg h0]
      by_cases h1 : (vCardStringToDate v).isSome = true
      · rw [if_pos h1]
        cases h2 : QDateTime.eq E.toQtEnv (vCardStringToDate v) s.a.revision with
        | true =>
          refine ⟨s.a.empty, ?_⟩
          simp only [if_true, entryAll, storeRevision]
          rw [if_neg (by simp [h2])]
          rfl
        | false =>
          refine ⟨false, ?_⟩
          rw [if_neg Bool.false_ne_true]
          simp only [if_true, entryAll, storeRevision]
          rw [if_pos ⟨h0, h1, h2⟩]
          rfl
      · refine ⟨s.a.empty, ?_⟩
        rw [if_neg h1]
        simp only [if_true, entryAll, storeRevision]
        rw [if_neg (by simp [h1])]
        rfl
  case phone t =>
    refine ⟨false, ?_⟩
    simp only [ldifApply]
    unfold Contact.insertPhoneNumber
    cases hf : findFirst PhoneNumber.id (PhoneNumber.mk' (ids s.next) v t).id s.a.phoneNumbers with
    | some x =>
      simp only [entryAll, storePhone, Contact.setPhoneNumbers, Contact.insertPhoneNumber, hf]
      rfl
    | none =>
      simp only [entryAll, storePhone, Contact.setPhoneNumbers, Contact.insertPhoneNumber, hf]
      rfl
  all_goals exact ⟨s.a.empty, rfl⟩


/-! ### the attributes of an entry and what they mean -/

/-- The attributes with their meaning. -/
def recordFields (r : LdifRecord) : List (LdifField × QString) := r.attrs.map fun a => (ldifField false (toLowerQ a.1), fromUtf8 a.2)

/-- The names stand for the fields chosen by `κ`. -/
def nameCheck (names : List QString) (κ : LdifField → Bool) : Bool :=
  ldifFieldNames.all (fun p => κ p.2 == decide (p.1 ∈ names)) && names.all (fun n => decide (n ∈ ldifFieldNames.map (·.1))) && !κ .ignored && !κ .unknown

/-- The names in the table stand for the fields `κ` knows. -/
def kindCheck {K : Type} [DecidableEq K] (table : List (QString × K)) (κ : LdifField → Option K) : Bool :=
  ldifFieldNames.all (fun p => decide (κ p.2 = (table.find? fun q => decide (q.1 = p.1)).map (·.2))) &&
    table.all (fun n => decide (n.1 ∈ ldifFieldNames.map (·.1))) && decide (κ .ignored = none) && decide (κ .unknown = none)

private theorem names_special : ∀ n ∈ ldifFieldNames.map (·.1), n ≠ q! "dn" ∧ startsWith (q! "#") n = false := by decide +kernel

theorem ldifField_cases (name : QString) :
    (∃ p ∈ ldifFieldNames, p.1 = name ∧ ldifField false name = p.2) ∨
    (name ∉ ldifFieldNames.map (·.1) ∧ (ldifField false name = .ignored ∨ ldifField false name = .unknown)) := by
  unfold ldifField
  by_cases h1 : name = q! "dn"
  · rw [if_pos h1]
    exact .inr ⟨fun h => (names_special _ h).1 h1, .inl rfl⟩
  rw [if_neg h1]
  by_cases h2 : startsWith (q! "#") name = true
  · rw [if_pos h2]
    refine .inr ⟨fun h => ?_, .inl rfl⟩
    rw [(names_special _ h).2] at h2
    exact absurd h2 (by decide)
  rw [if_neg h2, Bool.and_false, if_neg Bool.false_ne_true]
  cases hf : ldifFieldNames.find? (fun p => decide (p.1 = name)) with
  | some p =>
    refine .inl ⟨p, List.mem_of_find?_eq_some hf, ?_, rfl⟩
    have := List.find?_some hf
    simpa using this
  | none =>
    refine .inr ⟨fun h => ?_, .inr rfl⟩
    obtain ⟨p, hp, e⟩ := List.mem_map.1 h
    have := List.find?_eq_none.1 hf p hp
    simp [e] at this

theorem field_names {names : List QString} {κ : LdifField → Bool} (h : nameCheck names κ = true) (name : QString) :
    κ (ldifField false name) = decide (name ∈ names) := by
  simp only [nameCheck, Bool.and_eq_true, List.all_eq_true, beq_iff_eq, Bool.not_eq_true', decide_eq_true_eq] at h
  obtain ⟨⟨⟨h1, h2⟩, h3⟩, h4⟩ := h
  rcases ldifField_cases name with ⟨p, hp, rfl, e⟩ | ⟨hn, e | e⟩
  · rw [e, h1 p hp]
  · rw [e, h3, eq_comm]; exact decide_eq_false fun h => hn (h2 _ h)
  · rw [e, h4, eq_comm]; exact decide_eq_false fun h => hn (h2 _ h)

theorem field_kinds {K : Type} [DecidableEq K] {table : List (QString × K)} {κ : LdifField → Option K} (h : kindCheck table κ = true) (name : QString) :
    κ (ldifField false name) = (table.find? fun q => decide (q.1 = name)).map (·.2) := by
  simp only [kindCheck, Bool.and_eq_true, List.all_eq_true, decide_eq_true_eq] at h
  obtain ⟨⟨⟨h1, h2⟩, h3⟩, h4⟩ := h
  have none_of : name ∉ ldifFieldNames.map (·.1) → (table.find? fun q => decide (q.1 = name)) = none := by
    intro hn
    rw [List.find?_eq_none]
    intro p hp e
    exact hn (by have := h2 p hp; rwa [of_decide_eq_true e] at this)
  rcases ldifField_cases name with ⟨p, hp, rfl, e⟩ | ⟨hn, e | e⟩
  · rw [e, h1 p hp]
  · rw [e, h3, none_of hn]; rfl
  · rw [e, h4, none_of hn]; rfl

theorem values_fields (r : LdifRecord) {names : List QString} {κ : LdifField → Bool} (h : nameCheck names κ = true) :
    r.values names = ((recordFields r).filter fun p => κ p.1).map (·.2) := by
  unfold LdifRecord.values recordFields
  induction r.attrs with
  | nil => rfl
  | cons a l ih => simp only [List.map_cons, List.filter_cons, field_names h, decide_eq_true_eq] at ih ⊢; split <;> simp [ih]

theorem kinded_fields {K : Type} [DecidableEq K] (r : LdifRecord) {table : List (QString × K)} {κ : LdifField → Option K} (h : kindCheck table κ = true) :
    r.kinded table = (recordFields r).filterMap fun p => (κ p.1).map fun k => (k, p.2) := by
  unfold LdifRecord.kinded recordFields
  rw [List.filterMap_map]
  congr 1
  funext a
  simp only [Function.comp, field_kinds h, Option.map_map]
  rfl

theorem recordFields_named (r : LdifRecord) : ∀ p ∈ recordFields r, p.1 ≠ .noteLine := by
  have : ∀ p ∈ ldifFieldNames, p.2 ≠ .noteLine := by decide +kernel
  intro p hp
  obtain ⟨a, _, rfl⟩ := List.mem_map.1 hp
  rcases ldifField_cases (toLowerQ a.1) with ⟨q, hq, _, e⟩ | ⟨_, e | e⟩
  · dsimp only; rw [e]; exact this q hq
  · dsimp only; rw [e]; decide
  · dsimp only; rw [e]; decide

/-! ### following a part of the state -/

/-- The state after the attributes of the entry. -/
def entryState (E : LdifEnv) (ids : Nat → QString) (now : QDateTime) (r : LdifRecord) : LdifState :=
  (recordFields r).foldl (fun s p => ldifApply E ids s p.1 p.2) (ldifFresh E ids now 0 (-1) (-1) (-1))

theorem entry_part {α : Type} (E : LdifEnv) (ids : Nat → QString) (now : QDateTime) (r : LdifRecord) (π : LdifState → α) (g : LdifField → QString → α → α)
    (I : LdifState → Prop) (h : ∀ k v s, k ≠ .noteLine → I s → I (ldifApply E ids s k v) ∧ π (ldifApply E ids s k v) = g k v (π s))
    (h0 : I (ldifFresh E ids now 0 (-1) (-1) (-1))) :
    I (entryState E ids now r) ∧
      π (entryState E ids now r) = (recordFields r).foldl (fun x p => g p.1 p.2 x) (π (ldifFresh E ids now 0 (-1) (-1) (-1))) := by
  unfold entryState
  have hn := recordFields_named r
  generalize ldifFresh E ids now 0 (-1) (-1) (-1) = s at h0 ⊢
  generalize recordFields r = l at hn ⊢
  induction l generalizing s with
  | nil => exact ⟨h0, rfl⟩
  | cons p l ih =>
    obtain ⟨h1, h2⟩ := h p.1 p.2 s (hn p (by simp)) h0
    have := ih _ h1 (fun q hq => hn q (by simp [hq]))
    rw [h2] at this
    exact this

theorem fold_filter {α : Type} (κ : LdifField → Bool) (f : α → QString → α) (l : List (LdifField × QString)) (x : α) :
    l.foldl (fun x p => if κ p.1 then f x p.2 else x) x = ((l.filter fun p => κ p.1).map (·.2)).foldl f x := by
  induction l generalizing x with
  | nil => rfl
  | cons p l ih => simp only [List.foldl_cons, List.filter_cons]; split <;> simp [ih]

theorem fold_kinds {α K : Type} (κ : LdifField → Option K) (f : α → K × QString → α) (l : List (LdifField × QString)) (x : α) :
    l.foldl (fun x p => (κ p.1).elim x fun k => f x (k, p.2)) x = (l.filterMap fun p => (κ p.1).map fun k => (k, p.2)).foldl f x := by
  induction l generalizing x with
  | nil => rfl
  | cons p l ih =>
    simp only [List.foldl_cons, List.filterMap_cons]
    cases κ p.1 <;> simp [ih]

/-- A part of the state that only the attributes with these names change. -/
theorem entry_values {α : Type} (E : LdifEnv) (ids : Nat → QString) (now : QDateTime) (r : LdifRecord) (π : LdifState → α) {names : List QString}
    (κ : LdifField → Bool) (f : α → QString → α) (hκ : nameCheck names κ = true)
    (h : ∀ k v s, k ≠ .noteLine → π (ldifApply E ids s k v) = if κ k then f (π s) v else π s) :
    π (entryState E ids now r) = (r.values names).foldl f (π (ldifFresh E ids now 0 (-1) (-1) (-1))) := by
  rw [values_fields r hκ, ← fold_filter]
  exact (entry_part E ids now r π (fun k v x => if κ k then f x v else x) (fun _ => True) (fun k v s hk _ => ⟨trivial, h k v s hk⟩) trivial).2

/-- A part of the state that only the attributes with the names in a table change. -/
theorem entry_kinds {α K : Type} [DecidableEq K] (E : LdifEnv) (ids : Nat → QString) (now : QDateTime) (r : LdifRecord) (π : LdifState → α)
    {table : List (QString × K)} (κ : LdifField → Option K) (f : α → K × QString → α) (hκ : kindCheck table κ = true)
    (h : ∀ k v s, k ≠ .noteLine → π (ldifApply E ids s k v) = (κ k).elim (π s) fun k => f (π s) (k, v)) :
    π (entryState E ids now r) = (r.kinded table).foldl f (π (ldifFresh E ids now 0 (-1) (-1) (-1))) := by
  rw [kinded_fields r hκ, ← fold_kinds]
  exact (entry_part E ids now r π (fun k v x => (κ k).elim x fun k => f x (k, v)) (fun _ => True) (fun k v s hk _ => ⟨trivial, h k v s hk⟩) trivial).2

/-- A part of the contact that only the attributes with these names change. -/
theorem entry_field {α : Type} (E : LdifEnv) (ids : Nat → QString) (now : QDateTime) (r : LdifRecord) (π : Contact → α) {names : List QString}
    (κ : LdifField → Bool) (f : α → QString → α) (hκ : nameCheck names κ = true)
    (h : ∀ id k v c e, π (entryAll E id k v c e) = if κ k then f (π c) v else π c) :
    π (entryState E ids now r).a = (r.values names).foldl f (π (ldifFresh E ids now 0 (-1) (-1) (-1)).a) := by
  refine entry_values E ids now r (fun s => π s.a) κ f hκ ?_
  intro k v s hk
  obtain ⟨e, he⟩ := entry_contact E ids k v s hk
  simp only [he]
  exact h _ _ _ _ _

/-! ### lists of values -/

theorem fold_last {α : Type} (l : List α) (x : α) : l.foldl (fun _ v => v) x = l.getLast?.getD x := by
  induction l generalizing x with
  | nil => rfl
  | cons a l ih => rw [List.foldl_cons, ih, List.getLast?_cons]; rfl

theorem fold_single (l : List QString) :
    l.foldl (fun (x : List ParamText) v => if x = [] ∧ v = [] then x else setFirstText x v) [] =
      ((l.dropWhile (·.isEmpty)).getLast?).toList.map fun t => { text := t } := by
  have one : ∀ (l : List QString) (t : QString), l.foldl (fun (x : List ParamText) v => if x = [] ∧ v = [] then x else setFirstText x v) [{ text := t }] =
      [{ text := l.getLast?.getD t }] := by
    intro l
    induction l with
    | nil => intro t; rfl
    | cons a l ih =>
      intro t
      rw [List.foldl_cons, if_neg (by simp), List.getLast?_cons]
      exact ih a
  induction l with
  | nil => rfl
  | cons a l ih =>
    rw [List.foldl_cons]
    cases a with
    | nil => rw [if_pos ⟨rfl, rfl⟩, ih]; rfl
    | cons c a =>
      rw [if_neg (by simp)]
      have := one l (c :: a)
      rw [List.dropWhile_cons_of_neg (by simp), List.getLast?_cons]
      exact this

theorem fold_note (l : List QString) :
    l.foldl (fun (x : QString) v => if x.isEmpty then v else x ++ q! "\n" ++ v) [] = List.intercalate (q! "\n") (l.dropWhile (·.isEmpty)) := by
  have more : ∀ (l : List QString) (x : QString), x ≠ [] → l.foldl (fun (x : QString) v => if x.isEmpty then v else x ++ q! "\n" ++ v) x =
      List.intercalate (q! "\n") (x :: l) := by
    intro l
    induction l with
    | nil => intro x _; simp [List.intercalate]
    | cons a l ih =>
      intro x hx
      have : x.isEmpty = false := by cases x with | nil => exact absurd rfl hx | cons => rfl
      simp only [List.foldl_cons, this, Bool.false_eq_true, if_false]
      rw [ih _ (by simp)]
      cases l <;> simp [List.intercalate, List.intersperse]
  induction l with
  | nil => rfl
  | cons a l ih =>
    rw [List.foldl_cons]
    cases a with
    | nil => exact ih
    | cons c a =>
      rw [List.dropWhile_cons_of_neg (by simp)]
      exact more l (c :: a) (by simp)

theorem fold_emails (l : List QString) :
    l.foldl (fun (x : List Email) v => if v ∈ x.map (·.mail) then x else x ++ [{ mail := v }]) [] = (distinct l).map fun m => { mail := m } := by
  have gen : ∀ (l acc : List QString), l.foldl (fun (x : List Email) v => if v ∈ x.map (·.mail) then x else x ++ [{ mail := v }]) (acc.map fun m => { mail := m }) =
      (l.foldl (fun acc x => if x ∈ acc then acc else acc ++ [x]) acc).map fun m => { mail := m } := by
    intro l
    induction l with
    | nil => intro acc; rfl
    | cons a l ih =>
      intro acc
      have e : (acc.map fun m => ({ mail := m } : Email)).map (·.mail) = acc := by rw [List.map_map]; exact List.map_id acc
      rw [List.foldl_cons, List.foldl_cons, e]
      split
      · exact ih acc
      · have := ih (acc ++ [a])
        rw [List.map_append] at this
        exact this
  have e : distinct l = l.foldl (fun acc x => if x ∈ acc then acc else acc ++ [x]) [] := by
    unfold distinct
    congr 1
    funext acc x
    by_cases h : x ∈ acc
    · rw [if_pos h, if_pos h]
    · rw [if_neg h, if_neg h]
  rw [e]
  exact gen l []

theorem fold_urls (E : LdifEnv) (hu : ∀ u, E.urlValid u = true → u ≠ []) (l : List QString) :
    l.foldl (fun (x : List ParamUrl) v => if (x.headD {}).url.isEmpty && E.urlValid (E.urlOf v) then x ++ [{ url := E.urlOf v }] else x) [] =
      (((l.map E.urlOf).filter E.urlValid).take 1).map fun u => { url := u } := by
  have one : ∀ (l : List QString) (u : ParamUrl), u.url ≠ [] →
      l.foldl (fun (x : List ParamUrl) v => if (x.headD {}).url.isEmpty && E.urlValid (E.urlOf v) then x ++ [{ url := E.urlOf v }] else x) [u] = [u] := by
    intro l
    induction l with
    | nil => intro u _; rfl
    | cons a l ih =>
      intro u h
      have : u.url.isEmpty = false := by cases hh : u.url with | nil => exact absurd hh h | cons => rfl
      rw [List.foldl_cons]
      simp only [List.headD_cons, this, Bool.false_and, Bool.false_eq_true, if_false] at ih ⊢
      exact ih u h
  induction l with
  | nil => rfl
  | cons a l ih =>
    rw [List.foldl_cons, List.map_cons]
    by_cases h : E.urlValid (E.urlOf a) = true
    · rw [if_pos (by simpa using h), List.filter_cons_of_pos h, List.nil_append, one l _ (hu _ h)]
      rfl
    · rw [if_neg (by simpa using h), List.filter_cons_of_neg h, ih]

theorem QDateTime.eq_refl' (E : QtEnv) (d : QDateTime) : QDateTime.eq E d d = true := by cases d <;> simp [QDateTime.eq]
theorem QDateTime.eq_symm' (E : QtEnv) {a b : QDateTime} (h : QDateTime.eq E a b = true) : QDateTime.eq E b a = true := by
  cases a <;> cases b <;> simp_all [QDateTime.eq]

theorem fold_revision (E : LdifEnv) (l : List QString) (x now : QDateTime) (hx : QDateTime.eq E.toQtEnv x now = true) :
    QDateTime.eq E.toQtEnv (l.foldl (fun (x : QDateTime) v =>
      if v ≠ q! "0Z" ∧ (vCardStringToDate v).isSome = true ∧ QDateTime.eq E.toQtEnv (vCardStringToDate v) x = false then vCardStringToDate v else x) x)
      (((l.map vCardStringToDate).filter (·.isSome)).getLast?.getD now) = true := by
  induction l generalizing x now with
  | nil => exact hx
  | cons v l ih =>
    rw [List.foldl_cons, List.map_cons]
    by_cases hv : (vCardStringToDate v).isSome = true
    · have h0 : v ≠ q! "0Z" := by
        rintro rfl
        exact absurd hv (by decide)
      rw [List.filter_cons_of_pos (by simpa using hv), List.getLast?_cons, Option.getD_some]
      apply ih
      cases h : QDateTime.eq E.toQtEnv (vCardStringToDate v) x with
      | false => rw [if_pos ⟨h0, hv, rfl⟩]; exact QDateTime.eq_refl' _ _
      | true => rw [if_neg (by simp)]; exact QDateTime.eq_symm' _ h
    · rw [if_neg (by simp [hv]), List.filter_cons_of_neg (by simpa using hv)]
      exact ih _ _ hx

theorem memberData_eq (v : QString) : memberData v = memberOf v := by
  have parts : ∀ (l : List QString) (x : QString × QString), memberParts l x =
      (((l.filter fun s => startsWith (q! "cn=") s).getLast?.map fun s => trimmedQ (s.drop 3)).getD x.1,
       ((l.filter fun s => startsWith (q! "mail=") s).getLast?.map fun s => trimmedQ (s.drop 5)).getD x.2) := by
    intro l
    induction l with
    | nil => intro x; rfl
    | cons s l ih =>
      intro x
      rw [memberParts]
      by_cases h1 : startsWith (q! "cn=") s = true
      · have h2 : startsWith (q! "mail=") s = false := by
          cases s with
          | nil => exact absurd h1 (by decide)
          | cons c s =>
            simp only [startsWith, List.length_cons, List.length_nil, List.take_succ_cons] at h1 ⊢
            simp only [beq_iff_eq, List.cons.injEq] at h1
            simp [h1.1]
        rw [if_pos h1, ih, List.filter_cons_of_pos h1, List.filter_cons_of_neg (by simp [h2]), List.getLast?_cons]
        cases (l.filter fun s => startsWith (q! "cn=") s).getLast? <;> rfl
      · rw [if_neg h1, List.filter_cons_of_neg h1]
        by_cases h2 : startsWith (q! "mail=") s = true
        · rw [if_pos h2, ih, List.filter_cons_of_pos h2, List.getLast?_cons]
          cases (l.filter fun s => startsWith (q! "mail=") s).getLast? <;> rfl
        · rw [if_neg h2, ih, List.filter_cons_of_neg h2]
  unfold memberData memberOf memberPart
  rw [parts]
  dsimp only
  have l1 : (q! "cn=").length = 3 := rfl
  have l2 : (q! "mail=").length = 5 := rfl
  rw [l1, l2]
  congr 1
  generalize ((List.filter (fun s => startsWith (q! "cn=") s) (splitOn (qc! ',') v)).getLast?.map fun s => trimmedQ (s.drop 3)).getD [] = a
  generalize ((List.filter (fun s => startsWith (q! "mail=") s) (splitOn (qc! ',') v)).getLast?.map fun s => trimmedQ (s.drop 5)).getD [] = b
  cases a <;> cases b <;> simp

theorem validDate_int (y m d : Int) : validDate y m d = true ↔ RealDay (y, m.toNat, d.toNat) := by
  by_cases hm : 0 ≤ m
  · by_cases hd : 0 ≤ d
    · have := validDate_iff y m.toNat d.toNat
      rwa [Int.toNat_of_nonneg hm, Int.toNat_of_nonneg hd] at this
    · constructor
      · intro h; simp [validDate] at h; omega
      · intro h
        have := h.2.2.2.1
        dsimp only at this
        omega
  · constructor
    · intro h; simp [validDate] at h; omega
    · intro h
      have := h.2.1
      dsimp only at this
      omega

end KC
