import Verif.Model.Setters
/-
  C54: a contact that reports being empty has never had anything stored in it.
-/
namespace KC

/-- A contact after a sequence of calls, starting from a new contact with uid `u`. -/
def contactAfter (E : QtEnv) (u : QString) (ops : List Op) : Contact := ops.foldl (Contact.apply E) (Contact.new u)

/-- Nothing has been stored: the contact is the new one, apart from the "changed" mark. -/
def Untouched (u : QString) (c : Contact) : Prop := c = { Contact.new u with changed := c.changed }

theorem apply_keeps_nonempty (E : QtEnv) (c : Contact) (op : Op) (h : c.empty = false) : (c.apply E op).empty = false := by
  cases op with
  | addEmail e => simp only [Contact.apply, Contact.addEmail]; split <;> simp [h]
  | insertLang t => simp only [Contact.apply, Contact.insertLang]; split <;> first | exact h | (split <;> rfl)
  | insertPhoneNumber p => simp only [Contact.apply, Contact.insertPhoneNumber]; split <;> rfl
  | insertKey p => simp only [Contact.apply, Contact.insertKey]; split <;> rfl
  | insertAddress p => simp only [Contact.apply, Contact.insertAddress]; split <;> first | exact h | (split <;> rfl)
  | insertCustom a n v =>
    simp only [Contact.apply, Contact.insertCustom]
    split
    · exact h
    · split <;> rfl
  | removeCategory s => simp only [Contact.apply, Contact.removeCategory]; split <;> exact h
  | namedCustom f v =>
    simp only [Contact.apply, Contact.setNamedCustom, Contact.insertCustom, Contact.removeCustom]
    split
    · split
      · exact h
      · split <;> rfl
    · exact h
  | text k s =>
    simp only [Contact.apply, Contact.setText, Contact.insertText, Contact.setTexts]
    split
    · cases k <;> rfl
    · split
      · cases k <;> rfl
      · exact h
  | insertText k t =>
    simp only [Contact.apply, Contact.insertText, Contact.setTexts]
    split
    · cases k <;> rfl
    · exact h
  | texts k l => cases k <;> rfl
  | url u => simp only [Contact.apply, Contact.setUrl, Contact.insertExtraUrl]; split <;> first | rfl | exact h
  | _ => first
      | exact h
      | rfl
      | (simp only [Contact.apply, Contact.setUid, Contact.setName, Contact.setKind, Contact.setFormattedName, Contact.setFamilyName,
          Contact.setGivenName, Contact.setAdditionalName, Contact.setPrefix, Contact.setSuffix, Contact.setMailer,
          Contact.setDepartment, Contact.setNote, Contact.setProductId, Contact.setSortString, Contact.setSecrecy,
          Contact.setGender, Contact.setTimeZone, Contact.setGeo, Contact.setLogo, Contact.setPhoto, Contact.setSound,
          Contact.setRevision, Contact.setDeathDate, Contact.setBirthday, Contact.setBirthdayDate, Contact.insertExtraUrl,
          Contact.insertFieldGroup, Contact.insertClientPidMap, Contact.insertImpp]
         split <;> first | rfl | exact h)

/-- A single call on an untouched contact leaves it untouched or clears the flag. -/
theorem apply_untouched (E : QtEnv) (u : QString) (c : Contact) (op : Op) (h : Untouched u c) :
    Untouched u (c.apply E op) ∨ (c.apply E op).empty = false := by
  unfold Untouched at h
  revert h
  generalize c.changed = b
  intro h
  cases op with
  | addEmail e => right; simp [Contact.apply, Contact.addEmail, h, Contact.new, findFirst]
  | removeEmail m => left; simp [Contact.apply, Contact.removeEmail, h, Contact.new, removeSkipping, Untouched]
  | removeLang m => left; simp [Contact.apply, Contact.removeLang, h, Contact.new, removeSkipping, Untouched]
  | insertLang t =>
    by_cases hs : (simplified t.text).isEmpty = true
    · left; simp only [Contact.apply, Contact.insertLang, hs, if_true]; rw [h]; simp [Untouched]
    · right; simp [Contact.apply, Contact.insertLang, hs, h, Contact.new, findFirst]
  | insertPhoneNumber p => right; simp only [Contact.apply, Contact.insertPhoneNumber]; split <;> rfl
  | removePhoneNumber p => left; simp [Contact.apply, Contact.removePhoneNumber, h, Contact.new, eraseFirst, Untouched]
  | insertKey p => right; simp only [Contact.apply, Contact.insertKey]; split <;> rfl
  | removeKey p => left; simp [Contact.apply, Contact.removeKey, h, Contact.new, Untouched]
  | insertAddress a =>
    by_cases hs : a.empty = true
    · left; simp only [Contact.apply, Contact.insertAddress, hs, if_true]; rw [h]; simp [Untouched]
    · right; simp [Contact.apply, Contact.insertAddress, hs, h, Contact.new, findFirst]
  | removeAddress p => left; simp [Contact.apply, Contact.removeAddress, h, Contact.new, eraseFirst, Untouched]
  | removeCategory s => left; simp [Contact.apply, Contact.removeCategory, h, Contact.new, Untouched]
  | removeCustom a n => left; simp [Contact.apply, Contact.removeCustom, h, Contact.new, SMap.eraseFirst, Untouched]
  | insertCustom a n v =>
    simp only [Contact.apply, Contact.insertCustom]
    split
    · left; rw [h]; simp [Untouched]
    · right; split <;> rfl
  | namedCustom f v =>
    simp only [Contact.apply, Contact.setNamedCustom, Contact.insertCustom]
    split
    · split
      · left; rw [h]; simp [Untouched]
      · right; split <;> rfl
    · left; simp [Contact.removeCustom, h, Contact.new, SMap.eraseFirst, Untouched]
  | text k s =>
    simp only [Contact.apply, Contact.setText, Contact.insertText, Contact.setTexts]
    split
    · right; cases k <;> rfl
    · split
      · right; cases k <;> rfl
      · left; rw [h]; simp [Untouched]
  | insertText k t =>
    simp only [Contact.apply, Contact.insertText, Contact.setTexts]
    split
    · right; cases k <;> rfl
    · left; rw [h]; simp [Untouched]
  | texts k l => right; cases k <;> rfl
  | changed b' => left; rw [h]; simp [Untouched, Contact.apply, Contact.setChanged]
  | url u =>
    simp only [Contact.apply, Contact.setUrl, Contact.insertExtraUrl]
    split
    · right; rfl
    · left; rw [h]; simp [Untouched]
  | _ => first
      | (right; rfl)
      | (simp only [Contact.apply, Contact.setUid, Contact.setName, Contact.setKind, Contact.setFormattedName, Contact.setFamilyName,
          Contact.setGivenName, Contact.setAdditionalName, Contact.setPrefix, Contact.setSuffix, Contact.setMailer,
          Contact.setDepartment, Contact.setNote, Contact.setProductId, Contact.setSortString, Contact.setSecrecy,
          Contact.setGender, Contact.setTimeZone, Contact.setGeo, Contact.setLogo, Contact.setPhoto, Contact.setSound,
          Contact.setRevision, Contact.setDeathDate, Contact.setBirthday, Contact.setBirthdayDate, Contact.insertExtraUrl,
          Contact.insertFieldGroup, Contact.insertClientPidMap, Contact.insertImpp]
         split
         · left; rw [h]; simp [Untouched]
         · right; rfl)
      | (simp only [Contact.apply, Contact.insertExtraUrl,
          Contact.insertFieldGroup, Contact.insertClientPidMap, Contact.insertImpp]
         split
         · right; rfl
         · left; rw [h]; simp [Untouched])

theorem after_empty (E : QtEnv) (u : QString) : ∀ (ops : List Op) (c : Contact), (c.empty = true → Untouched u c) →
    (ops.foldl (Contact.apply E) c).empty = true → c.empty = true ∧ Untouched u (ops.foldl (Contact.apply E) c)
  | [], c, h, he => ⟨he, h he⟩
  | op :: t, c, h, he => by
    have key : (c.apply E op).empty = true → Untouched u (c.apply E op) := by
      intro h'
      cases hc : c.empty with
      | false => rw [apply_keeps_nonempty E c op hc] at h'; cases h'
      | true =>
        rcases apply_untouched E u c op (h hc) with h2 | h2
        · exact h2
        · rw [h2] at h'; cases h'
    have := after_empty E u t (c.apply E op) key he
    refine ⟨?_, this.2⟩
    cases hc : c.empty with
    | true => rfl
    | false => have h1 := this.1; rw [apply_keeps_nonempty E c op hc] at h1; cases h1

/-- A contact that reports being empty is in all its fields a new contact. -/
theorem C54_empty_has_no_data (E : QtEnv) (u : QString) (ops : List Op) (h : (contactAfter E u ops).empty = true) :
    Untouched u (contactAfter E u ops) :=
  (after_empty E u ops (Contact.new u) (fun _ => rfl) h).2

/-- If after some calls the contact differed from a new one in any field, then it is never again reported empty, whatever is
    called afterwards (even if all data is removed). -/
theorem C54_stored_stays_nonempty (E : QtEnv) (u : QString) (ops later : List Op) (h : ¬ Untouched u (contactAfter E u ops)) :
    (contactAfter E u (ops ++ later)).empty = false := by
  cases he : (contactAfter E u (ops ++ later)).empty with
  | false => rfl
  | true =>
    exfalso
    unfold contactAfter at he h
    rw [List.foldl_append] at he
    have h1 : (ops.foldl (Contact.apply E) (Contact.new u)).empty = true → Untouched u (ops.foldl (Contact.apply E) (Contact.new u)) :=
      fun h' => (after_empty E u ops (Contact.new u) (fun _ => rfl) h').2
    exact h (h1 (after_empty E u later _ h1 he).1)

/-- Whether a call clears the flag does not depend on the "changed" mark. -/
theorem apply_empty_changed (E : QtEnv) (c : Contact) (b : Bool) (op : Op) :
    (Contact.apply E { c with changed := b } op).empty = (Contact.apply E c op).empty := by
  cases op with
  | insertCustom a n v =>
    simp only [Contact.apply, Contact.insertCustom]
    split
    · rfl
    · split <;> rfl
  | namedCustom f v =>
    simp only [Contact.apply, Contact.setNamedCustom, Contact.insertCustom, Contact.removeCustom]
    split
    · split
      · rfl
      · split <;> rfl
    · rfl
  | text k s =>
    have ht : Contact.texts { c with changed := b } k = c.texts k := by cases k <;> rfl
    simp only [Contact.apply, Contact.setText, Contact.insertText, ht]
    by_cases h1 : (!(c.texts k).isEmpty) = true
    · rw [if_pos h1, if_pos h1]; cases k <;> rfl
    · rw [if_neg h1, if_neg h1]
      split
      · cases k <;> rfl
      · rfl
  | insertText k t =>
    simp only [Contact.apply, Contact.insertText, Contact.setTexts]
    split
    · cases k <;> rfl
    · rfl
  | texts k l => cases k <;> rfl
  | _ => first
      | rfl
      | (simp only [Contact.apply, Contact.setUid, Contact.setName, Contact.setKind, Contact.setFormattedName, Contact.setFamilyName,
          Contact.setGivenName, Contact.setAdditionalName, Contact.setPrefix, Contact.setSuffix, Contact.setMailer,
          Contact.setDepartment, Contact.setNote, Contact.setProductId, Contact.setSortString, Contact.setSecrecy,
          Contact.setGender, Contact.setTimeZone, Contact.setGeo, Contact.setLogo, Contact.setPhoto, Contact.setSound,
          Contact.setRevision, Contact.setDeathDate, Contact.setBirthday, Contact.setBirthdayDate, Contact.insertExtraUrl,
          Contact.insertFieldGroup, Contact.insertClientPidMap, Contact.insertImpp, Contact.setUrl, Contact.addEmail, Contact.insertLang,
          Contact.insertPhoneNumber, Contact.insertKey, Contact.insertAddress, Contact.removeCategory]
         split <;> first | rfl | (split <;> rfl))

/-- Exactly when a contact is reported empty: a new one is, and it stays so as long as every call is one that a new contact ignores. -/
theorem C54_iff (E : QtEnv) (u : QString) (ops : List Op) :
    (contactAfter E u ops).empty = true ↔ ∀ op ∈ ops, ((contactAfter E u []).apply E op).empty = true := by
  have key : ∀ (ops : List Op) (c : Contact), c.empty = true → Untouched u c →
      ((ops.foldl (Contact.apply E) c).empty = true ↔ ∀ op ∈ ops, ((Contact.new u).apply E op).empty = true) := by
    intro ops
    induction ops with
    | nil => intro c hc _; simp [hc]
    | cons op t ih =>
      intro c hc hu
      have h1 : (c.apply E op).empty = ((Contact.new u).apply E op).empty := by
        rw [hu]; exact apply_empty_changed E (Contact.new u) c.changed op
      rw [List.foldl_cons, List.forall_mem_cons]
      cases he : (c.apply E op).empty with
      | true =>
        have hu' : Untouched u (c.apply E op) := (apply_untouched E u c op hu).resolve_right (by rw [he]; simp)
        rw [ih _ he hu', ← h1, he]; simp
      | false =>
        rw [← h1, he]
        have : ∀ (t : List Op) (c : Contact), c.empty = false → (t.foldl (Contact.apply E) c).empty = false := by
          intro t
          induction t with
          | nil => exact fun _ h => h
          | cons o t ih => exact fun c h => ih _ (apply_keeps_nonempty E c o h)
        rw [this t _ he]; simp
  exact key ops (Contact.new u) rfl rfl

/-- Non-vacuity: an ignored insertion keeps a contact empty; adding and removing an email address does not. -/
example (E : QtEnv) : (contactAfter E (q! "u") [.insertCustom (q! "a") [] (q! "v"), .note []]).empty = true := rfl
example (E : QtEnv) : (contactAfter E (q! "u") [.addEmail { mail := q! "a" }, .removeEmail (q! "a")]).empty = false ∧
    ¬ Untouched (q! "u") (contactAfter E (q! "u") [.addEmail { mail := q! "a" }]) := by
  constructor
  · rfl
  · intro h
    have : [({ mail := q! "a" } : Email)] = [] := congrArg Contact.emails h
    cases this

end KC
