import Verif.Props.C44
/-
  What an export of imported contacts looks at besides the fields in `LdifSurvives`: the mark for empty contacts, the custom fields and the text of the
  revision.
-/
namespace KC
open KC.Spec

/-- A contact is unchanged or marked as not empty. -/
private def SameOrMarked (a b : Contact) : Prop := b = a ∨ b.empty = false

private theorem SameOrMarked.trans {a b c : Contact} (h : SameOrMarked a b) (h' : SameOrMarked b c) : SameOrMarked a c := by
  rcases h' with rfl | h'
  · exact h
  · exact .inr h'

private theorem SameOrMarked.ite {a b : Contact} {p : Prop} [Decidable p] (h : b.empty = false) : SameOrMarked a (if p then a else b) := by
  split
  · exact .inl rfl
  · exact .inr h

private theorem SameOrMarked.note (a : Contact) (v : QString) : SameOrMarked a (a.setNote v) := .ite rfl

private theorem setText_marked (c : Contact) (k : TextList) (v : QString) (hv : v ≠ []) : (c.setText k v).empty = false := by
  have h1 : ∀ l, (c.setTexts k l).empty = false := fun l => by cases k <;> rfl
  have h2 : (c.insertText k { text := v }).empty = false := by
    unfold Contact.insertText ParamText.isValid
    cases v with
    | nil => exact absurd rfl hv
    | cons x v => exact h1 _
  have h3 : ∀ b : Bool, (if b then c.setTexts k (setFirstText (c.texts k) v) else c.insertText k { text := v }).empty = false := fun b => by
    cases b
    · exact h2
    · exact h1 _
  exact h3 _

private theorem apply_marked (E : LdifEnv) (ids : Nat → QString) (k : LdifField) (v : QString) (s : LdifState) (hv : v ≠ []) :
    SameOrMarked s.a (ldifApply E ids s k v).a := by
  cases k
  case noteLine => exact .note _ _
  case batBirthday =>
    simp only [ldifApply]
    split
    · exact .ite rfl
    · exact .inl rfl
  case givenName => exact .ite rfl
  case familyName => exact .ite rfl
  case uid => exact .ite rfl
  case prefix_ => exact .ite rfl
  case formattedName => exact .ite rfl
  case department => exact .ite rfl
  case nickName => exact .inr (setText_marked _ _ _ hv)
  case title => exact .inr (setText_marked _ _ _ hv)
  case role => exact .inr (setText_marked _ _ _ hv)
  case organization => exact .inr (setText_marked _ _ _ hv)
  case note =>
    simp only [ldifApply]
    refine SameOrMarked.trans ?_ (.note _ _)
    split
    · exact .note _ _
    · exact .inl rfl
  case email =>
    simp only [ldifApply]
    split
    · exact .inl rfl
    · rename_i hm
      have hm : v ∉ s.a.emails.map (·.mail) := by simpa [Contact.emailAddresses] using hm
      refine .inr ?_
      unfold Contact.addEmail
      rw [findFirst_mail v _ hm]
  case url =>
    simp only [ldifApply, Contact.insertExtraUrl]
    split
    · split
      · exact .inr rfl
      · exact .inl rfl
    · exact .inl rfl
  case revision =>
    simp only [ldifApply]
    split
    · exact .inl rfl
    · split
      · exact .ite rfl
      · exact .inl rfl
  case phone t =>
    refine .inr ?_
    simp only [ldifApply]
    unfold Contact.insertPhoneNumber
    split <;> rfl
  all_goals exact .inl rfl

/-- A contact with a name is marked as not empty. -/
theorem after_marked (E : LdifEnv) (ids : Nat → QString) (fresh : QString) (c : Contact) (s : LdifState)
    (hs : s.a.empty = true → s.a.formattedName = [] ∧ s.a.familyName = []) :
    (afterExport E ids fresh c s).a.empty = true →
      (afterExport E ids fresh c s).a.formattedName = [] ∧ (afterExport E ids fresh c s).a.familyName = [] :=
  (after_part E ids fresh c (fun _ => ()) (fun _ _ x => x) (fun s => s.a.empty = true → s.a.formattedName = [] ∧ s.a.familyName = []) (by
    intro p _ s hv hs
    refine ⟨fun he => ?_, rfl⟩
    rcases apply_marked E ids p.1 p.2 s hv with h | h
    · rw [h] at he ⊢
      exact hs he
    · rw [h] at he
      cases he) s hs).1

/-- The custom fields are left alone. -/
theorem after_customs (E : LdifEnv) (ids : Nat → QString) (fresh : QString) (c : Contact) (s : LdifState) :
    (afterExport E ids fresh c s).a.customs = s.a.customs := by
  refine (after_simple E ids fresh c (fun s => s.a.customs) (fun _ _ x => x) (fun _ => false) ?_ (fun _ _ _ _ => rfl) rfl s).trans ?_
  · intro k' v s' hk' hv
    obtain ⟨e, he⟩ := apply_contact E ids k' v s' hk' hv
    simp only [he]
    rfl
  · have : ∀ l : List (LdifField × QString), l.filter (fun _ => false) = [] := fun l => by simp
    rw [this]
    rfl

/-- The revision is that of the entry, or that before it. -/
theorem after_revision_is (E : LdifEnv) (ids : Nat → QString) (fresh : QString) (c : Contact) (s : LdifState) :
    (afterExport E ids fresh c s).a.revision = if (revisionText c.revision).isEmpty then s.a.revision else storeRevision E .revision (revisionText c.revision) s.a.revision := by
  have := after_simple E ids fresh c (fun s => s.a.revision) (storeRevision E) (fun k => k = .revision) (by
    intro k' v s' hk' hv
    obtain ⟨e, he⟩ := apply_contact E ids k' v s' hk' hv
    simp only [he]
    rfl) (fun k v x hk => if_neg (of_decide_eq_false hk)) rfl s
  have e1 : ((fields1 c ++ fields2 E fresh c).filter fun p => p.1 = .revision) = [(.revision, revisionText c.revision)] := rfl
  rw [this, e1, runField_cons, runField_nil]

theorem result_marked (s : LdifState) (a : Contact) (h : ldifResult s = ([a], [])) :
    a.revision = s.a.revision ∧ a.customs = s.a.customs ∧ (s.a.empty = false → a.empty = false) := by
  have hin : ∀ (c : Contact) (x : Address), (c.insertAddress x).revision = c.revision ∧ (c.insertAddress x).customs = c.customs ∧
      (c.empty = false → (c.insertAddress x).empty = false) := by
    intro c x
    unfold Contact.insertAddress
    split
    · exact ⟨rfl, rfl, id⟩
    · split <;> exact ⟨rfl, rfl, fun _ => rfl⟩
  have hite : ∀ (c : Contact) (x : Address), let r := if !x.empty then c.insertAddress x else c
      r.revision = c.revision ∧ r.customs = c.customs ∧ (c.empty = false → r.empty = false) := by
    intro c x
    dsimp only
    split
    · exact hin c x
    · exact ⟨rfl, rfl, id⟩
  have hbi : let r := if validDate s.birthyear s.birthmonth s.birthday then
      s.a.setBirthdayDate (some (s.birthyear, s.birthmonth.toNat, s.birthday.toNat)) else s.a
      r.revision = s.a.revision ∧ r.customs = s.a.customs ∧ (s.a.empty = false → r.empty = false) := by
    dsimp only
    split
    · unfold Contact.setBirthdayDate
      split
      · exact ⟨rfl, rfl, id⟩
      · exact ⟨rfl, rfl, fun _ => rfl⟩
    · exact ⟨rfl, rfl, id⟩
  unfold ldifResult at h
  split at h
  · dsimp only at h hbi
    generalize (if validDate s.birthyear s.birthmonth s.birthday then
      s.a.setBirthdayDate (some (s.birthyear, s.birthmonth.toNat, s.birthday.toNat)) else s.a) = r at h hbi
    split at h
    · simp only [Prod.mk.injEq, List.cons.injEq, and_true] at h
      have h1 := hite r s.home
      have h2 := hite (if !s.home.empty then r.insertAddress s.home else r) s.work
      dsimp only at h1 h2
      rw [h] at h2
      exact ⟨h2.1.trans (h1.1.trans hbi.1), h2.2.1.trans (h1.2.1.trans hbi.2.1), fun e => h2.2.2 (h1.2.2 (hbi.2.2 e))⟩
    · simp at h
  · simp at h

end KC
