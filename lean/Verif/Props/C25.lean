import Verif.Lemmas.Keyed
/-
  C25: after any sequence of adding and removing email addresses to a new contact no address occurs twice, an added preferred
  address is the one reported as preferred, and the other addresses keep their relative order.
  C26: removing an email address removes it and keeps the others (false for lists set with duplicates).
-/
namespace KC

/-- What a user can do to the email list of a contact one address at a time. -/
inductive EmailOp where
  | add (e : Email)
  | remove (mail : QString)

def EmailOp.apply (c : Contact) : EmailOp → Contact
  | .add e => c.addEmail e
  | .remove m => c.removeEmail m

/-- The address an operation is about. -/
def EmailOp.mail : EmailOp → QString
  | .add e => e.mail
  | .remove m => m

/-- A new contact after a history of operations. -/
def emailHistory (u : QString) (ops : List EmailOp) : Contact := ops.foldl EmailOp.apply (Contact.new u)

theorem emailStep_nodup (c : Contact) (op : EmailOp) (h : (c.emails.map Email.mail).Nodup) :
    ((op.apply c).emails.map Email.mail).Nodup := by
  cases op with
  | remove m =>
    simp only [EmailOp.apply, Contact.removeEmail]
    rw [removeSkipping_eq_filter h]; exact nodup_filter_map h
  | add e =>
    simp only [EmailOp.apply, Contact.addEmail]
    cases hf : findFirst Email.mail e.mail c.emails with
    | some x =>
      simp only
      split
      · rw [rotate_replace rfl (findFirst_some hf) h]
        apply nodup_of_cons_filter (nodup_filter_map h)
        simp
      · rw [map_replaceFirst rfl]; exact h
    | none =>
      have hf' := findFirst_none.1 hf
      simp only
      split
      · exact nodup_of_cons_filter h hf'
      · exact nodup_append_single h hf'

/-- No address occurs twice. -/
theorem C25_no_duplicates (u : QString) (ops : List EmailOp) : (emailHistory u ops).emailAddresses.Nodup := by
  have key : ∀ (ops : List EmailOp) (c : Contact), (c.emails.map Email.mail).Nodup →
      ((ops.foldl EmailOp.apply c).emails.map Email.mail).Nodup := by
    intro ops
    induction ops with
    | nil => intro c h; exact h
    | cons op t ih => intro c h; exact ih _ (emailStep_nodup c op h)
  exact key ops (Contact.new u) (by simp [Contact.new])

/-- An added preferred address is the one reported as preferred email, whatever happened before. -/
theorem C25_preferred_first (u : QString) (ops : List EmailOp) (e : Email) (hp : e.isPreferred = true) :
    (emailHistory u (ops ++ [.add e])).preferredEmail = e.mail := by
  have hn := C25_no_duplicates u ops
  simp only [emailHistory, List.foldl_append, List.foldl_cons, List.foldl_nil, EmailOp.apply, Contact.addEmail]
  change ((emailHistory u ops).emails.map Email.mail).Nodup at hn
  change Contact.preferredEmail (match findFirst Email.mail e.mail (emailHistory u ops).emails with
    | some _ => _ | none => _) = _
  cases hf : findFirst Email.mail e.mail (emailHistory u ops).emails with
  | some x =>
    simp only [hp, if_true, Contact.preferredEmail]
    rw [show (ops.foldl EmailOp.apply (Contact.new u)).emails = (emailHistory u ops).emails from rfl,
      rotate_replace rfl (findFirst_some hf) hn]
  | none => simp [hp, Contact.preferredEmail]

/-- An added address is stored as given: it is the only entry for that address. -/
theorem C25_added_is_stored (u : QString) (ops : List EmailOp) (e : Email) :
    (emailHistory u (ops ++ [.add e])).emails.filter (fun x => x.mail = e.mail) = [e] := by
  have hn : ((emailHistory u (ops ++ [.add e])).emails.map Email.mail).Nodup := C25_no_duplicates u _
  have hm : e ∈ (emailHistory u (ops ++ [.add e])).emails := by
    have hn0 : ((emailHistory u ops).emails.map Email.mail).Nodup := C25_no_duplicates u ops
    simp only [emailHistory, List.foldl_append, List.foldl_cons, List.foldl_nil, EmailOp.apply, Contact.addEmail]
    change e ∈ (match findFirst Email.mail e.mail (emailHistory u ops).emails with | some _ => _ | none => _ : Contact).emails
    cases hf : findFirst Email.mail e.mail (emailHistory u ops).emails with
    | some x =>
      simp only
      rw [show (ops.foldl EmailOp.apply (Contact.new u)).emails = (emailHistory u ops).emails from rfl]
      split
      · rw [rotate_replace rfl (findFirst_some hf) hn0]; simp
      · exact mem_replaceFirst (findFirst_some hf)
    | none => simp only; split <;> simp
  revert hn hm
  generalize (emailHistory u (ops ++ [.add e])).emails = l
  intro hn hm
  induction l with
  | nil => simp at hm
  | cons y t ih =>
    simp only [List.map_cons, List.nodup_cons] at hn
    simp only [List.filter_cons]
    rcases List.mem_cons.1 hm with rfl | ht
    · simp only [decide_true, if_true, List.cons.injEq, true_and, List.filter_eq_nil_iff, decide_eq_true_eq]
      intro a ha e'; exact hn.1 (by rw [← e']; exact List.mem_map_of_mem ha)
    · have : y.mail ≠ e.mail := fun e' => hn.1 (by rw [e']; exact List.mem_map_of_mem ht)
      simp [this, ih hn.2 ht]

/-- Whatever list a contact has, adding or removing one address keeps all other entries, with their data and in their order. -/
theorem C25_others_keep_order (c : Contact) (op : EmailOp) (hn : c.emailAddresses.Nodup) :
    (op.apply c).emails.filter (fun x => x.mail ≠ op.mail) = c.emails.filter (fun x => x.mail ≠ op.mail) := by
  cases op with
  | remove m => exact removeSkipping_filter _
  | add e =>
    simp only [EmailOp.apply, EmailOp.mail, Contact.addEmail]
    cases hf : findFirst Email.mail e.mail c.emails with
    | some x =>
      simp only
      split
      · rw [rotate_replace rfl (findFirst_some hf) hn]
        simp only [List.filter_cons, ne_eq, not_true, decide_false]
        simp only [Bool.false_eq_true, if_false, List.filter_filter]
        apply List.filter_congr; intro a _; by_cases h : a.mail = e.mail <;> simp [h]
      · exact filter_replaceFirst rfl
    | none => simp only; split <;> simp [List.filter_cons]

/-- Non-vacuity: three addresses, one preferred, one removed. -/
example :
    let e (s : QString) : Email := { mail := s }
    let p (s : QString) : Email := { mail := s, params := [(q! "pref", [q! "1"])] }
    (emailHistory [] [.add (e (q! "a")), .add (e (q! "b")), .add (p (q! "c")), .add (p (q! "b")), .remove (q! "a")]).emailAddresses
      = [q! "b", q! "c"] := by decide

/-! ### C26 -/

/-- Removing an address keeps every other entry, with its data and in order, for every list. -/
theorem C26_others_kept (c : Contact) (m : QString) :
    (c.removeEmail m).emails.filter (fun x => x.mail ≠ m) = c.emails.filter (fun x => x.mail ≠ m) :=
  removeSkipping_filter _

/-- Exactly when the address survives its removal: when it stands twice in a row in the list. -/
theorem C26_survives_iff (c : Contact) (m : QString) :
    m ∈ (c.removeEmail m).emailAddresses ↔
      ∃ pre a b post, c.emails = pre ++ a :: b :: post ∧ a.mail = m ∧ b.mail = m :=
  mem_removeSkipping _

/-- Partial: an address is gone after its removal if the list does not hold it twice. (The full claim is false: below.) -/
theorem C26_removed_partial (c : Contact) (m : QString) (h : c.emailAddresses.Nodup) :
    m ∉ (c.removeEmail m).emailAddresses ∧ (c.removeEmail m).emails = c.emails.filter (fun x => x.mail ≠ m) := by
  have := removeSkipping_eq_filter (key := Email.mail) (k := m) h
  constructor
  · simp only [Contact.emailAddresses, Contact.removeEmail, this]
    simp
  · exact this

example : (Contact.setEmails (Contact.new []) [q! "a", q! "b"]).emailAddresses.Nodup := by decide

/-- The claim as listed is false: `setEmails({"a","a"})` followed by `removeEmail("a")` leaves one "a". -/
theorem C26_false : ¬ ∀ (c : Contact) (m : QString), m ∉ (c.removeEmail m).emailAddresses := by
  intro h
  exact h ((Contact.new []).setEmails [q! "a", q! "a"]) (q! "a") (by decide)

end KC
