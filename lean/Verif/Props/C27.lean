import Verif.Lemmas.KeyedMap
/-
  C27, C28, C29: phone numbers, addresses and keys of a contact behave like maps keyed by id.
-/
namespace KC
open Spec

/-! ### C27 phone numbers -/

def phoneStep (c : Contact) : MapOp PhoneNumber → Contact
  | .insert p => c.insertPhoneNumber p
  | .remove p => c.removePhoneNumber p

/-- A new contact after a history of inserting and removing phone numbers. -/
def phoneHistory (u : QString) (ops : List (MapOp PhoneNumber)) : Contact := ops.foldl phoneStep (Contact.new u)

/-- A number is stored if its id is already there (it is replaced), or if it has a visible character. -/
def phoneMap (ops : List (MapOp PhoneNumber)) : QString → Option PhoneNumber :=
  mapAfter PhoneNumber.id (fun p present => present || hasVisible p.number) ops

theorem phone_represents (u : QString) (ops : List (MapOp PhoneNumber)) :
    Represents PhoneNumber.id (phoneHistory u ops).phoneNumbers (phoneMap ops) := by
  refine represents_history PhoneNumber.id _ Contact.phoneNumbers phoneStep (Contact.new u) rfl ?_ ?_ ops
  · intro c p m h
    simp only [phoneStep, Contact.insertPhoneNumber]
    cases hf : findFirst PhoneNumber.id p.id c.phoneNumbers with
    | some y =>
      rw [← h.2 p.id, hf]
      exact represents_replace h p y hf
    | none =>
      rw [← h.2 p.id, hf]
      simp only [Option.isSome_none, Bool.false_or, simplified_isEmpty]
      cases hasVisible p.number with
      | true => exact represents_append h p hf
      | false => exact h
  · intro c p m h
    exact represents_erase h p.id

/-- Looking a number up by id gives what the map gives; a fresh default object if there is none. -/
theorem C27_lookup (u fresh id : QString) (ops : List (MapOp PhoneNumber)) :
    (phoneHistory u ops).findPhoneNumber fresh id = (phoneMap ops id).getD { id := fresh } := by
  rw [Contact.findPhoneNumber, (phone_represents u ops).2]

/-- The listing holds exactly the stored numbers, each id once. -/
theorem C27_listing (u : QString) (ops : List (MapOp PhoneNumber)) :
    ((phoneHistory u ops).phoneNumbers.map (·.id)).Nodup ∧
      ∀ p, p ∈ (phoneHistory u ops).phoneNumbers ↔ phoneMap ops p.id = some p :=
  ⟨(phone_represents u ops).1, represents_mem (phone_represents u ops)⟩

/-- Inserting or removing leaves all numbers with other ids untouched and in their order. -/
theorem C27_others_untouched (c : Contact) (p : PhoneNumber) :
    (c.insertPhoneNumber p).phoneNumbers.filter (fun x => x.id ≠ p.id) = c.phoneNumbers.filter (fun x => x.id ≠ p.id) ∧
      (c.removePhoneNumber p).phoneNumbers.filter (fun x => x.id ≠ p.id) = c.phoneNumbers.filter (fun x => x.id ≠ p.id) := by
  refine ⟨?_, filter_eraseFirst⟩
  simp only [Contact.insertPhoneNumber]
  cases findFirst PhoneNumber.id p.id c.phoneNumbers with
  | some y => exact filter_replaceFirst rfl
  | none => simp only; split <;> simp

example :
    let p (i n : QString) : PhoneNumber := { id := i, number := n }
    let ops : List (MapOp PhoneNumber) := [.insert (p (q! "1") (q! "5")), .insert (p (q! "2") (q! " ")), .insert (p (q! "3") (q! "7")),
      .insert (p (q! "1") (q! "")), .remove (p (q! "3") [])]
    ((phoneHistory [] ops).phoneNumbers, phoneMap ops (q! "1")) = ([p (q! "1") []], some (p (q! "1") [])) := by decide

/-! ### C28 addresses -/

def addressStep (c : Contact) : MapOp Address → Contact
  | .insert a => c.insertAddress a
  | .remove a => c.removeAddress a

/-- A new contact after a history of inserting and removing addresses. -/
def addressHistory (u : QString) (ops : List (MapOp Address)) : Contact := ops.foldl addressStep (Contact.new u)

/-- An address is stored unless it is empty (nothing was ever set in it). -/
def addressMap (ops : List (MapOp Address)) : QString → Option Address :=
  mapAfter Address.id (fun a _ => !a.empty) ops

theorem address_represents (u : QString) (ops : List (MapOp Address)) :
    Represents Address.id (addressHistory u ops).addresses (addressMap ops) := by
  refine represents_history Address.id _ Contact.addresses addressStep (Contact.new u) rfl ?_ ?_ ops
  · intro c a m h
    simp only [addressStep, Contact.insertAddress]
    cases he : a.empty with
    | true => simpa using h
    | false =>
      simp only [Bool.false_eq_true, if_false, Bool.not_false, if_true]
      cases hf : findFirst Address.id a.id c.addresses with
      | some y => exact represents_replace h a y hf
      | none => exact represents_append h a hf
  · intro c a m h
    exact represents_erase h a.id

/-- Looking an address up by id gives what the map gives; a fresh empty address if there is none. -/
theorem C28_lookup (u fresh id : QString) (ops : List (MapOp Address)) :
    (addressHistory u ops).findAddress fresh id = (addressMap ops id).getD { id := fresh } := by
  rw [Contact.findAddress, (address_represents u ops).2]

/-- The listing holds exactly the stored addresses, each id once. -/
theorem C28_listing (u : QString) (ops : List (MapOp Address)) :
    ((addressHistory u ops).addresses.map (·.id)).Nodup ∧
      ∀ a, a ∈ (addressHistory u ops).addresses ↔ addressMap ops a.id = some a :=
  ⟨(address_represents u ops).1, represents_mem (address_represents u ops)⟩

/-- Inserting or removing leaves all addresses with other ids untouched and in their order. -/
theorem C28_others_untouched (c : Contact) (a : Address) :
    (c.insertAddress a).addresses.filter (fun x => x.id ≠ a.id) = c.addresses.filter (fun x => x.id ≠ a.id) ∧
      (c.removeAddress a).addresses.filter (fun x => x.id ≠ a.id) = c.addresses.filter (fun x => x.id ≠ a.id) := by
  refine ⟨?_, filter_eraseFirst⟩
  simp only [Contact.insertAddress]
  split
  · rfl
  · cases findFirst Address.id a.id c.addresses with
    | some y => exact filter_replaceFirst rfl
    | none => simp

/-- An address is empty exactly as long as no setter was called on it. -/
theorem C28_empty_iff_untouched (i : QString) (t : Nat) (sets : List AddressField) :
    (sets.foldl Address.set { id := i, type := t }).empty = true ↔ sets = [] := by
  have key : ∀ (sets : List AddressField) (a : Address), a.empty = false → (sets.foldl Address.set a).empty = false := by
    intro sets
    induction sets with
    | nil => intro a h; exact h
    | cons f t ih => intro a h; apply ih; cases f <;> rfl
  cases sets with
  | nil => simp
  | cons f t =>
    rw [List.foldl_cons, key]
    · simp
    · cases f <;> rfl

example :
    let a (i s : QString) : Address := { empty := false, id := i, street := s }
    let ops : List (MapOp Address) := [.insert (a (q! "1") (q! "x")), .insert { id := q! "2" }, .insert (a (q! "3") (q! "y")),
      .insert (a (q! "1") (q! "z")), .remove (a (q! "3") [])]
    (addressHistory [] ops).addresses = [a (q! "1") (q! "z")] ∧ addressMap ops (q! "1") = some (a (q! "1") (q! "z")) := by decide

/-! ### C29 keys -/

def keyStep (c : Contact) : MapOp Key → Contact
  | .insert k => c.insertKey k
  | .remove k => c.removeKey k

/-- A new contact after a history of inserting and removing keys. -/
def keyHistory (u : QString) (ops : List (MapOp Key)) : Contact := ops.foldl keyStep (Contact.new u)

def keyMap (ops : List (MapOp Key)) : QString → Option Key := mapAfter Key.id (fun _ _ => true) ops

theorem key_represents (u : QString) (ops : List (MapOp Key)) : Represents Key.id (keyHistory u ops).keys (keyMap ops) := by
  refine represents_history Key.id _ Contact.keys keyStep (Contact.new u) rfl ?_ ?_ ops
  · intro c k m h
    simp only [keyStep, Contact.insertKey, if_true]
    cases hf : findFirst Key.id k.id c.keys with
    | some y => exact represents_replace h k y hf
    | none => exact represents_append h k hf
  · intro c k m h
    exact represents_filter h k.id

/-- Looking a key up by id gives what the map gives; a fresh default key if there is none. -/
theorem C29_lookup (u fresh id : QString) (ops : List (MapOp Key)) :
    (keyHistory u ops).findKey fresh id = (keyMap ops id).getD { id := fresh } := by
  rw [Contact.findKey, (key_represents u ops).2]

/-- The listing holds exactly the stored keys, each id once. -/
theorem C29_listing (u : QString) (ops : List (MapOp Key)) :
    ((keyHistory u ops).keys.map (·.id)).Nodup ∧ ∀ k, k ∈ (keyHistory u ops).keys ↔ keyMap ops k.id = some k :=
  ⟨(key_represents u ops).1, represents_mem (key_represents u ops)⟩

/-- Inserting or removing leaves all keys with other ids untouched and in their order. -/
theorem C29_others_untouched (c : Contact) (k : Key) :
    (c.insertKey k).keys.filter (fun x => x.id ≠ k.id) = c.keys.filter (fun x => x.id ≠ k.id) ∧
      (c.removeKey k).keys.filter (fun x => x.id ≠ k.id) = c.keys.filter (fun x => x.id ≠ k.id) := by
  constructor
  · simp only [Contact.insertKey]
    cases findFirst Key.id k.id c.keys with
    | some y => exact filter_replaceFirst rfl
    | none => simp
  · simp [Contact.removeKey]

/-- Removing removes every key with the id, also from lists set with duplicates. -/
theorem C29_removed (c : Contact) (k : Key) : ∀ x ∈ (c.removeKey k).keys, x.id ≠ k.id := by
  intro x hx; simpa using (List.mem_filter.1 hx).2

example :
    let k (i s : QString) : Key := { id := i, textData := s }
    let ops : List (MapOp Key) := [.insert (k (q! "1") (q! "x")), .insert (k (q! "3") (q! "y")), .insert (k (q! "1") (q! "z")),
      .remove (k (q! "3") [])]
    (keyHistory [] ops).keys = [k (q! "1") (q! "z")] ∧ keyMap ops (q! "3") = none := by decide

end KC
