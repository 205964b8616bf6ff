import Verif.Model.Contact
/-
  C32: lookup by type picks a matching entry.
-/
namespace KC

/-- The entry's flags fit the request: they include all requested flags; a request for no flag asks for an entry with no flag
    (documented in addressee.cpp:2648-2653). -/
def Fits (requested flags : Nat) : Prop :=
  if requested = 0 then flags = 0 else ∀ i, requested.testBit i = true → flags.testBit i = true

theorem matchBinaryPattern_iff (value pattern : Nat) : matchBinaryPattern value pattern = true ↔ Fits pattern value := by
  unfold matchBinaryPattern Fits
  split
  · simp
  · rw [decide_eq_true_eq]
    constructor
    · intro h i hi
      rw [h] at hi; simp at hi; exact hi.2
    · intro h
      apply Nat.eq_of_testBit_eq
      intro i
      rw [Nat.testBit_and]
      cases hp : pattern.testBit i with
      | false => simp
      | true => simp [h i hp]

theorem and_pow_ne_zero (n i : Nat) : n &&& 2 ^ i ≠ 0 ↔ n.testBit i = true := by
  constructor
  · intro h
    obtain ⟨j, hj⟩ := Nat.exists_testBit_of_ne_zero h
    rw [Nat.testBit_and, Nat.testBit_two_pow] at hj
    simp only [Bool.and_eq_true, decide_eq_true_eq] at hj
    rw [hj.2]; exact hj.1
  · intro h h0
    have := congrArg (fun m => Nat.testBit m i) h0
    simp [h] at this

/-- The common shape of the two lookup loops. -/
def pick {α : Type} (fits pref isEmpty : α → Bool) (current : α) : List α → α
  | [] => current
  | p :: t =>
    if fits p then
      if pref p then p
      else if isEmpty current then pick fits pref isEmpty p t
      else pick fits pref isEmpty current t
    else pick fits pref isEmpty current t

theorem phoneLoop_eq (type : Nat) (cur : PhoneNumber) (l : List PhoneNumber) :
    phoneLoop type cur l = pick (fun p => matchBinaryPattern p.type type) (fun p => p.type &&& phonePref ≠ 0)
      (fun p => p.number.isEmpty) cur l := by
  induction l generalizing cur with
  | nil => rfl
  | cons p t ih => simp only [phoneLoop, pick, ih, decide_eq_true_eq]

theorem addressLoop_eq (type : Nat) (cur : Address) (l : List Address) :
    addressLoop type cur l = pick (fun p => matchBinaryPattern p.type type) (fun p => p.type &&& addressPref ≠ 0)
      (fun p => p.empty) cur l := by
  induction l generalizing cur with
  | nil => rfl
  | cons p t ih => simp only [addressLoop, pick, ih, decide_eq_true_eq]

/-- What the loop picks: the first fitting preferred entry; else the start value if it is not empty; else the first fitting entry
    that is not empty; else the last fitting entry; else the start value. -/
theorem pick_eq {α : Type} (fits pref isEmpty : α → Bool) (l : List α) (cur : α) :
    pick fits pref isEmpty cur l =
      ((l.filter fits).find? pref).getD
        (((cur :: l.filter fits).find? fun x => !isEmpty x).getD ((l.filter fits).getLast?.getD cur)) := by
  induction l generalizing cur with
  | nil => cases h : isEmpty cur <;> simp [pick, h]
  | cons p t ih =>
    simp only [pick]
    by_cases hf : fits p = true
    · rw [if_pos hf, List.filter_cons_of_pos hf]
      by_cases hp : pref p = true
      · rw [if_pos hp]; simp [hp]
      · rw [if_neg hp]
        simp only [List.find?_cons, hp]
        by_cases he : isEmpty cur = true
        · rw [if_pos he, ih]
          simp only [he, Bool.not_true, List.find?_cons]
          cases h2 : !isEmpty p with
          | true => rfl
          | false => simp [List.getLast?_cons]
        · rw [if_neg he, ih]
          simp only [List.find?_cons, he]; rfl
    · rw [if_neg hf, List.filter_cons_of_neg hf, ih]

/-- What a user relies on, for entries with flags `flags`: `r` is the answer to a request for `requested` among `entries`. -/
def GoodAnswer {α : Type} (flags : α → Nat) (prefBit requested : Nat) (entries : List α) (fallback r : α) : Prop :=
  -- if some entry fits, the answer is one of the entries and fits
  ((∃ p ∈ entries, Fits requested (flags p)) → r ∈ entries ∧ Fits requested (flags r)) ∧
  -- if some fitting entry is preferred, the answer is the first such entry
  (∀ p, (entries.filter fun p => matchBinaryPattern (flags p) requested).find? (fun p => (flags p).testBit prefBit) = some p → r = p) ∧
  -- only if no entry fits the answer is the empty object
  ((∀ p ∈ entries, ¬ Fits requested (flags p)) → r = fallback)

theorem pick_good {α : Type} (flags : α → Nat) (prefBit requested : Nat) (isEmpty : α → Bool) (l : List α) (cur : α)
    (he : isEmpty cur = true) :
    GoodAnswer flags prefBit requested l cur
      (pick (fun p => matchBinaryPattern (flags p) requested) (fun p => flags p &&& 2 ^ prefBit ≠ 0) isEmpty cur l) := by
  rw [pick_eq]
  have hpref : (fun p => decide (flags p &&& 2 ^ prefBit ≠ 0)) = fun p => (flags p).testBit prefBit := by
    funext p
    rw [Bool.eq_iff_iff, decide_eq_true_eq, and_pow_ne_zero]
  rw [hpref]
  have hmem : ∀ p, p ∈ l.filter (fun p => matchBinaryPattern (flags p) requested) ↔ p ∈ l ∧ Fits requested (flags p) := by
    intro p; rw [List.mem_filter, matchBinaryPattern_iff]
  refine ⟨?_, ?_, ?_⟩
  · rintro ⟨p, hp, hfit⟩
    have hpm := (hmem p).2 ⟨hp, hfit⟩
    rw [← hmem]
    revert hpm
    generalize l.filter (fun p => matchBinaryPattern (flags p) requested) = L
    intro hpm
    cases h1 : L.find? (fun p => (flags p).testBit prefBit) with
    | some x => exact List.mem_of_find?_eq_some h1
    | none =>
      simp only [Option.getD_none, List.find?_cons, he, Bool.not_true]
      cases h2 : L.find? (fun x => !isEmpty x) with
      | some x => exact List.mem_of_find?_eq_some h2
      | none =>
        simp only [Option.getD_none]
        rw [List.getLast?_eq_some_getLast (List.ne_nil_of_mem hpm)]
        exact List.getLast_mem _
  · intro p hp; rw [hp]; rfl
  · intro hno
    have : l.filter (fun p => matchBinaryPattern (flags p) requested) = [] := by
      rw [List.filter_eq_nil_iff]
      intro p hp; rw [matchBinaryPattern_iff]; exact hno p hp
    rw [this]; simp [he]

/-- Phone numbers: the preference flag is bit 3. -/
theorem C32_phone (c : Contact) (fresh : QString) (type : Nat) :
    GoodAnswer PhoneNumber.type 3 type c.phoneNumbers { id := fresh, number := [], type := type } (c.phoneNumber fresh type) := by
  have := pick_good PhoneNumber.type 3 type (fun p => p.number.isEmpty) c.phoneNumbers
    { id := fresh, number := [], type := type } rfl
  unfold Contact.phoneNumber
  rw [phoneLoop_eq]
  exact this

/-- Addresses: the preference flag is bit 6. -/
theorem C32_address (c : Contact) (fresh : QString) (type : Nat) :
    GoodAnswer Address.type 6 type c.addresses { id := fresh, type := type } (c.address fresh type) := by
  have := pick_good Address.type 6 type (fun p => p.empty) c.addresses { id := fresh, type := type } rfl
  unfold Contact.address
  rw [addressLoop_eq]
  exact this

/-- Without a preferred entry, the first fitting entry is returned among entries that are not empty. -/
theorem C32_phone_first (c : Contact) (fresh : QString) (type : Nat)
    (hvis : ∀ p ∈ c.phoneNumbers, p.number ≠ [])
    (hnp : ∀ p ∈ c.phoneNumbers, Fits type p.type → p.type.testBit 3 = false) (p : PhoneNumber)
    (hp : (c.phoneNumbersOf type).head? = some p) : c.phoneNumber fresh type = p := by
  unfold Contact.phoneNumber
  rw [phoneLoop_eq, pick_eq]
  simp only [Contact.phoneNumbersOf] at hp
  have hmem : ∀ x ∈ c.phoneNumbers.filter (fun p => matchBinaryPattern p.type type), x ∈ c.phoneNumbers ∧ Fits type x.type := by
    intro x hx; rw [List.mem_filter, matchBinaryPattern_iff] at hx; exact hx
  revert hp hmem
  generalize c.phoneNumbers.filter (fun p => matchBinaryPattern p.type type) = L
  intro hp hmem
  cases L with
  | nil => simp at hp
  | cons x t =>
    simp only [List.head?_cons, Option.some.injEq] at hp
    subst hp
    have h1 : (x :: t).find? (fun p => decide (p.type &&& phonePref ≠ 0)) = none := by
      rw [List.find?_eq_none]
      intro y hy
      have h := hmem y hy
      have h3 := hnp y h.1 h.2
      have := and_pow_ne_zero y.type 3
      intro h4
      rw [this.1 (of_decide_eq_true h4)] at h3; cases h3
    have h2 : x.number.isEmpty = false := by
      have := hvis x (hmem x (by simp)).1
      cases hx : x.number with
      | nil => exact absurd hx this
      | cons _ _ => rfl
    rw [h1]
    simp [List.find?_cons, PhoneNumber.mk', cleanupNumber, simplified, words, join, h2]

/-- The typed listings hold exactly the fitting entries, in order. -/
theorem C32_listings (c : Contact) (type : Nat) :
    ((c.phoneNumbersOf type).Sublist c.phoneNumbers ∧ ∀ p, p ∈ c.phoneNumbersOf type ↔ p ∈ c.phoneNumbers ∧ Fits type p.type) ∧
    ((c.addressesOf type).Sublist c.addresses ∧ ∀ a, a ∈ c.addressesOf type ↔ a ∈ c.addresses ∧ Fits type a.type) := by
  refine ⟨⟨List.filter_sublist, ?_⟩, ⟨List.filter_sublist, ?_⟩⟩
  · intro p; rw [Contact.phoneNumbersOf, List.mem_filter, matchBinaryPattern_iff]
  · intro p; rw [Contact.addressesOf, List.mem_filter, matchBinaryPattern_iff]

namespace Spec

/-- A key is asked for by its type and, for custom keys, by the name of the custom type; no name asks for any custom key. -/
def KeyFits (type : KeyType) (name : QString) (k : Key) : Prop :=
  k.type = type ∧ (type = .custom → name ≠ [] → k.customTypeString = name)

end Spec

theorem keyMatches_iff (type : KeyType) (name : QString) (k : Key) : keyMatches type name k = true ↔ Spec.KeyFits type name k := by
  unfold keyMatches Spec.KeyFits
  by_cases h1 : k.type = type <;> by_cases h2 : type = .custom <;> cases name <;> simp [h1, h2]

/-- Keys: the listing of a type holds exactly the fitting keys, in order; the lookup returns the first fitting key, or an empty
    text key of the type if there is none. -/
theorem C32_keys (c : Contact) (fresh : QString) (type : KeyType) (name : QString) :
    ((c.keysOf type name).Sublist c.keys ∧ ∀ k, k ∈ c.keysOf type name ↔ k ∈ c.keys ∧ Spec.KeyFits type name k) ∧
    (∀ before k after, c.keys = before ++ k :: after → Spec.KeyFits type name k → (∀ x ∈ before, ¬ Spec.KeyFits type name x) →
      c.key fresh type name = k) ∧
    ((∀ k ∈ c.keys, ¬ Spec.KeyFits type name k) → c.key fresh type name = { id := fresh, type := type }) := by
  refine ⟨⟨List.filter_sublist, ?_⟩, ?_, ?_⟩
  · intro k; rw [Contact.keysOf, List.mem_filter, keyMatches_iff]
  · intro before k after h hk hb
    unfold Contact.key
    rw [h, List.find?_append]
    have h1 : before.find? (keyMatches type name) = none := by
      rw [List.find?_eq_none]; intro x hx; rw [keyMatches_iff]; exact hb x hx
    rw [h1, Option.none_or, List.find?_cons_of_pos ((keyMatches_iff _ _ _).2 hk)]; rfl
  · intro h
    unfold Contact.key
    have h1 : c.keys.find? (keyMatches type name) = none := by
      rw [List.find?_eq_none]; intro x hx; rw [keyMatches_iff]; exact h x hx
    rw [h1]; rfl

/-- Non-vacuity for keys. -/
example :
    let c : Contact := { Contact.new [] with keys := [{ id := q! "1" }, { id := q! "2", type := .custom, customTypeString := q! "A" },
      { id := q! "3", type := .custom, customTypeString := q! "B" }] }
    (c.key [] .custom (q! "B")).id = q! "3" ∧ (c.keysOf .custom []).map (·.id) = [q! "2", q! "3"] := by decide

/-- Non-vacuity: a request for Home (1) among a work, a home fax and a preferred home number. -/
example :
    let p (n : QString) (t : Nat) : PhoneNumber := { id := n, number := n, type := t }
    let c : Contact := { Contact.new [] with phoneNumbers := [p (q! "1") 2, p (q! "2") 33, p (q! "3") 9] }
    c.phoneNumber [] 1 = p (q! "3") 9 ∧ c.phoneNumber [] 32 = p (q! "2") 33 ∧ c.phoneNumber [] 64 = { id := [], type := 64 } := by
  decide

end KC
