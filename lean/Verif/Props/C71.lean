import Verif.Props.C70
import Verif.Model.VCardTool
import Verif.Lemmas.Keyed
import Verif.Spec.Sample
/-
  C71. The ids made while a vCard is read
-/
namespace KC
namespace Spec

/-- a contact without its ids (and without the mark whether it is empty) -/
def apartFromIds (c : Contact) : Contact :=
  { c with uid := [], empty := true, addresses := c.addresses.map ({ · with id := [] }), phoneNumbers := c.phoneNumbers.map ({ · with id := [] }), keys := c.keys.map ({ · with id := [] }) }

end Spec
open Spec

section
variable {α : Type}

/-- Two lists of objects that differ in their ids only: the ids have increasing numbers from `lo` on and below `n` in two supplies of ids. -/
structure SameButIds (key : α → QString) (strip : α → α) (ids ids' : Nat → QString) (lo n : Nat) (l l' : List α) : Prop where
  le : lo ≤ n
  numbers : ∃ X : List Nat, X.Pairwise (· < ·) ∧ (∀ x ∈ X, lo ≤ x ∧ x < n) ∧ l.map key = X.map ids ∧ l'.map key = X.map ids'
  data : l.map strip = l'.map strip

variable {key : α → QString} {strip : α → α} {ids ids' : Nat → QString} {lo n : Nat} {l l' : List α}

theorem SameButIds.more (h : SameButIds key strip ids ids' lo n l l') : SameButIds key strip ids ids' lo (n + 1) l l' := by
  obtain ⟨X, h1, h2, h3, h4⟩ := h.numbers
  exact ⟨Nat.le_succ_of_le h.le, ⟨X, h1, fun x hx => ⟨(h2 x hx).1, Nat.lt_succ_of_lt (h2 x hx).2⟩, h3, h4⟩, h.data⟩

theorem SameButIds.append (h : SameButIds key strip ids ids' lo n l l') {x x' : α} (hx : key x = ids n) (hx' : key x' = ids' n) (hs : strip x = strip x') :
    SameButIds key strip ids ids' lo (n + 1) (l ++ [x]) (l' ++ [x']) := by
  obtain ⟨X, h1, h2, h3, h4⟩ := h.numbers
  refine ⟨Nat.le_succ_of_le h.le, ⟨X ++ [n], ?_, ?_, ?_, ?_⟩, ?_⟩
  · rw [List.pairwise_append]
    refine ⟨h1, by simp, ?_⟩
    intro a ha b hb
    rw [List.mem_singleton] at hb
    subst hb
    exact (h2 a ha).2
  · intro a ha
    rcases List.mem_append.1 ha with ha | ha
    · exact ⟨(h2 a ha).1, Nat.lt_succ_of_lt (h2 a ha).2⟩
    · rw [List.mem_singleton] at ha
      subst ha
      exact ⟨h.le, Nat.lt_succ_self _⟩
  · simp [h3, hx]
  · simp [h4, hx']
  · simp [h.data, hs]

theorem SameButIds.fresh (h : SameButIds key strip ids ids' lo n l l') (hi : ∀ i j, ids i = ids j → i = j) (hi' : ∀ i j, ids' i = ids' j → i = j) :
    findFirst key (ids n) l = none ∧ findFirst key (ids' n) l' = none := by
  obtain ⟨X, h1, h2, h3, h4⟩ := h.numbers
  rw [findFirst_none, findFirst_none, h3, h4]
  constructor
  · intro hm
    obtain ⟨x, hx, e⟩ := List.mem_map.1 hm
    have := (h2 x hx).2
    rw [hi _ _ e] at this
    omega
  · intro hm
    obtain ⟨x, hx, e⟩ := List.mem_map.1 hm
    have := (h2 x hx).2
    rw [hi' _ _ e] at this
    omega

theorem nodup_numbers {X : List Nat} (h : X.Pairwise (· < ·)) (hi : ∀ i j, ids i = ids j → i = j) : (X.map ids).Nodup := by
  refine List.Pairwise.map ids ?_ h
  intro a b hab e
  rw [hi _ _ e] at hab
  omega

theorem replaceFirst_split {pre post : List α} {a x : α} (h : key a ∉ pre.map key) :
    replaceFirst key (key a) x (pre ++ a :: post) = pre ++ x :: post := by
  induction pre with
  | nil => simp [replaceFirst]
  | cons y pre ih =>
    simp only [List.map_cons, List.mem_cons, not_or] at h
    simp only [List.cons_append, replaceFirst, if_neg (Ne.symm h.1), ih h.2]

/-- Replacing the first object that satisfies a condition, in both lists. -/
theorem SameButIds.replace (h : SameButIds key strip ids ids' lo n l l') (hi : ∀ i j, ids i = ids j → i = j) (hi' : ∀ i j, ids' i = ids' j → i = j)
    (p : α → Bool) (hp : ∀ a b, strip a = strip b → p a = p b) (g : α → α) (hg : ∀ a, key (g a) = key a) (hgs : ∀ a b, strip a = strip b → strip (g a) = strip (g b)) :
    (l.find? p = none ∧ l'.find? p = none) ∨
      ∃ a a', l.find? p = some a ∧ l'.find? p = some a' ∧ a ∈ l ∧ a' ∈ l' ∧ strip a = strip a' ∧
        SameButIds key strip ids ids' lo n (replaceFirst key (key a) (g a) l) (replaceFirst key (key a') (g a') l') := by
  have hnone : ∀ m m' : List α, m.map strip = m'.map strip → (∀ x ∈ m, ¬ p x = true) → ∀ x ∈ m', ¬ p x = true := by
    intro m m' e hm x hx
    have : strip x ∈ m.map strip := by rw [e]; exact List.mem_map_of_mem hx
    obtain ⟨y, hy, ey⟩ := List.mem_map.1 this
    rw [← hp y x ey]
    exact hm y hy
  cases hf : l.find? p with
  | none =>
    left
    refine ⟨rfl, ?_⟩
    rw [List.find?_eq_none] at hf ⊢
    exact hnone l l' h.data hf
  | some a =>
    right
    obtain ⟨hpa, pre, post, hl, hpre⟩ := List.find?_eq_some_iff_append.1 hf
    have hd := h.data
    rw [hl, List.map_append, List.map_cons] at hd
    obtain ⟨pre', rest, hl', hpre', hrest⟩ := List.map_eq_append_iff.1 hd.symm
    obtain ⟨a', post', hr, ha', hpost'⟩ := List.map_eq_cons_iff.1 hrest
    rw [hr] at hl'
    have hf' : l'.find? p = some a' := by
      rw [List.find?_eq_some_iff_append]
      refine ⟨by rw [hp a' a ha']; exact hpa, pre', post', hl', ?_⟩
      intro x hx
      have := hnone pre pre' hpre'.symm (fun y hy => by simpa using hpre y hy) x hx
      simpa using this
    obtain ⟨X, h1, h2, h3, h4⟩ := h.numbers
    have nd : (l.map key).Nodup := by rw [h3]; exact nodup_numbers h1 hi
    have nd' : (l'.map key).Nodup := by rw [h4]; exact nodup_numbers h1 hi'
    have hnm : key a ∉ pre.map key := by
      rw [hl, List.map_append, List.map_cons] at nd
      intro hm
      exact (List.nodup_append.1 nd).2.2 _ hm _ (by simp) rfl
    have hnm' : key a' ∉ pre'.map key := by
      rw [hl', List.map_append, List.map_cons] at nd'
      intro hm
      exact (List.nodup_append.1 nd').2.2 _ hm _ (by simp) rfl
    refine ⟨a, a', rfl, hf', by rw [hl]; simp, by rw [hl']; simp, ha'.symm, ?_⟩
    refine ⟨h.le, ⟨X, h1, h2, ?_, ?_⟩, ?_⟩
    · rw [map_replaceFirst (hg a)]; exact h3
    · rw [map_replaceFirst (hg a')]; exact h4
    · rw [hl, hl', replaceFirst_split hnm, replaceFirst_split hnm']
      simp only [List.map_append, List.map_cons, hpre', hpost', hgs a a' ha'.symm]

end

/-! ### two readings of a card -/

/-- the fields that carry ids -/
def idFields : List Field := [.uid, .addresses, .phoneNumbers, .keys]

/-- Two readings with different supplies of ids have come to the same point. -/
structure SameReading (ids ids' : IdKind → Nat → QString) (n a p k : Nat) (s s' : RState) : Prop where
  fields : ∀ f, f ∉ idFields → SameIn s.c s'.c f
  uid : s.c.uid = s'.c.uid ∨ s.c.uid = ids .contact n ∧ s'.c.uid = ids' .contact n
  addresses : SameButIds Address.id ({ · with id := [] }) (ids .address) (ids' .address) a s.addresses s.c.addresses s'.c.addresses
  phones : SameButIds PhoneNumber.id ({ · with id := [] }) (ids .phone) (ids' .phone) p s.phones s.c.phoneNumbers s'.c.phoneNumbers
  keys : SameButIds Key.id ({ · with id := [] }) (ids .key) (ids' .key) k s.keys s.c.keys s'.c.keys
  addressCount : s.addresses = s'.addresses
  phoneCount : s.phones = s'.phones
  keyCount : s.keys = s'.keys
  ub : s.ub = s'.ub

variable {ids ids' : IdKind → Nat → QString} {n a p k : Nat} {s s' : RState}

theorem SameReading.op (h : SameReading ids ids' n a p k s s') (E : QtEnv) (op : Op) (hop : fieldOf op ∉ idFields) :
    SameReading ids ids' n a p k { s with c := s.c.apply E op } { s' with c := s'.c.apply E op } := by
  have hne : ∀ f ∈ idFields, f ≠ fieldOf op := by
    intro f hf e
    exact hop (e ▸ hf)
  have hu : ∀ c : Contact, (c.apply E op).uid = c.uid := fun c => apply_other E c op (g := .uid) (hne _ (by simp [idFields]))
  have ha : ∀ c : Contact, (c.apply E op).addresses = c.addresses := fun c => apply_other E c op (g := .addresses) (hne _ (by simp [idFields]))
  have hp : ∀ c : Contact, (c.apply E op).phoneNumbers = c.phoneNumbers := fun c => apply_other E c op (g := .phoneNumbers) (hne _ (by simp [idFields]))
  have hk : ∀ c : Contact, (c.apply E op).keys = c.keys := fun c => apply_other E c op (g := .keys) (hne _ (by simp [idFields]))
  refine ⟨?_, ?_, ?_, ?_, ?_, h.addressCount, h.phoneCount, h.keyCount, h.ub⟩
  · intro f hf
    by_cases e : f = fieldOf op
    · subst e
      exact (apply_local E s.c s'.c op (h.fields _ hf)).1
    · exact sameIn_trans (apply_other E s.c op e) (sameIn_trans (h.fields f hf) (sameIn_symm (apply_other E s'.c op e)))
  · simp only [hu]; exact h.uid
  · simp only [ha]; exact h.addresses
  · simp only [hp]; exact h.phones
  · simp only [hk]; exact h.keys

theorem SameReading.ops (E : QtEnv) (ops : List Op) : ∀ {s s' : RState}, SameReading ids ids' n a p k s s' → (∀ op ∈ ops, fieldOf op ∉ idFields) →
    SameReading ids ids' n a p k { s with c := ops.foldl (Contact.apply E) s.c } { s' with c := ops.foldl (Contact.apply E) s'.c } := by
  induction ops with
  | nil => intro s s' h _; exact h
  | cons op ops ih =>
    intro s s' h hop
    exact ih (h.op E op (hop op (by simp))) fun o ho => hop o (by simp [ho])

/-- A change of a contact that does not look at ids. -/
structure IdFree (f : Contact → Contact) : Prop where
  same : ∀ {ids ids' : IdKind → Nat → QString} {n a p k : Nat} {s s' : RState},
    SameReading ids ids' n a p k s s' → SameReading ids ids' n a p k { s with c := f s.c } { s' with c := f s'.c }

theorem IdFree.id : IdFree fun c => c := ⟨fun h => h⟩

theorem IdFree.comp {g f : Contact → Contact} (hg : IdFree g) (hf : IdFree f) : IdFree fun c => g (f c) := ⟨fun h => hg.same (hf.same h)⟩

theorem IdFree.ite {q : Prop} [Decidable q] {f : Contact → Contact} (hf : IdFree f) : IdFree fun c => if q then f c else c := by
  refine ⟨fun h => ?_⟩
  split
  · exact hf.same h
  · exact h

theorem IdFree.ite' {q : Prop} [Decidable q] {f : Contact → Contact} (hf : IdFree f) : IdFree fun c => if q then c else f c := by
  refine ⟨fun h => ?_⟩
  split
  · exact h
  · exact hf.same h

theorem IdFree.op (E : QtEnv) (o : Op) (ho : fieldOf o ∉ idFields) : IdFree fun c => c.apply E o := ⟨fun h => h.op E o ho⟩

theorem IdFree.readN (E : QtEnv) (l : VCardLine) : IdFree (readN l) := by
  let parts := splitString (qc! ';') l.value.toString
  have h0 : IdFree fun c => if parts.length > 0 then c.setFamilyName (parts.getD 0 []) else c := .ite (.op E (.familyName _) (by simp [fieldOf, idFields]))
  have h1 : IdFree fun c => if parts.length > 1 then c.setGivenName (parts.getD 1 []) else c := .ite (.op E (.givenName _) (by simp [fieldOf, idFields]))
  have h2 : IdFree fun c => if parts.length > 2 then c.setAdditionalName (parts.getD 2 []) else c := .ite (.op E (.additionalName _) (by simp [fieldOf, idFields]))
  have h3 : IdFree fun c => if parts.length > 3 then c.setPrefix (parts.getD 3 []) else c := .ite (.op E (.prefix_ _) (by simp [fieldOf, idFields]))
  have h4 : IdFree fun c => if parts.length > 4 then c.setSuffix (parts.getD 4 []) else c := .ite (.op E (.suffix _) (by simp [fieldOf, idFields]))
  have h5 : IdFree fun c => if (l.parameter (q! "sort-as")).isEmpty then c else c.setSortString (l.parameter (q! "sort-as")) :=
    .ite' (.op E (.sortString _) (by simp [fieldOf, idFields]))
  exact h5.comp (h4.comp (h3.comp (h2.comp (h1.comp h0))))

theorem IdFree.readOrg (E : QtEnv) (l : VCardLine) : IdFree (readOrg l) := by
  let parts := splitString (qc! ';') l.value.toString
  have h0 : IdFree fun c => if parts.length > 0 then c.insertText .organization { params := l.params, text := parts.getD 0 [] } else c :=
    .ite (.op E (.insertText .organization _) (by simp [fieldOf, idFields]))
  have h1 : IdFree fun c => if parts.length > 1 then c.setDepartment (parts.getD 1 []) else c := .ite (.op E (.department _) (by simp [fieldOf, idFields]))
  have h2 : IdFree fun c => if (l.parameter (q! "sort-as")).isEmpty then c else c.setSortString (l.parameter (q! "sort-as")) :=
    .ite' (.op E (.sortString _) (by simp [fieldOf, idFields]))
  exact h2.comp (h1.comp h0)

theorem IdFree.foldl {β : Type} (f : Contact → β → Contact) (hf : ∀ b, IdFree fun c => f c b) (l : List β) : IdFree fun c => l.foldl f c := by
  induction l with
  | nil => exact .id
  | cons b l ih => exact .comp ih (hf b)

theorem IdFree.readX (E : ToolEnv) (l : VCardLine) : IdFree (readX E l) := by
  unfold KC.readX
  dsimp only
  by_cases h : startsWith (q! "messaging/") (customKey l) = true
  · simp only [h, if_true]
    exact .foldl _ (fun b => .op E.toQtEnv (.insertImpp _) (by simp [fieldOf, idFields])) _
  · simp only [h]
    exact .op E.toQtEnv (.insertCustom _ _ _) (by simp [fieldOf, idFields])

/-- A change of an address that does not look at its id. -/
def KeepsId (f : Address → Address) : Prop := ∀ (a : Address) (i : QString), f { a with id := i } = { f a with id := i }

theorem KeepsId.comp {g f : Address → Address} (hg : KeepsId g) (hf : KeepsId f) : KeepsId fun a => g (f a) := by
  intro a i
  simp only
  rw [hf a i, hg (f a) i]

theorem KeepsId.ite {q : Prop} [Decidable q] {f g : Address → Address} (hf : KeepsId f) (hg : KeepsId g) : KeepsId fun a => if q then f a else g a := by
  intro a i
  split
  · exact hf a i
  · exact hg a i

theorem KeepsId.id : KeepsId fun a => a := fun _ _ => rfl

theorem KeepsId.set (x : AddressField) (h : ∀ s, x ≠ .id s) : KeepsId fun a => a.set x := by
  intro a i
  cases x with
  | id s => exact absurd rfl (h s)
  | _ => rfl

theorem set_empty (a : Address) (x : AddressField) : (a.set x).empty = false := by cases x <;> rfl

/-- the id of an address read from a line is the one given, and the rest does not depend on it -/
theorem readAddress_eq (E : ToolEnv) (l : VCardLine) :
    ∃ f : Address → Address, KeepsId f ∧ (∀ a, (f a).empty = false) ∧ ∀ i, readAddress E i l = f { id := i } := by
  let parts := splitString (qc! ';') l.value.toString
  let f0 : Address → Address := fun a => if parts.length > 0 then a.set (.postOfficeBox (parts.getD 0 [])) else a
  let f1 : Address → Address := fun a => if parts.length > 1 then a.set (.extended (parts.getD 1 [])) else a
  let f2 : Address → Address := fun a => if parts.length > 2 then a.set (.street (parts.getD 2 [])) else a
  let f3 : Address → Address := fun a => if parts.length > 3 then a.set (.locality (parts.getD 3 [])) else a
  let f4 : Address → Address := fun a => if parts.length > 4 then a.set (.region (parts.getD 4 [])) else a
  let f5 : Address → Address := fun a => if parts.length > 5 then a.set (.postalCode (parts.getD 5 [])) else a
  let f6 : Address → Address := fun a => if parts.length > 6 then a.set (.country (parts.getD 6 [])) else a
  let f7 : Address → Address := fun a => a.set (.type (addressTypeOf l))
  let label := l.parameter (q! "label")
  let f8 : Address → Address := fun a => if label.isEmpty then a
    else a.set (.label (if label.length > 1 && label.head? = some (qc! '"') && label.getLast? = some (qc! '"') then mid label 1 (label.length - 2) else label))
  let geoStr := l.parameter (q! "geo")
  let geoStr' := replaceStr (q! "geo:") [] (removeChar (qc! '"') geoStr)
  let arguments := splitOn (qc! ',') geoStr'
  let f9 : Address → Address := fun a => if geoStr.isEmpty then a
    else if qc! ',' ∈ geoStr' then a.set (.geo ((({} : Geo).setLatitude (E.toDouble (arguments.getD 0 []))).setLongitude (E.toDouble (arguments.getD 1 []))))
    else a
  refine ⟨fun a => f9 (f8 (f7 (f6 (f5 (f4 (f3 (f2 (f1 (f0 a))))))))), ?_, ?_, fun i => rfl⟩
  · have h0 : KeepsId f0 := .ite (.set _ (by simp)) .id
    have h1 : KeepsId f1 := .ite (.set _ (by simp)) .id
    have h2 : KeepsId f2 := .ite (.set _ (by simp)) .id
    have h3 : KeepsId f3 := .ite (.set _ (by simp)) .id
    have h4 : KeepsId f4 := .ite (.set _ (by simp)) .id
    have h5 : KeepsId f5 := .ite (.set _ (by simp)) .id
    have h6 : KeepsId f6 := .ite (.set _ (by simp)) .id
    have h7 : KeepsId f7 := .set _ (by simp)
    have h8 : KeepsId f8 := .ite .id (.set _ (by simp))
    have h9 : KeepsId f9 := .ite .id (.ite (.set _ (by simp)) .id)
    exact h9.comp (h8.comp (h7.comp (h6.comp (h5.comp (h4.comp (h3.comp (h2.comp (h1.comp h0))))))))
  · intro a
    have e7 : ∀ a, (f7 a).empty = false := fun a => set_empty a _
    have e8 : ∀ a : Address, a.empty = false → (f8 a).empty = false := by
      intro a h
      simp only [f8]
      split
      · exact h
      · exact set_empty _ _
    have e9 : ∀ a : Address, a.empty = false → (f9 a).empty = false := by
      intro a h
      simp only [f9]
      split
      · exact h
      · split
        · exact set_empty _ _
        · exact h
    exact e9 _ (e8 _ (e7 _))

theorem readAddress_id (E : ToolEnv) (i j : QString) (l : VCardLine) :
    (readAddress E i l).id = i ∧ (readAddress E i l).empty = false ∧ ({ readAddress E i l with id := [] } : Address) = { readAddress E j l with id := [] } := by
  obtain ⟨f, hf, he, hr⟩ := readAddress_eq E l
  have h1 : ∀ i, readAddress E i l = { f { id := [] } with id := i } := fun i => (hr i).trans (hf { id := [] } i)
  refine ⟨by rw [h1], by rw [hr, he], by rw [h1 i, h1 j]⟩

theorem readPhone_id (i j : QString) (l : VCardLine) :
    (readPhone i l).id = i ∧ ({ readPhone i l with id := [] } : PhoneNumber) = { readPhone j l with id := [] } := ⟨rfl, rfl⟩

theorem parseKey_id (i j : QString) (l : VCardLine) : (parseKey i l).id = i ∧ ({ parseKey i l with id := [] } : Key) = { parseKey j l with id := [] } := by
  unfold parseKey
  dsimp only
  repeat' split
  all_goals exact ⟨rfl, rfl⟩

theorem sameIn_put {c c' : Contact} (h : ∀ f, f ∉ idFields → SameIn c c' f) (d d' : Contact) (hd : ∀ f, f ∉ idFields → SameIn d c f) (hd' : ∀ f, f ∉ idFields → SameIn d' c' f) :
    ∀ f, f ∉ idFields → SameIn d d' f := fun f hf => sameIn_trans (hd f hf) (sameIn_trans (h f hf) (sameIn_symm (hd' f hf)))

/-- A call about the addresses, phone numbers or keys: what remains to be shown. -/
theorem SameReading.idOp (h : SameReading ids ids' n a p k s s') (E : QtEnv) (op op' : Op) (hop : fieldOf op ∈ idFields) (hop' : fieldOf op' = fieldOf op) (hu : fieldOf op ≠ .uid)
    (i j m : Nat)
    (ha : SameButIds Address.id ({ · with id := [] }) (ids .address) (ids' .address) a i (s.c.apply E op).addresses (s'.c.apply E op').addresses)
    (hp : SameButIds PhoneNumber.id ({ · with id := [] }) (ids .phone) (ids' .phone) p j (s.c.apply E op).phoneNumbers (s'.c.apply E op').phoneNumbers)
    (hk : SameButIds Key.id ({ · with id := [] }) (ids .key) (ids' .key) k m (s.c.apply E op).keys (s'.c.apply E op').keys) :
    SameReading ids ids' n a p k { s with c := s.c.apply E op, addresses := i, phones := j, keys := m } { s' with c := s'.c.apply E op', addresses := i, phones := j, keys := m } := by
  refine ⟨?_, ?_, ha, hp, hk, rfl, rfl, rfl, h.ub⟩
  · intro f hf
    have e : f ≠ fieldOf op := fun e => hf (e ▸ hop)
    exact sameIn_trans (apply_other E s.c op e) (sameIn_trans (h.fields f hf) (sameIn_symm (apply_other E s'.c op' (by rw [hop']; exact e))))
  · have e := apply_other E s.c op (g := .uid) (Ne.symm hu)
    have e' := apply_other E s'.c op' (g := .uid) (by rw [hop']; exact Ne.symm hu)
    rcases h.uid with hu | ⟨hu, hu'⟩
    · exact .inl ((Eq.trans e hu).trans (Eq.symm e'))
    · exact .inr ⟨Eq.trans e hu, Eq.trans e' hu'⟩

theorem SameReading.addressOp (h : SameReading ids ids' n a p k s s') (x x' : Address) (i : Nat)
    (ha : SameButIds Address.id ({ · with id := [] }) (ids .address) (ids' .address) a i (s.c.insertAddress x).addresses (s'.c.insertAddress x').addresses) :
    SameReading ids ids' n a p k { s with c := s.c.insertAddress x, addresses := i } { s' with c := s'.c.insertAddress x', addresses := i } := by
  have E : QtEnv := Sample.env.toQtEnv
  have := h.idOp E (.insertAddress x) (.insertAddress x') (by simp [fieldOf, idFields]) rfl (by simp [fieldOf]) i s.phones s.keys ha ?_ ?_
  · rw [h.phoneCount, h.keyCount] at this ⊢
    exact this
  · have e := apply_other E s.c (.insertAddress x) (g := .phoneNumbers) (by simp [fieldOf])
    have e' := apply_other E s'.c (.insertAddress x') (g := .phoneNumbers) (by simp [fieldOf])
    rw [show _ = _ from e, show _ = _ from e']
    exact h.phones
  · have e := apply_other E s.c (.insertAddress x) (g := .keys) (by simp [fieldOf])
    have e' := apply_other E s'.c (.insertAddress x') (g := .keys) (by simp [fieldOf])
    rw [show _ = _ from e, show _ = _ from e']
    exact h.keys

theorem SameReading.phoneOp (h : SameReading ids ids' n a p k s s') (x x' : PhoneNumber) (i : Nat)
    (hp : SameButIds PhoneNumber.id ({ · with id := [] }) (ids .phone) (ids' .phone) p i (s.c.insertPhoneNumber x).phoneNumbers (s'.c.insertPhoneNumber x').phoneNumbers) :
    SameReading ids ids' n a p k { s with c := s.c.insertPhoneNumber x, phones := i } { s' with c := s'.c.insertPhoneNumber x', phones := i } := by
  have E : QtEnv := Sample.env.toQtEnv
  have := h.idOp E (.insertPhoneNumber x) (.insertPhoneNumber x') (by simp [fieldOf, idFields]) rfl (by simp [fieldOf]) s.addresses i s.keys ?_ hp ?_
  · rw [h.addressCount, h.keyCount] at this ⊢
    exact this
  · have e := apply_other E s.c (.insertPhoneNumber x) (g := .addresses) (by simp [fieldOf])
    have e' := apply_other E s'.c (.insertPhoneNumber x') (g := .addresses) (by simp [fieldOf])
    rw [show _ = _ from e, show _ = _ from e']
    exact h.addresses
  · have e := apply_other E s.c (.insertPhoneNumber x) (g := .keys) (by simp [fieldOf])
    have e' := apply_other E s'.c (.insertPhoneNumber x') (g := .keys) (by simp [fieldOf])
    rw [show _ = _ from e, show _ = _ from e']
    exact h.keys

theorem SameReading.keyOp (h : SameReading ids ids' n a p k s s') (x x' : Key) (i : Nat)
    (hk : SameButIds Key.id ({ · with id := [] }) (ids .key) (ids' .key) k i (s.c.insertKey x).keys (s'.c.insertKey x').keys) :
    SameReading ids ids' n a p k { s with c := s.c.insertKey x, keys := i } { s' with c := s'.c.insertKey x', keys := i } := by
  have E : QtEnv := Sample.env.toQtEnv
  have := h.idOp E (.insertKey x) (.insertKey x') (by simp [fieldOf, idFields]) rfl (by simp [fieldOf]) s.addresses s.phones i ?_ ?_ hk
  · rw [h.addressCount, h.phoneCount] at this ⊢
    exact this
  · have e := apply_other E s.c (.insertKey x) (g := .addresses) (by simp [fieldOf])
    have e' := apply_other E s'.c (.insertKey x') (g := .addresses) (by simp [fieldOf])
    rw [show _ = _ from e, show _ = _ from e']
    exact h.addresses
  · have e := apply_other E s.c (.insertKey x) (g := .phoneNumbers) (by simp [fieldOf])
    have e' := apply_other E s'.c (.insertKey x') (g := .phoneNumbers) (by simp [fieldOf])
    rw [show _ = _ from e, show _ = _ from e']
    exact h.phones

theorem readLine_same (E : ToolEnv) (hi : ∀ k i j, ids k i = ids k j → i = j) (hi' : ∀ k i j, ids' k i = ids' k j → i = j) (h : SameReading ids ids' n a p k s s') (l : VCardLine) :
    SameReading ids ids' n a p k (readLine E ids s l) (readLine E ids' s' l) := by
  unfold readLine
  cases tagOf l with
  | fieldGroup => exact h.op E.toQtEnv (.insertFieldGroup _) (by simp [fieldOf, idFields])
  | adr =>
    have hf := h.addresses.fresh (hi .address) (hi' .address)
    have hr := readAddress_id E (ids .address s.addresses) (ids' .address s.addresses) l
    have hr' := readAddress_id E (ids' .address s.addresses) (ids .address s.addresses) l
    dsimp only
    rw [← h.addressCount]
    apply h.addressOp
    simp only [Contact.insertAddress, hr.2.1, hr'.2.1, hr.1, hr'.1, hf.1, hf.2]
    exact h.addresses.append hr.1 hr'.1 hr.2.2
  | anniversary => exact h.op E.toQtEnv (.insertCustom _ _ _) (by simp [fieldOf, idFields])
  | bday => exact h.op E.toQtEnv (.birthday _ _) (by simp [fieldOf, idFields])
  | deathdate => exact h.op E.toQtEnv (.deathDate _) (by simp [fieldOf, idFields])
  | categories => exact h.op E.toQtEnv (.categories _) (by simp [fieldOf, idFields])
  | fburl => exact h.op E.toQtEnv (.insertCalendarUrl _) (by simp [fieldOf, idFields])
  | caladruri => exact h.op E.toQtEnv (.insertCalendarUrl _) (by simp [fieldOf, idFields])
  | caluri => exact h.op E.toQtEnv (.insertCalendarUrl _) (by simp [fieldOf, idFields])
  | impp => exact h.op E.toQtEnv (.insertImpp _) (by simp [fieldOf, idFields])
  | class_ => exact h.op E.toQtEnv (.secrecy _) (by simp [fieldOf, idFields])
  | gender =>
    dsimp only
    split
    · exact h
    · exact h.op E.toQtEnv (.gender _) (by simp [fieldOf, idFields])
  | lang => exact h.op E.toQtEnv (.insertLang _) (by simp [fieldOf, idFields])
  | email => exact h.op E.toQtEnv (.addEmail _) (by simp [fieldOf, idFields])
  | kind => exact h.op E.toQtEnv (.kind _) (by simp [fieldOf, idFields])
  | fn => exact h.op E.toQtEnv (.formattedName _) (by simp [fieldOf, idFields])
  | geo =>
    dsimp only
    split
    · exact h.op E.toQtEnv (.geo _) (by simp [fieldOf, idFields])
    · exact h
  | key =>
    have hf := h.keys.fresh (hi .key) (hi' .key)
    have hr := parseKey_id (ids .key s.keys) (ids' .key s.keys) l
    have hr' := parseKey_id (ids' .key s.keys) (ids .key s.keys) l
    dsimp only
    rw [← h.keyCount]
    apply h.keyOp
    simp only [Contact.insertKey, hr.1, hr'.1, hf.1, hf.2]
    exact h.keys.append hr.1 hr'.1 hr.2
  | label =>
    have hf := h.addresses.fresh (hi .address) (hi' .address)
    dsimp only
    rcases h.addresses.replace (hi .address) (hi' .address) (fun x => decide (x.type = addressTypeOf l))
      (by intro x y e
          have := congrArg Address.type e
          simp only at this
          rw [this])
      (fun x => x.copyCtor.set (.label l.value.toString)) (fun x => rfl)
      (by intro x y e
          simp only [Address.mk.injEq] at e
          obtain ⟨e1, -, e2, e3, e4, e5, e6, e7, e8, e9, e10, e11⟩ := e
          simp [Address.copyCtor, Address.set, *]) with ⟨h1, h2⟩ | ⟨x, x', h1, h2, hx, hx', hs, hr⟩
    · have r1 : readLabel (ids .address s.addresses) l s.c =
          (s.c.insertAddress (({ id := ids .address s.addresses, type := addressTypeOf l } : Address).set (.label l.value.toString)), true) := by
        unfold readLabel; dsimp only; rw [h1]
      have r2 : readLabel (ids' .address s'.addresses) l s'.c =
          (s'.c.insertAddress (({ id := ids' .address s'.addresses, type := addressTypeOf l } : Address).set (.label l.value.toString)), true) := by
        unfold readLabel; dsimp only; rw [h2]
      rw [r1, r2]
      simp only [if_true]
      rw [← h.addressCount]
      apply h.addressOp
      simp only [Contact.insertAddress, Address.set, hf.1, hf.2]
      exact h.addresses.append rfl rfl rfl
    · have r1 : readLabel (ids .address s.addresses) l s.c = (s.c.insertAddress (x.copyCtor.set (.label l.value.toString)), false) := by
        unfold readLabel; dsimp only; rw [h1]
      have r2 : readLabel (ids' .address s'.addresses) l s'.c = (s'.c.insertAddress (x'.copyCtor.set (.label l.value.toString)), false) := by
        unfold readLabel; dsimp only; rw [h2]
      rw [r1, r2]
      simp only [Bool.false_eq_true, if_false]
      have := h.addressOp (x.copyCtor.set (.label l.value.toString)) (x'.copyCtor.set (.label l.value.toString)) s.addresses ?_
      · rw [h.addressCount] at this ⊢
        exact this
      · have f1 : findFirst Address.id x.id s.c.addresses ≠ none := by
          rw [Ne, findFirst_none]; exact fun hn => hn (List.mem_map_of_mem hx)
        have f2 : findFirst Address.id x'.id s'.c.addresses ≠ none := by
          rw [Ne, findFirst_none]; exact fun hn => hn (List.mem_map_of_mem hx')
        obtain ⟨y, hy⟩ := Option.ne_none_iff_exists'.1 f1
        obtain ⟨y', hy'⟩ := Option.ne_none_iff_exists'.1 f2
        have g1 : (x.copyCtor.set (.label l.value.toString)).id = x.id := rfl
        have g2 : (x'.copyCtor.set (.label l.value.toString)).id = x'.id := rfl
        simp only [Contact.insertAddress, set_empty, g1, g2, hy, hy']
        exact hr
  | logo =>
    dsimp only
    split
    · exact ⟨h.fields, h.uid, h.addresses, h.phones, h.keys, h.addressCount, h.phoneCount, h.keyCount, rfl⟩
    · have e : s.c.logo = s'.c.logo := h.fields .logo (by simp [fieldOf, idFields])
      rw [e]
      split
      · exact h.op E.toQtEnv (.logo _) (by simp [fieldOf, idFields])
      · exact h.op E.toQtEnv (.insertExtraLogo _) (by simp [fieldOf, idFields])
  | mailer => exact h.op E.toQtEnv (.mailer _) (by simp [fieldOf, idFields])
  | n => exact (IdFree.readN E.toQtEnv l).same h
  | name => exact h.op E.toQtEnv (.name _) (by simp [fieldOf, idFields])
  | nickname => exact h.op E.toQtEnv (.insertText .nickName _) (by simp [fieldOf, idFields])
  | note => exact h.op E.toQtEnv (.note _) (by simp [fieldOf, idFields])
  | org => exact (IdFree.readOrg E.toQtEnv l).same h
  | photo =>
    dsimp only
    split
    · exact ⟨h.fields, h.uid, h.addresses, h.phones, h.keys, h.addressCount, h.phoneCount, h.keyCount, rfl⟩
    · have e : s.c.photo = s'.c.photo := h.fields .photo (by simp [fieldOf, idFields])
      rw [e]
      split
      · exact h.op E.toQtEnv (.photo _) (by simp [fieldOf, idFields])
      · exact h.op E.toQtEnv (.insertExtraPhoto _) (by simp [fieldOf, idFields])
  | prodid => exact h.op E.toQtEnv (.productId _) (by simp [fieldOf, idFields])
  | rev => exact h.op E.toQtEnv (.revision _) (by simp [fieldOf, idFields])
  | role => exact h.op E.toQtEnv (.insertText .role _) (by simp [fieldOf, idFields])
  | sortString => exact h.op E.toQtEnv (.sortString _) (by simp [fieldOf, idFields])
  | sound =>
    have e : s.c.sound = s'.c.sound := h.fields .sound (by simp [fieldOf, idFields])
    dsimp only
    rw [e]
    split
    · exact h.op E.toQtEnv (.sound _) (by simp [fieldOf, idFields])
    · exact h.op E.toQtEnv (.insertExtraSound _) (by simp [fieldOf, idFields])
  | tel =>
    have hf := h.phones.fresh (hi .phone) (hi' .phone)
    have hr := readPhone_id (ids .phone s.phones) (ids' .phone s.phones) l
    have hr' := readPhone_id (ids' .phone s.phones) (ids .phone s.phones) l
    have hn : (readPhone (ids .phone s.phones) l).number = (readPhone (ids' .phone s.phones) l).number := rfl
    dsimp only
    rw [← h.phoneCount]
    apply h.phoneOp
    simp only [Contact.insertPhoneNumber, hr.1, hr'.1, hf.1, hf.2, hn]
    split
    · exact h.phones.more
    · exact h.phones.append hr.1 hr'.1 hr.2
  | title => exact h.op E.toQtEnv (.insertText .title _) (by simp [fieldOf, idFields])
  | tz =>
    dsimp only
    split
    · exact h.op E.toQtEnv (.timeZone _) (by simp [fieldOf, idFields])
    · exact h
  | uid =>
    have e : ∀ (c : Contact) (f : Field), f ≠ .uid → SameIn (c.setUid l.value.toString) c f :=
      fun c f hf => apply_other E.toQtEnv c (.uid l.value.toString) hf
    have eu : ∀ c : Contact, (c.setUid l.value.toString).uid = l.value.toString := by
      intro c
      unfold Contact.setUid
      split
      · rename_i h; exact h.symm
      · rfl
    have ea : ∀ c : Contact, (c.setUid l.value.toString).addresses = c.addresses := fun c => e c .addresses (by simp)
    have ep : ∀ c : Contact, (c.setUid l.value.toString).phoneNumbers = c.phoneNumbers := fun c => e c .phoneNumbers (by simp)
    have ek : ∀ c : Contact, (c.setUid l.value.toString).keys = c.keys := fun c => e c .keys (by simp)
    refine ⟨?_, .inl (by rw [eu, eu]), ?_, ?_, ?_, h.addressCount, h.phoneCount, h.keyCount, h.ub⟩
    · intro f hf
      have : f ≠ .uid := fun x => hf (x ▸ by simp [idFields])
      exact sameIn_trans (e _ f this) (sameIn_trans (h.fields f hf) (sameIn_symm (e _ f this)))
    · simp only [ea]; exact h.addresses
    · simp only [ep]; exact h.phones
    · simp only [ek]; exact h.keys
  | url => exact h.op E.toQtEnv (.insertExtraUrl _) (by simp [fieldOf, idFields])
  | source => exact h.op E.toQtEnv (.insertSourceUrl _) (by simp [fieldOf, idFields])
  | member => exact h.op E.toQtEnv (.insertMember _) (by simp [fieldOf, idFields])
  | related => exact h.op E.toQtEnv (.insertRelationship _) (by simp [fieldOf, idFields])
  | clientpidmap => exact h.op E.toQtEnv (.insertClientPidMap _) (by simp [fieldOf, idFields])
  | x => exact (IdFree.readX E l).same h
  | other => exact h

/-- reading the lines of a card -/
theorem readLines_same (E : ToolEnv) (hi : ∀ k i j, ids k i = ids k j → i = j) (hi' : ∀ k i j, ids' k i = ids' k j → i = j) (ls : List VCardLine) :
    ∀ {s s' : RState}, SameReading ids ids' n a p k s s' → SameReading ids ids' n a p k (ls.foldl (readLine E ids) s) (ls.foldl (readLine E ids') s') := by
  induction ls with
  | nil => intro s s' h; exact h
  | cons l ls ih => intro s s' h; exact ih (readLine_same E hi hi' h l)

theorem sameReading_start (ids ids' : IdKind → Nat → QString) (n a p k : Nat) :
    SameReading ids ids' n a p k { c := Contact.new (ids .contact n), addresses := a, phones := p, keys := k } { c := Contact.new (ids' .contact n), addresses := a, phones := p, keys := k } := by
  refine ⟨?_, .inr ⟨rfl, rfl⟩, ⟨Nat.le_refl _, ⟨[], .nil, by simp, rfl, rfl⟩, rfl⟩, ⟨Nat.le_refl _, ⟨[], .nil, by simp, rfl, rfl⟩, rfl⟩,
    ⟨Nat.le_refl _, ⟨[], .nil, by simp, rfl, rfl⟩, rfl⟩, rfl, rfl, rfl, rfl⟩
  intro f hf
  cases f with
  | uid => exact absurd (by simp [idFields]) hf
  | birthday => exact ⟨rfl, rfl⟩
  | text k => cases k <;> rfl
  | _ => rfl

theorem apartFromIds_eq (h : SameReading ids ids' n a p k s s') : apartFromIds s.c = apartFromIds s'.c := by
  apply contact_same_fields
  · intro f
    by_cases hf : f ∈ idFields
    · simp only [idFields, List.mem_cons, List.not_mem_nil, or_false] at hf
      rcases hf with rfl | rfl | rfl | rfl
      · rfl
      · exact h.addresses.data
      · exact h.phones.data
      · exact h.keys.data
    · have := h.fields f hf
      cases f with
      | uid => rfl
      | addresses => exact h.addresses.data
      | phoneNumbers => exact h.phones.data
      | keys => exact h.keys.data
      | birthday => exact this
      | text k => cases k <;> exact this
      | _ => exact this
  · rfl

/-- the numbers of the ids of a list of objects with ids: increasing, from one number on and below another -/
def Numbered (ids : Nat → QString) (lo hi : Nat) (l : List QString) : Prop := ∃ X : List Nat, X.Pairwise (· < ·) ∧ (∀ x ∈ X, lo ≤ x ∧ x < hi) ∧ l = X.map ids

theorem Numbered.append {ids : Nat → QString} {lo mid hi : Nat} {l m : List QString} (h : Numbered ids lo mid l) (h' : Numbered ids mid hi m) (h1 : lo ≤ mid) (h2 : mid ≤ hi) :
    Numbered ids lo hi (l ++ m) := by
  obtain ⟨X, x1, x2, x3⟩ := h
  obtain ⟨Y, y1, y2, y3⟩ := h'
  refine ⟨X ++ Y, ?_, ?_, by rw [x3, y3, List.map_append]⟩
  · rw [List.pairwise_append]
    exact ⟨x1, y1, fun a ha b hb => Nat.lt_of_lt_of_le (x2 a ha).2 (y2 b hb).1⟩
  · intro x hx
    rcases List.mem_append.1 hx with hx | hx
    · exact ⟨(x2 x hx).1, Nat.lt_of_lt_of_le (x2 x hx).2 h2⟩
    · exact ⟨Nat.le_trans h1 (y2 x hx).1, (y2 x hx).2⟩

theorem readCards_same (E : ToolEnv) (hi : ∀ k i j, ids k i = ids k j → i = j) (hi' : ∀ k i j, ids' k i = ids' k j → i = j) (cards : List VCard) : ∀ n a p k,
    (readCards E ids n a p k cards = none ∧ readCards E ids' n a p k cards = none) ∨
    ∃ cs cs', readCards E ids n a p k cards = some cs ∧ readCards E ids' n a p k cards = some cs' ∧ cs.map apartFromIds = cs'.map apartFromIds ∧
      (∀ i c c', cs[i]? = some c → cs'[i]? = some c' → c.uid = c'.uid ∨ c.uid = ids .contact (n + i) ∧ c'.uid = ids' .contact (n + i)) ∧
      (∃ m, a ≤ m ∧ Numbered (ids .address) a m (cs.flatMap fun c => c.addresses.map (·.id))) ∧
      (∃ m, p ≤ m ∧ Numbered (ids .phone) p m (cs.flatMap fun c => c.phoneNumbers.map (·.id))) ∧
      ∃ m, k ≤ m ∧ Numbered (ids .key) k m (cs.flatMap fun c => c.keys.map (·.id)) := by
  induction cards with
  | nil =>
    intro n a p k
    exact .inr ⟨[], [], rfl, rfl, rfl, by simp, ⟨a, Nat.le_refl _, [], .nil, by simp, rfl⟩, ⟨p, Nat.le_refl _, [], .nil, by simp, rfl⟩, ⟨k, Nat.le_refl _, [], .nil, by simp, rfl⟩⟩
  | cons card cards ih =>
    intro n a p k
    have h := readLines_same E hi hi' (readingOrder card) (sameReading_start ids ids' n a p k)
    simp only [readCards]
    generalize (readingOrder card).foldl (readLine E ids) { c := Contact.new (ids .contact n), addresses := a, phones := p, keys := k } = s at h ⊢
    generalize (readingOrder card).foldl (readLine E ids') { c := Contact.new (ids' .contact n), addresses := a, phones := p, keys := k } = s' at h ⊢
    by_cases hub : s.ub = true
    · left
      rw [if_pos hub, if_pos (h.ub ▸ hub)]
      exact ⟨rfl, rfl⟩
    · rw [if_neg hub, if_neg (h.ub ▸ hub), ← h.addressCount, ← h.phoneCount, ← h.keyCount]
      rcases ih (n + 1) s.addresses s.phones s.keys with ⟨h1, h2⟩ | ⟨cs, cs', h1, h2, h3, h4, ⟨ma, ha, hna⟩, ⟨mp, hp, hnp⟩, mk, hk, hnk⟩
      · left
        rw [h1, h2]
        exact ⟨rfl, rfl⟩
      · right
        rw [h1, h2]
        obtain ⟨XA, a1, a2, a3, -⟩ := h.addresses.numbers
        obtain ⟨XP, p1, p2, p3, -⟩ := h.phones.numbers
        obtain ⟨XK, k1, k2, k3, -⟩ := h.keys.numbers
        refine ⟨s.c :: cs, s'.c :: cs', rfl, rfl, ?_, ?_, ⟨ma, Nat.le_trans h.addresses.le ha, ?_⟩, ⟨mp, Nat.le_trans h.phones.le hp, ?_⟩, mk, Nat.le_trans h.keys.le hk, ?_⟩
        · simp only [List.map_cons, h3, apartFromIds_eq h]
        · intro i c c' hc hc'
          cases i with
          | zero =>
            simp only [List.getElem?_cons_zero, Option.some.injEq] at hc hc'
            subst hc hc'
            exact h.uid
          | succ i =>
            simp only [List.getElem?_cons_succ] at hc hc'
            have := h4 i c c' hc hc'
            rwa [show n + 1 + i = n + (i + 1) by omega] at this
        · rw [List.flatMap_cons]
          exact Numbered.append ⟨XA, a1, a2, a3⟩ hna h.addresses.le ha
        · rw [List.flatMap_cons]
          exact Numbered.append ⟨XP, p1, p2, p3⟩ hnp h.phones.le hp
        · rw [List.flatMap_cons]
          exact Numbered.append ⟨XK, k1, k2, k3⟩ hnk h.keys.le hk

theorem Numbered.nodup {ids : Nat → QString} {lo hi : Nat} {l : List QString} (h : Numbered ids lo hi l) (hi : ∀ i j, ids i = ids j → i = j) : l.Nodup := by
  obtain ⟨X, x1, _, rfl⟩ := h
  exact nodup_numbers x1 hi

/-! ### The property -/

namespace Spec

/-- A supply of ids never gives the same id twice. -/
def NeverTwice (ids : IdKind → Nat → QString) : Prop := ∀ k i j, ids k i = ids k j → i = j

end Spec

/-- **C71.** No two addresses, no two phone numbers and no two keys of the contacts read from a text have the same id, in whichever contacts they are. -/
theorem C71_distinct (E : ToolEnv) (ids : IdKind → Nat → QString) (hi : NeverTwice ids) (fuel : Nat) (text : QByteArray) (cs : List Contact)
    (h : parseContacts E ids fuel text = .ok cs) :
    (cs.flatMap fun c => c.addresses.map (·.id)).Nodup ∧ (cs.flatMap fun c => c.phoneNumbers.map (·.id)).Nodup ∧ (cs.flatMap fun c => c.keys.map (·.id)).Nodup := by
  unfold parseContacts at h
  split at h
  · exact absurd h (by simp)
  · rename_i cards _
    rcases readCards_same E hi hi cards 0 0 0 0 with ⟨h1, _⟩ | ⟨cs1, _, h1, _, _, _, ⟨_, _, ha⟩, ⟨_, _, hp⟩, _, _, hk⟩
    · rw [h1] at h
      exact absurd h (by simp)
    · rw [h1] at h
      simp only [Outcome.ok.injEq] at h
      subst h
      exact ⟨ha.nodup (hi _), hp.nodup (hi _), hk.nodup (hi _)⟩

/-- **C71.** Reading the same text twice with different ids: the same contacts apart from the ids; the id of a contact differs only if both are made up. -/
theorem C71_same_data (E : ToolEnv) (ids ids' : IdKind → Nat → QString) (hi : NeverTwice ids) (hi' : NeverTwice ids') (fuel : Nat) (text : QByteArray) :
    (parseContacts E ids fuel text = .undefined ↔ parseContacts E ids' fuel text = .undefined) ∧
    (parseContacts E ids fuel text = .unfinished ↔ parseContacts E ids' fuel text = .unfinished) ∧
    ∀ cs, parseContacts E ids fuel text = .ok cs → ∃ cs', parseContacts E ids' fuel text = .ok cs' ∧ cs.map apartFromIds = cs'.map apartFromIds ∧
      ∀ i c c', cs[i]? = some c → cs'[i]? = some c' → c.uid = c'.uid ∨ c.uid = ids .contact i ∧ c'.uid = ids' .contact i := by
  unfold parseContacts
  cases parseVCards E.toCodecs fuel text with
  | none => simp
  | some cards =>
    rcases readCards_same E hi hi' cards 0 0 0 0 with ⟨h1, h2⟩ | ⟨cs1, cs2, h1, h2, h3, h4, _⟩
    · simp [h1, h2]
    · simp only [h1, h2]
      refine ⟨by simp, by simp, fun cs h => ?_⟩
      simp only [Outcome.ok.injEq] at h
      subst h
      refine ⟨cs2, rfl, h3, fun i c c' hc hc' => ?_⟩
      have := h4 i c c' hc hc'
      rwa [Nat.zero_add] at this

/-! ### Instances -/

example : NeverTwice Sample.ids := Sample.ids_inj

/-- two cards with three phone numbers and two addresses, the second with a UID -/
def idsText : QByteArray :=
  b! "BEGIN:VCARD\nTEL:1\nTEL:2\nADR:;;Road 1\nEND:VCARD\nBEGIN:VCARD\nTEL:3\nLABEL:Road 2\nUID:u\nEND:VCARD\n"

example : ∃ cs, parseContacts Sample.env Sample.ids 50 idsText = .ok cs ∧ (cs.flatMap fun c => c.phoneNumbers.map (·.id)) = [q! "p", q! "pp", q! "ppp"] ∧
    (cs.flatMap fun c => c.addresses.map (·.id)) = [q! "a", q! "aa"] ∧ cs.map (·.uid) = [q! "c", q! "u"] := by
  refine ⟨match parseContacts Sample.env Sample.ids 50 idsText with | .ok cs => cs | _ => [], ?_⟩
  decide +kernel

end KC
