import Verif.Lemmas.CardFields2
import Verif.Lemmas.Names
/-
  The fields of a contact read from the lines of one card: phone numbers, keys and addresses.
-/
namespace KC
open KC.Spec

/-! ### types -/

theorem testBit_fold {α : Type} (f : α → Nat) (l : List α) (a i : Nat) : (l.foldl (fun t x => t ||| f x) a).testBit i = (a.testBit i || l.any fun x => (f x).testBit i) := by
  induction l generalizing a with
  | nil => simp
  | cons x l ih => rw [List.foldl_cons, ih, Nat.testBit_or, List.any_cons, Bool.or_assoc]

theorem table_perm (t1 t2 : List (QString × Nat)) (h1 : ∀ p ∈ t1, t2.find? (fun q => decide (q.1 = p.1)) = some p) (h2 : ∀ p ∈ t2, p.1 ∈ t1.map (·.1)) (x : QString) :
    t1.find? (fun q => decide (q.1 = x)) = t2.find? fun q => decide (q.1 = x) := by
  cases h : t1.find? (fun q => decide (q.1 = x)) with
  | some p =>
    have e : p.1 = x := by simpa using List.find?_some h
    rw [← h1 p (List.mem_of_find?_eq_some h), e]
  | none =>
    symm
    rw [List.find?_eq_none] at h ⊢
    intro q hq e
    obtain ⟨p, hp, e'⟩ := List.mem_map.1 (h2 q hq)
    have e : q.1 = x := by simpa using e
    exact h p hp (by simp [e', e])

theorem find_bit (t : List (QString × Nat)) (hn : (t.map (·.1)).Nodup) (x : QString) (i : Nat) :
    (((t.find? fun q : QString × Nat => decide (q.1 = x)).map fun q : QString × Nat => q.2).getD 0 : Nat).testBit i = t.any fun k => decide (k.1 = x) && k.2.testBit i := by
  induction t with
  | nil => simp
  | cons p t ih =>
    rw [List.map_cons, List.nodup_cons] at hn
    by_cases h : p.1 = x
    · rw [List.find?_cons_of_pos (by simpa using h), List.any_cons]
      have : (t.any fun k => decide (k.1 = x) && k.2.testBit i) = false := by
        rw [List.any_eq_false]
        intro k hk
        have : k.1 ≠ x := fun e => hn.1 (by rw [h, ← e]; exact List.mem_map_of_mem hk)
        simp [this]
      simp [h, this]
    · rw [List.find?_cons_of_neg (by simpa using h), ih hn.2, List.any_cons]
      simp [h]

theorem kinds_bits (t : List (QString × Nat)) (hn : (t.map (·.1)).Nodup) (f : QString → Nat)
    (hf : ∀ s, f s = ((t.find? fun q => decide (q.1 = toLowerQ s)).map (·.2)).getD 0) (l : VCardLine) :
    (l.parameters (q! "type")).foldl (fun a s => a ||| f s) 0 = kindsOf t l := by
  have e : kindsOf t l = t.foldl (fun a k => a ||| if k.1 ∈ (l.parameters (q! "type")).map toLowerQ then k.2 else 0) 0 := by
    unfold kindsOf
    congr 1
    funext a k
    split <;> simp
  rw [e]
  apply Nat.eq_of_testBit_eq
  intro i
  rw [testBit_fold, testBit_fold]
  simp only [hf, find_bit t hn, Nat.zero_testBit, Bool.false_or]
  rw [Bool.eq_iff_iff]
  simp only [List.any_eq_true, Bool.and_eq_true, decide_eq_true_eq]
  constructor
  · rintro ⟨s, hs, k, hk, e, hb⟩
    exact ⟨k, hk, by rw [if_pos (List.mem_map.2 ⟨s, hs, e.symm⟩)]; exact hb⟩
  · rintro ⟨k, hk, hb⟩
    split at hb
    · rename_i h
      obtain ⟨s, hs, e⟩ := List.mem_map.1 h
      exact ⟨s, hs, k, hk, e.symm, hb⟩
    · simp at hb

theorem addressTypeOf_eq (l : VCardLine) : addressTypeOf l = kindsOf addressKinds l := by
  apply kinds_bits addressKinds (by decide +kernel) (fun s => stringToAddressType (toLowerQ s))
  intro s
  show ((addressTypes.find? _).map _).getD 0 = _
  rw [table_perm addressTypes addressKinds (by decide +kernel) (by decide +kernel)]

theorem upper_lower (c d : UInt16) (hd : 97 ≤ d ∧ d ≤ 122) : upperQ c = upperQ d ↔ lowerQ c = d := by
  unfold upperQ lowerQ
  rw [if_pos (Or.inl hd)]
  obtain ⟨h1, h2⟩ := hd
  rw [UInt16.le_iff_toNat_le] at h1 h2
  have hc := c.toNat_lt
  simp only [UInt16.le_iff_toNat_le, ne_eq, ← UInt16.toNat_inj]
  have ha : (97 : UInt16).toNat = 97 := rfl
  have hz : (122 : UInt16).toNat = 122 := rfl
  have hA : (65 : UInt16).toNat = 65 := rfl
  have hZ : (90 : UInt16).toNat = 90 := rfl
  have k1 : (0xE0 : UInt16).toNat = 0xE0 := rfl
  have k2 : (0xFE : UInt16).toNat = 0xFE := rfl
  have k3 : (0xF7 : UInt16).toNat = 0xF7 := rfl
  have k4 : (0xC0 : UInt16).toNat = 0xC0 := rfl
  have k5 : (0xDE : UInt16).toNat = 0xDE := rfl
  have k6 : (0xD7 : UInt16).toNat = 0xD7 := rfl
  rw [ha] at h1
  rw [hz] at h2
  rw [ha, hz, hA, hZ, k1, k2, k3, k4, k5, k6]
  have s32 : (32 : UInt16).toNat = 32 := rfl
  split <;> split <;> simp only [UInt16.toNat_sub, UInt16.toNat_add, s32] <;> omega

theorem upper_lower_text (s n : QString) (hn : n.all (fun d => decide (97 ≤ d ∧ d ≤ 122)) = true) : toUpperQ s = toUpperQ n ↔ toLowerQ s = n := by
  unfold toUpperQ toLowerQ
  induction n generalizing s with
  | nil => simp
  | cons d n ih =>
    rw [List.all_cons, Bool.and_eq_true, decide_eq_true_eq] at hn
    cases s with
    | nil => simp
    | cons c s =>
      rw [List.map_cons, List.map_cons, List.map_cons, List.cons.injEq, List.cons.injEq, upper_lower c d hn.1, ih s hn.2]

theorem stringToPhoneType_eq (s : QString) : stringToPhoneType (toUpperQ s) = ((phoneKinds.find? fun q => decide (q.1 = toLowerQ s)).map (·.2)).getD 0 := by
  have hk : ∀ k ∈ phoneKinds, k.1.all (fun d => decide (97 ≤ d ∧ d ≤ 122)) = true := by decide +kernel
  show ((phoneTypes.find? _).map _).getD 0 = _
  rw [table_perm phoneTypes (phoneKinds.map fun k => (toUpperQ k.1, k.2)) (by decide +kernel) (by decide +kernel), List.find?_map]
  have : phoneKinds.find? ((fun q => decide (q.1 = toUpperQ s)) ∘ fun k : QString × Nat => (toUpperQ k.1, k.2)) = phoneKinds.find? fun q => decide (q.1 = toLowerQ s) := by
    have gen : ∀ t : List (QString × Nat), (∀ k ∈ t, k.1.all (fun d => decide (97 ≤ d ∧ d ≤ 122)) = true) →
        t.find? ((fun q => decide (q.1 = toUpperQ s)) ∘ fun k : QString × Nat => (toUpperQ k.1, k.2)) = t.find? fun q => decide (q.1 = toLowerQ s) := by
      intro t
      induction t with
      | nil => intro _; rfl
      | cons k t ih =>
        intro h
        have hu := upper_lower_text s k.1 (h k (by simp))
        have e : ((fun q : QString × Nat => decide (q.1 = toUpperQ s)) ∘ fun k : QString × Nat => (toUpperQ k.1, k.2)) k = decide (k.1 = toLowerQ s) := by
          show decide (toUpperQ k.1 = toUpperQ s) = _
          rw [decide_eq_decide, eq_comm, hu, eq_comm]
        rw [List.find?_cons, List.find?_cons, e, ih (fun k hk => h k (by simp [hk]))]
    exact gen _ hk
  rw [this]
  cases phoneKinds.find? fun q => decide (q.1 = toLowerQ s) <;> rfl

theorem readPhone_eq (id : QString) (l : VCardLine) : readPhone id l = { phoneOf l with id := id } := by
  unfold readPhone phoneOf valueText
  have := kinds_bits phoneKinds (by decide +kernel) (fun s => stringToPhoneType (toUpperQ s)) stringToPhoneType_eq l
  simp only [this, List.isEmpty_iff]
  rfl

/-! ### lists of things with new identifiers -/

theorem simplified_empty (v : QString) : (simplified (simplified v)).isEmpty = decide (simplified v = []) := by
  have h : simplified (simplified v) = simplified v := by
    show join _ (words isSpaceQ (simplified v)) = join _ (words isSpaceQ v)
    rw [words_simplified]
  rw [h]
  cases simplified v <;> rfl

section
variable (E : ToolEnv) (ids : IdKind → Nat → QString) (hids : ∀ k i j, ids k i = ids k j → i = j) (s0 : RState) (L : List VCardLine)

theorem fresh_not_mem {α : Type} (id : α → QString) (k : IdKind) (l : List α) (n : Nat) (h : ∀ p ∈ l, ∃ i, i < n ∧ id p = ids k i) (hids : ∀ k i j, ids k i = ids k j → i = j) :
    ids k n ∉ l.map id := by
  intro hm
  obtain ⟨p, hp, e⟩ := List.mem_map.1 hm
  obtain ⟨i, hi, e'⟩ := h p hp
  have := hids _ _ _ (e'.symm.trans e)
  omega

include hids in
theorem part_phones (h0 : s0.c.phoneNumbers = []) :
    (L.foldl (readLine E ids) s0).c.phoneNumbers.map (fun p => { p with id := [] }) = (((named L [q! "tel"]).map phoneOf).filter fun p => decide (p.number ≠ [])) ∧
    ((L.foldl (readLine E ids) s0).c.phoneNumbers.map (·.id)).Nodup := by
  have := read_part_inv E ids (fun s => s.c.phoneNumbers.map fun p => { p with id := [] }) [.tel]
    (fun x l => if (fun p : PhoneNumber => decide (p.number ≠ [])) (phoneOf l) = true then x ++ [phoneOf l] else x)
    (fun s => (s.c.phoneNumbers.map (·.id)).Nodup ∧ ∀ p ∈ s.c.phoneNumbers, ∃ i, i < s.phones ∧ p.id = ids .phone i)
    (by
      intro t ht s s' h hI
      have hp : (s'.c.phoneNumbers, s'.phones) = (s.c.phoneNumbers, s.phones) := by
        cases t <;> first | exact (ht (by decide)).elim | exact Eq.trans (congrArg (fun s : RState => (s.c.phoneNumbers, s.phones)) (show s' = _ from h)) rfl
      rw [Prod.mk.injEq] at hp
      rw [hp.1, hp.2]
      exact ⟨hI, rfl⟩)
    (by
      intro s l ht hI
      replace ht : tagOf l = .tel := by simpa using ht
      have hf : findFirst PhoneNumber.id (ids .phone s.phones) s.c.phoneNumbers = none :=
        findFirst_none.2 (fresh_not_mem ids PhoneNumber.id .phone _ _ hI.2 hids)
      have hn := fresh_not_mem ids PhoneNumber.id .phone _ _ hI.2 hids
      have hr : readLine E ids s l = { s with c := s.c.insertPhoneNumber { phoneOf l with id := ids .phone s.phones }, phones := s.phones + 1 } := by
        simp only [readLine, ht, readPhone_eq]
      have hl : (readLine E ids s l).c.phoneNumbers =
          if (phoneOf l).number ≠ [] then s.c.phoneNumbers ++ [{ phoneOf l with id := ids .phone s.phones }] else s.c.phoneNumbers := by
        rw [hr]
        simp only [Contact.insertPhoneNumber, hf]
        have : (simplified (phoneOf l).number).isEmpty = decide ((phoneOf l).number = []) := simplified_empty _
        rw [this]
        by_cases h : (phoneOf l).number = [] <;> simp [h]
      have hc : (readLine E ids s l).phones = s.phones + 1 := by rw [hr]
      rw [hl, hc]
      by_cases h : (phoneOf l).number ≠ []
      · rw [if_pos h, if_pos (by simpa using h)]
        refine ⟨⟨?_, ?_⟩, by rw [List.map_append]; rfl⟩
        · rw [List.map_append, List.nodup_append]
          refine ⟨hI.1, by simp, ?_⟩
          intro a ha b hb e
          simp at hb
          exact hn (by rw [← hb, ← e]; exact ha)
        · intro p hp
          rw [List.mem_append, List.mem_singleton] at hp
          rcases hp with hp | rfl
          · obtain ⟨i, hi, e⟩ := hI.2 p hp
            exact ⟨i, by omega, e⟩
          · exact ⟨s.phones, by omega, rfl⟩
      · rw [if_neg h, if_neg (by simpa using h)]
        refine ⟨⟨hI.1, ?_⟩, rfl⟩
        intro p hp
        obtain ⟨i, hi, e⟩ := hI.2 p hp
        exact ⟨i, by omega, e⟩) L s0 (by rw [h0]; simp)
  refine ⟨?_, this.1.1⟩
  rw [this.2, show named L [q! "tel"] = _ from named_eq_tags L [(q! "tel", .tel)] (by decide +kernel), h0]
  exact fold_appendIf phoneOf (fun p => decide (p.number ≠ [])) _

theorem flat_single {α β : Type} (f : α → β) (l : List α) : (l.flatMap fun x => [f x]) = l.map f := by
  induction l with
  | nil => rfl
  | cons a l ih => rw [List.flatMap_cons, ih]; rfl

theorem parseKey_eq (id : QString) (l : VCardLine) : parseKey id l = { keyOf l with id := id } := by
  unfold parseKey keyOf valueText
  have hm : ∀ n, n ∉ l.parameterList → l.parameter n = [] := by
    intro n hn
    unfold VCardLine.parameter
    have : l.params.find n = none := by
      rw [SMap.find_eq_none]
      intro p hp e
      exact hn (by rw [← e]; exact List.mem_map_of_mem hp)
    rw [this]
  by_cases h1 : q! "encoding" ∈ l.parameterList
  · by_cases h2 : q! "type" ∈ l.parameterList
    · by_cases h3 : toLowerQ (l.parameter (q! "type")) = q! "x509"
      · simp [h1, h2, h3, Key.setBinaryData]
      · by_cases h4 : toLowerQ (l.parameter (q! "type")) = q! "pgp"
        · simp [h1, h2, h4, Key.setBinaryData]
        · simp [h1, h2, h3, h4, Key.setBinaryData]
    · by_cases h3 : q! "mediatype" ∈ l.parameterList
      · have := hm _ h2
        by_cases h4 : toLowerQ (l.parameter (q! "mediatype")) = q! "application/x-x509-ca-cert"
        · simp [h1, h2, h3, h4, Key.setBinaryData]
        · by_cases h5 : toLowerQ (l.parameter (q! "mediatype")) = q! "application/pgp-keys"
          · simp [h1, h2, h3, h5, Key.setBinaryData]
          · simp [h1, h2, h3, h4, h5, Key.setBinaryData, this]
      · simp [h1, h2, h3, Key.setBinaryData]
  · by_cases h2 : q! "type" ∈ l.parameterList
    · by_cases h3 : toLowerQ (l.parameter (q! "type")) = q! "x509"
      · simp [h1, h2, h3, Key.setTextData]
      · by_cases h4 : toLowerQ (l.parameter (q! "type")) = q! "pgp"
        · simp [h1, h2, h4, Key.setTextData]
        · simp [h1, h2, h3, h4, Key.setTextData]
    · by_cases h3 : q! "mediatype" ∈ l.parameterList
      · have := hm _ h2
        by_cases h4 : toLowerQ (l.parameter (q! "mediatype")) = q! "application/x-x509-ca-cert"
        · simp [h1, h2, h3, h4, Key.setTextData]
        · by_cases h5 : toLowerQ (l.parameter (q! "mediatype")) = q! "application/pgp-keys"
          · simp [h1, h2, h3, h5, Key.setTextData]
          · simp [h1, h2, h3, h4, h5, Key.setTextData, this]
      · simp [h1, h2, h3, Key.setTextData]

include hids in
theorem part_keys (h0 : s0.c.keys = []) :
    (L.foldl (readLine E ids) s0).c.keys.map (fun p => { p with id := [] }) = (named L [q! "key"]).map keyOf ∧
    ((L.foldl (readLine E ids) s0).c.keys.map (·.id)).Nodup := by
  have := read_part_inv E ids (fun s => s.c.keys.map fun p => { p with id := [] }) [.key]
    (fun x l => x ++ [keyOf l])
    (fun s => (s.c.keys.map (·.id)).Nodup ∧ ∀ p ∈ s.c.keys, ∃ i, i < s.keys ∧ p.id = ids .key i)
    (by
      intro t ht s s' h hI
      have hp : (s'.c.keys, s'.keys) = (s.c.keys, s.keys) := by
        cases t <;> first | exact (ht (by decide)).elim | exact Eq.trans (congrArg (fun s : RState => (s.c.keys, s.keys)) (show s' = _ from h)) rfl
      rw [Prod.mk.injEq] at hp
      rw [hp.1, hp.2]
      exact ⟨hI, rfl⟩)
    (by
      intro s l ht hI
      replace ht : tagOf l = .key := by simpa using ht
      have hn := fresh_not_mem ids Key.id .key _ _ hI.2 hids
      have hf : findFirst Key.id (ids .key s.keys) s.c.keys = none := findFirst_none.2 hn
      have hr : readLine E ids s l = { s with c := s.c.insertKey { keyOf l with id := ids .key s.keys }, keys := s.keys + 1 } := by
        simp only [readLine, ht, parseKey_eq]
      have hl : (readLine E ids s l).c.keys = s.c.keys ++ [{ keyOf l with id := ids .key s.keys }] := by
        rw [hr]
        simp only [Contact.insertKey, hf]
      have hc : (readLine E ids s l).keys = s.keys + 1 := by rw [hr]
      rw [hl, hc]
      refine ⟨⟨?_, ?_⟩, by rw [List.map_append]; rfl⟩
      · rw [List.map_append, List.nodup_append]
        refine ⟨hI.1, by simp, ?_⟩
        intro a ha b hb e
        simp at hb
        exact hn (by rw [← hb, ← e]; exact ha)
      · intro p hp
        rw [List.mem_append, List.mem_singleton] at hp
        rcases hp with hp | rfl
        · obtain ⟨i, hi, e⟩ := hI.2 p hp
          exact ⟨i, by omega, e⟩
        · exact ⟨s.keys, by omega, rfl⟩) L s0 (by rw [h0]; simp)
  refine ⟨?_, this.1.1⟩
  rw [this.2, show named L [q! "key"] = _ from named_eq_tags L [(q! "key", .key)] (by decide +kernel), h0, fold_flat]
  simp only [List.map_nil, List.nil_append]
  exact flat_single keyOf _

end
end KC
