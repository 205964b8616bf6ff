import Verif.Model.Labels
import Verif.Lemmas.Flags
import Verif.Props.C51
/-
  C66. Type labels of phone numbers and addresses
-/
namespace KC
namespace Spec

/-- the labels that can be parts of the label of a phone number: those of the single types and three combined ones -/
def phoneLabels (tr : Translation) : List QString :=
  phoneTypeList.map (phoneFlagLabel tr) ++ [tr [] (q! "Home Fax"), tr [] (q! "Work Fax"), tr [] (q! "Preferred Number")]

/-- A translation that does not confuse: different labels, none empty, none containing the separator. -/
structure ClearLabels (labels : List QString) : Prop where
  nodup : labels.Nodup
  plain : ∀ s ∈ labels, s ≠ [] ∧ qc! '/' ∉ s

/-- The parts of a label name a type of phone numbers: by its own label, or by one of the combined labels. -/
def NamesPhoneType (tr : Translation) (parts : List QString) (flag : Nat) : Prop :=
  phoneFlagLabel tr flag ∈ parts ∨ ((flag = 1 ∨ flag = 32) ∧ tr [] (q! "Home Fax") ∈ parts) ∨
    ((flag = 2 ∨ flag = 32) ∧ tr [] (q! "Work Fax") ∈ parts) ∨ (flag = 8 ∧ tr [] (q! "Preferred Number") ∈ parts)

/-- The types of phone numbers: number, context for the translators, English label. -/
def phoneWords : List (Nat × QString × QString) :=
  [(2 ^ 0, q! "Home phone", q! "Home"), (2 ^ 1, q! "Work phone", q! "Work"), (2 ^ 2, [], q! "Messenger"), (2 ^ 3, q! "Preferred phone", q! "Preferred"),
   (2 ^ 4, [], q! "Voice"), (2 ^ 5, [], q! "Fax"), (2 ^ 6, q! "Mobile Phone", q! "Mobile"), (2 ^ 7, q! "Video phone", q! "Video"), (2 ^ 8, [], q! "Mailbox"),
   (2 ^ 9, [], q! "Modem"), (2 ^ 10, q! "Car Phone", q! "Car"), (2 ^ 11, [], q! "ISDN"), (2 ^ 12, [], q! "PCS"), (2 ^ 13, [], q! "Pager"),
   (2 ^ 14, q! "Undefined phone type", q! "Telephone number")]

/-- The types of addresses. -/
def addressWords : List (Nat × QString × QString) :=
  [(2 ^ 0, q! "Address is in home country", q! "Domestic"), (2 ^ 1, q! "Address is not in home country", q! "International"),
   (2 ^ 2, q! "Address for delivering letters", q! "Postal"), (2 ^ 3, q! "Address for delivering packages", q! "Parcel"),
   (2 ^ 4, q! "Home Address", q! "Home"), (2 ^ 5, q! "Work Address", q! "Work"), (2 ^ 6, [], q! "Preferred Address")]

/-- The label of a single type; "Other" for a number that is none. -/
def kindLabel (kinds : List (Nat × QString × QString)) (others : QString) (tr : Translation) (flag : Nat) : QString :=
  match kinds.find? fun k => k.1 = flag with
  | some k => tr k.2.1 k.2.2
  | none => tr others (q! "Other")

end Spec
open Spec

/-! ### Lists of labels -/

theorem map_nodup_inj {α β : Type} {f : α → β} {l : List α} (h : (l.map f).Nodup) {a b : α} (ha : a ∈ l) (hb : b ∈ l) (e : f a = f b) : a = b := by
  induction l with
  | nil => cases ha
  | cons x l ih =>
    rw [List.map_cons, List.nodup_cons] at h
    rcases List.mem_cons.1 ha with rfl | ha'
    · rcases List.mem_cons.1 hb with rfl | hb'
      · rfl
      · exact absurd (e ▸ List.mem_map_of_mem hb') h.1
    · rcases List.mem_cons.1 hb with rfl | hb'
      · exact absurd (e ▸ List.mem_map_of_mem ha') h.1
      · exact ih h.2 ha' hb'


theorem phone_fold (tr : Translation) (type : Nat) (fs : List Nat) (parts : List QString) :
    (fs.foldl (phoneLabelStep tr type) (join [qc! '/'] parts, decide (parts = []))) =
      (join [qc! '/'] (parts ++ (fs.filter fun f => type &&& f ≠ 0).map (phoneFlagLabel tr)),
       decide (parts ++ (fs.filter fun f => type &&& f ≠ 0).map (phoneFlagLabel tr) = [])) := by
  have snoc : ∀ (parts : List QString) (x : QString), join [qc! '/'] (parts ++ [x]) = (if parts = [] then join [qc! '/'] parts else join [qc! '/'] parts ++ [qc! '/']) ++ x := by
    intro parts x
    induction parts with
    | nil => rfl
    | cons p parts ih =>
      cases parts with
      | nil => simp [join]
      | cons q parts =>
        have e : ∀ l, join [qc! '/'] (p :: q :: l) = p ++ [qc! '/'] ++ join [qc! '/'] (q :: l) := fun _ => rfl
        simp only [List.cons_append, e] at ih ⊢
        rw [ih]
        simp
  induction fs generalizing parts with
  | nil => simp
  | cons f fs ih =>
    rw [List.foldl_cons]
    by_cases hf : type &&& f ≠ 0
    · have := ih (parts ++ [phoneFlagLabel tr f])
      rw [List.filter_cons_of_pos (by simpa using hf), List.map_cons]
      rw [List.append_assoc, List.cons_append, List.nil_append] at this
      rw [← this]
      congr 1
      unfold phoneLabelStep
      rw [if_pos hf, snoc]
      by_cases hp : parts = [] <;> simp [hp]
    · rw [List.filter_cons_of_neg (by simpa using hf), ← ih]
      congr 1
      unfold phoneLabelStep
      rw [if_neg hf]

/-- the parts of the label -/
def phoneParts (tr : Translation) (t : Nat) : List QString :=
  if t = 8 then [tr [] (q! "Preferred Number")]
  else if t &&& 32 ≠ 0 ∧ t &&& 1 ≠ 0 then
    tr [] (q! "Home Fax") :: (phoneTypeList.filter fun f => clearFlags (clearFlags t 32) 1 &&& f ≠ 0).map (phoneFlagLabel tr)
  else if t &&& 32 ≠ 0 ∧ t &&& 2 ≠ 0 then
    tr [] (q! "Work Fax") :: (phoneTypeList.filter fun f => clearFlags (clearFlags t 32) 2 &&& f ≠ 0).map (phoneFlagLabel tr)
  else (phoneTypeList.filter fun f => t &&& f ≠ 0).map (phoneFlagLabel tr)

theorem phoneTypeLabel_parts (tr : Translation) (t : Nat) : phoneTypeLabel tr t = join [qc! '/'] (phoneParts tr t) := by
  unfold phoneTypeLabel phoneParts
  split
  · rfl
  · unfold phoneLabelStart
    by_cases h32 : t &&& 32 ≠ 0
    · rw [if_pos h32]
      by_cases h1 : t &&& 1 ≠ 0
      · rw [if_pos h1, if_pos ⟨h32, h1⟩]
        exact congrArg Prod.fst (phone_fold tr (clearFlags (clearFlags t 32) 1) phoneTypeList [tr [] (q! "Home Fax")])
      · rw [if_neg h1, if_neg (fun h : t &&& 32 ≠ 0 ∧ t &&& 1 ≠ 0 => h1 h.2)]
        by_cases h2 : t &&& 2 ≠ 0
        · rw [if_pos h2, if_pos ⟨h32, h2⟩]
          exact congrArg Prod.fst (phone_fold tr (clearFlags (clearFlags t 32) 2) phoneTypeList [tr [] (q! "Work Fax")])
        · rw [if_neg h2, if_neg (fun h : t &&& 32 ≠ 0 ∧ t &&& 2 ≠ 0 => h2 h.2)]
          exact congrArg Prod.fst (phone_fold tr t phoneTypeList [])
    · rw [if_neg h32, if_neg (fun h : t &&& 32 ≠ 0 ∧ t &&& 1 ≠ 0 => h32 h.1), if_neg (fun h : t &&& 32 ≠ 0 ∧ t &&& 2 ≠ 0 => h32 h.1)]
      exact congrArg Prod.fst (phone_fold tr t phoneTypeList [])

theorem clear_and {t m k : Nat} (hm : (0xFFFFFFFF ^^^ m).testBit k = b) : (clearFlags t m).testBit k = (t.testBit k && b) := by
  unfold clearFlags; rw [Nat.testBit_and, hm]

theorem flag_pow : ∀ f ∈ phoneTypeList, ∃ k < 15, f = 2 ^ k := by decide

theorem has_flag (t k : Nat) : (t &&& 2 ^ k ≠ 0) ↔ t.testBit k = true := and_pow_ne_zero t k

theorem cleared (t m : Nat) {k : Nat} (hk : k < 15) (hm : m = 1 ∨ m = 2) :
    (clearFlags (clearFlags t 32) m &&& 2 ^ k ≠ 0) ↔ (t &&& 2 ^ k ≠ 0 ∧ k ≠ 5 ∧ 2 ^ k ≠ m) := by
  rw [has_flag, has_flag]
  unfold clearFlags
  rw [Nat.testBit_and, Nat.testBit_and, Bool.and_eq_true, Bool.and_eq_true, and_assoc]
  apply and_congr_right
  intro _
  have h1 : ∀ k : Fin 15, (0xFFFFFFFF ^^^ 32 : Nat).testBit k.val = true ↔ k.val ≠ 5 := by decide
  have h2 : ∀ k : Fin 15, (0xFFFFFFFF ^^^ 1 : Nat).testBit k.val = true ↔ 2 ^ k.val ≠ 1 := by decide
  have h3 : ∀ k : Fin 15, (0xFFFFFFFF ^^^ 2 : Nat).testBit k.val = true ↔ 2 ^ k.val ≠ 2 := by decide
  rw [h1 ⟨k, hk⟩]
  apply and_congr_right
  intro _
  rcases hm with rfl | rfl
  · exact h2 ⟨k, hk⟩
  · exact h3 ⟨k, hk⟩

section
variable {tr : Translation} (h : ClearLabels (phoneLabels tr))
include h

theorem label_inj {f g : Nat} (hf : f ∈ phoneTypeList) (hg : g ∈ phoneTypeList) (e : phoneFlagLabel tr f = phoneFlagLabel tr g) : f = g := by
  have hn := (List.nodup_append.1 h.nodup).1
  exact map_nodup_inj hn hf hg e

theorem label_special {f : Nat} (hf : f ∈ phoneTypeList) : phoneFlagLabel tr f ≠ tr [] (q! "Home Fax") ∧ phoneFlagLabel tr f ≠ tr [] (q! "Work Fax") ∧
    phoneFlagLabel tr f ≠ tr [] (q! "Preferred Number") := by
  have hn := (List.nodup_append.1 h.nodup).2.2
  refine ⟨?_, ?_, ?_⟩ <;> exact hn _ (List.mem_map_of_mem hf) _ (by simp)

theorem special_special : tr [] (q! "Home Fax") ≠ tr [] (q! "Work Fax") ∧ tr [] (q! "Home Fax") ≠ tr [] (q! "Preferred Number") ∧
    tr [] (q! "Work Fax") ≠ tr [] (q! "Preferred Number") := by
  have hn := (List.nodup_append.1 h.nodup).2.1
  simp only [List.nodup_cons, List.mem_cons, List.not_mem_nil, or_false, not_or] at hn
  exact ⟨hn.1.1, hn.1.2, hn.2.1⟩

theorem mem_labels {P : Nat → Bool} {f : Nat} (hf : f ∈ phoneTypeList) : phoneFlagLabel tr f ∈ (phoneTypeList.filter P).map (phoneFlagLabel tr) ↔ P f = true := by
  rw [List.mem_map]
  constructor
  · rintro ⟨g, hg, e⟩
    rw [List.mem_filter] at hg
    rw [label_inj h hf hg.1 e.symm]
    exact hg.2
  · intro hp
    exact ⟨f, List.mem_filter.2 ⟨hf, hp⟩, rfl⟩

theorem special_not_mem {P : Nat → Bool} : tr [] (q! "Home Fax") ∉ (phoneTypeList.filter P).map (phoneFlagLabel tr) ∧
    tr [] (q! "Work Fax") ∉ (phoneTypeList.filter P).map (phoneFlagLabel tr) ∧ tr [] (q! "Preferred Number") ∉ (phoneTypeList.filter P).map (phoneFlagLabel tr) := by
  refine ⟨?_, ?_, ?_⟩ <;>
  · intro hm
    obtain ⟨g, hg, e⟩ := List.mem_map.1 hm
    have := label_special h (List.mem_filter.1 hg).1
    simp_all

theorem parts_name (t : Nat) (f : Nat) (hf : f ∈ phoneTypeList) : NamesPhoneType tr (phoneParts tr t) f ↔ t &&& f ≠ 0 := by
  obtain ⟨l1, l2, l3⟩ := label_special h hf
  obtain ⟨s1, s2, s3⟩ := special_special h
  obtain ⟨k, hk, rfl⟩ := flag_pow f hf
  have k1 : (2 ^ k = 1 ↔ k = 0) := by
    have : ∀ k : Fin 15, (2 ^ k.val = 1 ↔ k.val = 0) := by decide
    exact this ⟨k, hk⟩
  have k2 : (2 ^ k = 2 ↔ k = 1) := by
    have : ∀ k : Fin 15, (2 ^ k.val = 2 ↔ k.val = 1) := by decide
    exact this ⟨k, hk⟩
  have k8 : (2 ^ k = 8 ↔ k = 3) := by
    have : ∀ k : Fin 15, (2 ^ k.val = 8 ↔ k.val = 3) := by decide
    exact this ⟨k, hk⟩
  have k32 : (2 ^ k = 32 ↔ k = 5) := by
    have : ∀ k : Fin 15, (2 ^ k.val = 32 ↔ k.val = 5) := by decide
    exact this ⟨k, hk⟩
  unfold NamesPhoneType phoneParts
  split
  · rename_i ht
    subst ht
    have h8 : ∀ k : Fin 15, (8 &&& 2 ^ k.val ≠ 0) ↔ k.val = 3 := by decide
    rw [h8 ⟨k, hk⟩, k8]
    simp [l3, s2, s3]
  · split
    · rename_i _ hc
      obtain ⟨n1, n2, n3⟩ := special_not_mem h (P := fun f => decide (clearFlags (clearFlags t 32) 1 &&& f ≠ 0))
      simp only [List.mem_cons, l1, false_or, n2, n3, or_false, Ne.symm s1, Ne.symm s2, and_false, true_or, and_true]
      rw [mem_labels h hf, decide_eq_true_eq, cleared t 1 hk (.inl rfl), k1, k32]
      constructor
      · rintro (a | a | a)
        · exact a.1
        · subst a; exact hc.2
        · subst a; exact hc.1
      · intro a
        by_cases e5 : k = 5
        · exact .inr (.inr e5)
        · by_cases e0 : k = 0
          · exact .inr (.inl e0)
          · exact .inl ⟨a, e5, fun e => e0 (k1.1 e)⟩
    · rename_i hn8 hn1
      split
      · rename_i hc
        obtain ⟨n1, n2, n3⟩ := special_not_mem h (P := fun f => decide (clearFlags (clearFlags t 32) 2 &&& f ≠ 0))
        simp only [List.mem_cons, l2, false_or, n1, n3, or_false, s1, Ne.symm s3, and_false, true_or, and_true]
        rw [mem_labels h hf, decide_eq_true_eq, cleared t 2 hk (.inr rfl), k2, k32]
        constructor
        · rintro (a | a | a)
          · exact a.1
          · subst a; exact hc.2
          · subst a; exact hc.1
        · intro a
          by_cases e5 : k = 5
          · exact .inr (.inr e5)
          · by_cases e0 : k = 1
            · exact .inr (.inl e0)
            · exact .inl ⟨a, e5, fun e => e0 (k2.1 e)⟩
      · obtain ⟨n1, n2, n3⟩ := special_not_mem h (P := fun f => decide (t &&& f ≠ 0))
        simp only [n1, n2, n3, and_false, or_false]
        rw [mem_labels h hf, decide_eq_true_eq]

theorem parts_sub (t : Nat) : ∀ s ∈ phoneParts tr t, s ∈ phoneLabels tr := by
  have hm : ∀ P : Nat → Bool, ∀ s ∈ (phoneTypeList.filter P).map (phoneFlagLabel tr), s ∈ phoneLabels tr := by
    intro P s hs
    obtain ⟨f, hf, rfl⟩ := List.mem_map.1 hs
    exact List.mem_append.2 (.inl (List.mem_map_of_mem (List.mem_filter.1 hf).1))
  intro s hs
  unfold phoneParts at hs
  split at hs
  · rw [List.mem_singleton] at hs; subst hs; simp [phoneLabels]
  · split at hs
    · rcases List.mem_cons.1 hs with rfl | hs
      · simp [phoneLabels]
      · exact hm _ s hs
    · split at hs
      · rcases List.mem_cons.1 hs with rfl | hs
        · simp [phoneLabels]
        · exact hm _ s hs
      · exact hm _ s hs

theorem parts_nodup (t : Nat) : (phoneParts tr t).Nodup := by
  have hm : ∀ P : Nat → Bool, ((phoneTypeList.filter P).map (phoneFlagLabel tr)).Nodup := by
    intro P
    exact (List.nodup_append.1 h.nodup).1.sublist (List.filter_sublist.map _)
  unfold phoneParts
  split
  · simp
  · split
    · exact List.nodup_cons.2 ⟨(special_not_mem h).1, hm _⟩
    · split
      · exact List.nodup_cons.2 ⟨(special_not_mem h).2.1, hm _⟩
      · exact hm _

end

/-- **C66.** The label of a set of phone types consists of parts separated by '/'; no part occurs twice, and the parts name exactly the types
    of the set. -/
theorem C66_phone (tr : Translation) (h : ClearLabels (phoneLabels tr)) (t : Nat) :
    ∃ parts : List QString, phoneTypeLabel tr t = join [qc! '/'] parts ∧ parts.Nodup ∧ (∀ s ∈ parts, s ∈ phoneLabels tr) ∧
      ∀ flag ∈ phoneTypeList, NamesPhoneType tr parts flag ↔ t &&& flag ≠ 0 :=
  ⟨phoneParts tr t, phoneTypeLabel_parts tr t, parts_nodup h t, parts_sub h t, fun f hf => parts_name h t f hf⟩

theorem join_inj {a b : List QString} (ha : ∀ s ∈ a, s ≠ [] ∧ qc! '/' ∉ s) (hb : ∀ s ∈ b, s ≠ [] ∧ qc! '/' ∉ s)
    (e : join [qc! '/'] a = join [qc! '/'] b) : a = b := by
  have nz : ∀ l : List QString, (∀ s ∈ l, s ≠ [] ∧ qc! '/' ∉ s) → l ≠ [] → join [qc! '/'] l ≠ [] := by
    intro l hl hne
    cases l with
    | nil => exact absurd rfl hne
    | cons x l =>
      cases l with
      | nil => exact (hl x (by simp)).1
      | cons y l => simp [join]
  by_cases ea : a = []
  · subst ea
    by_cases eb : b = []
    · exact eb.symm
    · exact absurd e.symm (nz b hb eb)
  · by_cases eb : b = []
    · subst eb; exact absurd e (nz a ha ea)
    · rw [← splitOn_join ea fun s hs => (ha s hs).2, ← splitOn_join eb fun s hs => (hb s hs).2, e]

theorem eq_of_flags {n t t' : Nat} (ht : t < 2 ^ n) (ht' : t' < 2 ^ n) (h : ∀ k < n, (t &&& 2 ^ k ≠ 0) ↔ t' &&& 2 ^ k ≠ 0) : t = t' := by
  apply Nat.eq_of_testBit_eq
  intro k
  by_cases hk : k < n
  · have := h k hk
    rw [has_flag, has_flag] at this
    exact Bool.eq_iff_iff.2 this
  · have hle : 2 ^ n ≤ 2 ^ k := Nat.pow_le_pow_right (by decide) (by omega)
    rw [Nat.testBit_lt_two_pow (by omega), Nat.testBit_lt_two_pow (by omega)]

/-- **C66.** Different sets of phone types have different labels. -/
theorem C66_phone_distinct (tr : Translation) (h : ClearLabels (phoneLabels tr)) (t t' : Nat) (ht : t < 32768) (ht' : t' < 32768) :
    phoneTypeLabel tr t = phoneTypeLabel tr t' ↔ t = t' := by
  refine ⟨fun e => ?_, fun e => e ▸ rfl⟩
  rw [phoneTypeLabel_parts, phoneTypeLabel_parts] at e
  have hp := join_inj (fun s hs => h.plain s (parts_sub h t s hs)) (fun s hs => h.plain s (parts_sub h t' s hs)) e
  refine eq_of_flags (n := 15) ht ht' fun k hk => ?_
  have hf : 2 ^ k ∈ phoneTypeList := by
    have : ∀ k : Fin 15, 2 ^ k.val ∈ phoneTypeList := by decide
    exact this ⟨k, hk⟩
  rw [← parts_name h t _ hf, ← parts_name h t' _ hf, hp]

/-! ### Addresses -/

theorem slash_fold (P : Nat → Prop) [DecidablePred P] (f : Nat → QString) (fs : List Nat) (acc : QString) :
    fs.foldl (fun label flag => if P flag then label ++ (qc! '/' :: f flag) else label) acc = acc ++ ((fs.filter P).map f).flatMap (qc! '/' :: ·) := by
  induction fs generalizing acc with
  | nil => simp
  | cons x fs ih =>
    rw [List.foldl_cons, ih]
    by_cases hx : P x
    · rw [if_pos hx, List.filter_cons_of_pos (by simpa using hx)]; simp
    · rw [if_neg hx, List.filter_cons_of_neg (by simpa using hx)]

theorem drop_slash (l : List QString) : (if l.flatMap (qc! '/' :: ·) ≠ [] then (l.flatMap (qc! '/' :: ·)).drop 1 else l.flatMap (qc! '/' :: ·)) = join [qc! '/'] l := by
  cases l with
  | nil => rfl
  | cons x l =>
    rw [if_pos (by simp)]
    show x ++ l.flatMap (qc! '/' :: ·) = _
    induction l generalizing x with
    | nil => simp [join]
    | cons y l ih =>
      have e : join [qc! '/'] (x :: y :: l) = x ++ [qc! '/'] ++ join [qc! '/'] (y :: l) := rfl
      rw [e, ← ih y]
      simp

theorem addressTypeLabel_eq (tr : Translation) (t : Nat) : addressTypeLabel tr t = join [qc! '/'] ((addressTypeList.filter fun f => t &&& f ≠ 0).map (addressFlagLabel tr)) := by
  unfold addressTypeLabel
  rw [← drop_slash]
  rw [slash_fold (fun f => t &&& f ≠ 0) (addressFlagLabel tr)]
  rfl

/-- **C66.** The label of a set of address types names each type of the set once, in a fixed order, and nothing else. -/
theorem C66_address (tr : Translation) (t : Nat) :
    addressTypeLabel tr t = join [qc! '/'] (([1, 2, 4, 8, 16, 32, 64].filter fun f => t &&& f ≠ 0).map (addressFlagLabel tr)) := addressTypeLabel_eq tr t

/-- **C66.** Different sets of address types have different labels. -/
theorem C66_address_distinct (tr : Translation) (h : ClearLabels (addressTypeList.map (addressFlagLabel tr))) (t t' : Nat) (ht : t < 128) (ht' : t' < 128) :
    addressTypeLabel tr t = addressTypeLabel tr t' ↔ t = t' := by
  refine ⟨fun e => ?_, fun e => e ▸ rfl⟩
  have hs : ∀ t, ∀ s ∈ (addressTypeList.filter fun f => t &&& f ≠ 0).map (addressFlagLabel tr), s ≠ [] ∧ qc! '/' ∉ s := by
    intro t s hs
    obtain ⟨f, hf, rfl⟩ := List.mem_map.1 hs
    exact h.plain _ (List.mem_map_of_mem (List.mem_filter.1 hf).1)
  rw [addressTypeLabel_eq, addressTypeLabel_eq] at e
  have hp := join_inj (hs t) (hs t') e
  refine eq_of_flags (n := 7) ht ht' fun k hk => ?_
  have hf : 2 ^ k ∈ addressTypeList := by
    have : ∀ k : Fin 7, 2 ^ k.val ∈ addressTypeList := by decide
    exact this ⟨k, hk⟩
  have hm : ∀ t, addressFlagLabel tr (2 ^ k) ∈ (addressTypeList.filter fun f => t &&& f ≠ 0).map (addressFlagLabel tr) ↔ t &&& 2 ^ k ≠ 0 := by
    intro t
    rw [List.mem_map]
    constructor
    · rintro ⟨g, hg, e⟩
      rw [List.mem_filter] at hg
      rw [← map_nodup_inj h.nodup hg.1 hf e]
      simpa using hg.2
    · intro hp
      exact ⟨2 ^ k, List.mem_filter.2 ⟨hf, by simpa using hp⟩, rfl⟩
  rw [← hm t, ← hm t', hp]

/-- **C66 is false** for the label of an address object: it does not tell that the address is preferred. -/
theorem C66_address_object_false : ∃ a b : Address, a.type ≠ b.type ∧ a.type < 128 ∧ b.type < 128 ∧ ∀ tr, a.typeLabel tr = b.typeLabel tr :=
  ⟨{ id := [], type := 16 }, { id := [], type := 80 }, by decide, by decide, by decide, fun _ => rfl⟩

/-- **C66.** The label of an address object is the label of its types without "preferred". -/
theorem C66_address_object_partial (tr : Translation) (a : Address) : a.typeLabel tr = addressTypeLabel tr (clearFlags a.type 64) := by
  rw [addressTypeLabel_eq]
  unfold Address.typeLabel
  have hs := slash_fold (fun f => a.type &&& f ≠ 0 ∧ f ≠ 64) (fun f => addressTypeLabel tr f) addressTypeList []
  simp only at hs ⊢
  rw [hs, List.nil_append, drop_slash]
  congr 1
  have hone : ∀ f ∈ addressTypeList, addressTypeLabel tr f = addressFlagLabel tr f := by
    intro f hf
    rw [addressTypeLabel_eq]
    have : ∀ f ∈ addressTypeList, (addressTypeList.filter fun g => f &&& g ≠ 0) = [f] := by decide
    rw [this f hf]
    rfl
  have hfl : (addressTypeList.filter fun f => decide (a.type &&& f ≠ 0 ∧ f ≠ 64)) = addressTypeList.filter fun f => clearFlags a.type 64 &&& f ≠ 0 := by
    apply List.filter_congr
    intro f hf
    have hp : ∀ f ∈ addressTypeList, ∃ k : Fin 7, f = 2 ^ k.val := by decide
    obtain ⟨k, rfl⟩ := hp f hf
    rw [decide_eq_decide, has_flag, has_flag]
    unfold clearFlags
    rw [Nat.testBit_and, Bool.and_eq_true]
    apply and_congr_right
    intro _
    have : ∀ k : Fin 7, (2 ^ k.val ≠ 64 ↔ (0xFFFFFFFF ^^^ 64 : Nat).testBit k.val = true) := by decide
    exact this k
  rw [hfl]
  apply List.map_congr_left
  intro f hf
  exact hone f (List.mem_filter.1 hf).1

/-! ### The single labels -/

private theorem label_cons (flag a : Nat) (c t o : QString) (r : List (Nat × QString × QString)) (tr : Translation) :
    kindLabel ((a, c, t) :: r) o tr flag = if flag = a then tr c t else kindLabel r o tr flag := by
  unfold kindLabel
  rw [List.find?_cons]
  by_cases h : a = flag
  · simp [h]
  · have h' : ¬ flag = a := fun e => h e.symm
    simp [h, h']

/-- **C66.** Each type of phone numbers has its own label, given in the table; a number that is no type is labelled "Other". -/
theorem C66_phone_words (tr : Translation) : phoneTypeList = phoneWords.map (·.1) ∧ ∀ flag, phoneFlagLabel tr flag = kindLabel phoneWords (q! "another type of phone") tr flag := by
  refine ⟨by decide, fun flag => ?_⟩
  by_cases hu : flag = 16384
  · subst hu; rfl
  · unfold phoneFlagLabel phoneWords
    rw [if_neg hu]
    simp only [label_cons, Nat.reducePow]
    rw [if_neg hu]
    rfl

/-- **C66.** The same for addresses. -/
theorem C66_address_words (tr : Translation) : addressTypeList = addressWords.map (·.1) ∧ ∀ flag, addressFlagLabel tr flag = kindLabel addressWords (q! "another type of address") tr flag := by
  refine ⟨by decide, fun flag => ?_⟩
  unfold addressFlagLabel addressWords
  simp only [label_cons, Nat.reducePow]
  rfl

/-- **C66.** A phone number is preferred when its label says so, and it takes short messages when its label says "mobile". -/
theorem C66_phone_is (tr : Translation) (h : ClearLabels (phoneLabels tr)) (p : PhoneNumber) :
    (p.isPreferred = p.type.testBit 3 ∧ p.supportsSms = p.type.testBit 6) ∧
    ∃ parts : List QString, phoneTypeLabel tr p.type = join [qc! '/'] parts ∧ (p.isPreferred = true ↔ NamesPhoneType tr parts (2 ^ 3)) ∧
      (p.supportsSms = true ↔ NamesPhoneType tr parts (2 ^ 6)) := by
  obtain ⟨parts, h1, _, _, h4⟩ := C66_phone tr h p.type
  have e3 : p.isPreferred = decide (p.type &&& 2 ^ 3 ≠ 0) := rfl
  have e6 : p.supportsSms = decide (p.type &&& 2 ^ 6 ≠ 0) := rfl
  refine ⟨⟨?_, ?_⟩, parts, h1, ?_, ?_⟩
  · rw [e3, Bool.eq_iff_iff, decide_eq_true_eq, has_flag]
  · rw [e6, Bool.eq_iff_iff, decide_eq_true_eq, has_flag]
  · rw [h4 _ (by decide), e3, decide_eq_true_eq]
  · rw [h4 _ (by decide), e6, decide_eq_true_eq]

/-- **C66.** A web address with a single type is labelled by this type, one with no type or with several as "Other". With a translation that does not confuse,
    the label therefore says which of the three types a web address has, if it is the only one. -/
theorem C66_url (tr : Translation) (u : ParamUrl) (t : Nat) (ht : t < 128) :
    (u.setType t).resourceLabel tr = tr [] (if t = 1 then q! "Home" else if t = 2 then q! "Work" else if t = 4 then q! "Profile" else q! "Other") := by
  unfold ParamUrl.resourceLabel
  rw [C51_url_type u t ht]
  split
  · rfl
  · split
    · rfl
    · split <;> rfl

/-- **C66** is false for web addresses: one for home and work is labelled like one that has neither type. -/
theorem C66_url_false (tr : Translation) (u : ParamUrl) : (u.setType 3).resourceLabel tr = (u.setType 0).resourceLabel tr := by
  rw [C66_url tr u 3 (by decide), C66_url tr u 0 (by decide)]
  rfl

/-! ### Instances -/

/-- the untranslated texts -/
def noTranslation : Translation := fun _ text => text

example : ClearLabels (phoneLabels noTranslation) := ⟨by decide, by decide⟩
example : ClearLabels (addressTypeList.map (addressFlagLabel noTranslation)) := ⟨by decide, by decide⟩
example : phoneTypeLabel noTranslation (1 ||| 2 ||| 8 ||| 32) = q! "Home Fax/Work/Preferred" := by decide +kernel
example : phoneTypeLabel noTranslation 8 = q! "Preferred Number" := by decide +kernel
example : addressTypeLabel noTranslation (4 ||| 32 ||| 64) = q! "Postal/Work/Preferred Address" := by decide +kernel
example : ({ id := [], number := q! "1", type := 72 } : PhoneNumber).supportsSms = true ∧
    phoneTypeLabel noTranslation 72 = q! "Preferred/Mobile" := by decide +kernel
example : (({ url := q! "http://a.b", params := [(q! "type", [q! "WORK"])] } : ParamUrl).setType 4).resourceLabel noTranslation = q! "Profile" := by decide +kernel
example : ({ id := [], type := 64 } : Address).typeLabel noTranslation = [] := by decide +kernel

end KC
