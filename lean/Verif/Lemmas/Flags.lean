import Verif.Lemmas.TypeParam
import Verif.Props.C32
/- Helper lemmas: flag sets as lists of names. -/
namespace KC
open Spec

theorem flag_part (k t : Nat) : (if 2 ^ k &&& t ≠ 0 then 2 ^ k else 0) = 2 ^ k &&& t := by
  apply Nat.eq_of_testBit_eq
  intro i
  have h := and_pow_ne_zero t k
  rw [Nat.and_comm] at h
  by_cases hk : 2 ^ k &&& t ≠ 0
  · rw [if_pos hk, Nat.testBit_and, Nat.testBit_two_pow]
    have := h.1 hk
    by_cases e : k = i
    · subst e; simp [this]
    · simp [e]
  · rw [if_neg hk]; rw [not_not] at hk; rw [hk]

theorem types_fold (table : List (QString × Nat)) (f : QString → Nat) (hf : ∀ i ∈ table, f i.1 = i.2) (hp : ∀ i ∈ table, ∃ k, i.2 = 2 ^ k) (t acc : Nat) :
    (typeNames table t).foldl (fun a s => a ||| f s) acc = acc ||| (t &&& table.foldr (fun i a => i.2 ||| a) 0) := by
  induction table generalizing acc with
  | nil => simp [typeNames]
  | cons i table ih =>
    have ih := ih (fun j hj => hf j (List.mem_cons_of_mem _ hj)) (fun j hj => hp j (List.mem_cons_of_mem _ hj))
    obtain ⟨k, hk⟩ := hp i (by simp)
    have h1 := hf i (by simp)
    have hfl := flag_part k t
    rw [List.foldr_cons, Nat.and_or_distrib_left, ← Nat.or_assoc, Nat.and_comm t i.2, hk, ← hfl]
    by_cases hc : i.2 &&& t ≠ 0
    · have : typeNames (i :: table) t = i.1 :: typeNames table t := by
        unfold typeNames; rw [List.filter_cons_of_pos (by simpa using hc)]; rfl
      rw [this, List.foldl_cons, ih, h1, if_pos (by rw [← hk]; exact hc), hk]
    · have : typeNames (i :: table) t = typeNames table t := by
        unfold typeNames; rw [List.filter_cons_of_neg (by simpa using hc)]
      rw [this, ih, if_neg (by rw [← hk]; exact hc), Nat.or_zero]

theorem typeNames_mem {table : List (QString × Nat)} {t : Nat} {n : QString} (h : n ∈ typeNames table t) : ∃ i ∈ table, n = i.1 := by
  unfold typeNames at h
  obtain ⟨i, hi, rfl⟩ := List.mem_map.1 h
  exact ⟨i, (List.mem_filter.1 hi).1, rfl⟩

theorem typeNames_sublist (table : List (QString × Nat)) (t : Nat) : (typeNames table t).Sublist (table.map (·.1)) :=
  (List.filter_sublist).map _

theorem address_asc (t : Nat) : (typeNames addressTypes t).Pairwise (fun a b => qlt a b = true) :=
  List.Pairwise.sublist (typeNames_sublist _ t) (by decide)
theorem phone_asc (t : Nat) : (typeNames phoneTypes t).Pairwise (fun a b => qlt a b = true) :=
  List.Pairwise.sublist (typeNames_sublist _ t) (by decide)

theorem asc_nodup {l : List QString} (h : l.Pairwise (fun a b => qlt a b = true)) : l.Nodup := by
  refine h.imp ?_
  intro a b hab e
  rw [e, qlt_irrefl] at hab; cases hab

theorem address_typeNames (t : Nat) : ∀ n ∈ typeNames addressTypes t, TypeName n := by
  intro n hn
  obtain ⟨i, hi, rfl⟩ := typeNames_mem hn
  have : ∀ i ∈ addressTypes, TypeName i.1 := by decide
  exact this i hi
theorem phone_typeNames (t : Nat) : ∀ n ∈ typeNames phoneTypes t, TypeName n := by
  intro n hn
  obtain ⟨i, hi, rfl⟩ := typeNames_mem hn
  have : ∀ i ∈ phoneTypes, TypeName i.1 := by decide
  exact this i hi
theorem phone_typeNames_lower (t : Nat) : ∀ n ∈ (typeNames phoneTypes t).map toLowerQ, TypeName n := by
  intro n hn
  obtain ⟨m, hm, rfl⟩ := List.mem_map.1 hn
  obtain ⟨i, hi, rfl⟩ := typeNames_mem hm
  have : ∀ i ∈ phoneTypes, TypeName (toLowerQ i.1) := by decide
  exact this i hi

theorem address_pow : ∀ i ∈ addressTypes, ∃ k, i.2 = 2 ^ k := by
  have : ∀ i ∈ addressTypes, ∃ k ∈ List.range 8, i.2 = 2 ^ k := by decide
  intro i hi
  obtain ⟨k, _, h⟩ := this i hi
  exact ⟨k, h⟩
theorem phone_pow : ∀ i ∈ phoneTypes, ∃ k, i.2 = 2 ^ k := by
  have : ∀ i ∈ phoneTypes, ∃ k ∈ List.range 15, i.2 = 2 ^ k := by decide
  intro i hi
  obtain ⟨k, _, h⟩ := this i hi
  exact ⟨k, h⟩

/-- the flags of an address from the names as read -/
theorem address_flags (v : Version) (t : Nat) :
    (distinct (typesRead v (typeNames addressTypes t))).foldl (fun a s => a ||| stringToAddressType (toLowerQ s)) 0 = t &&& 127 := by
  have hmask : addressTypes.foldr (fun i a => i.2 ||| a) 0 = 127 := by decide
  cases v with
  | v2_1 =>
    simp only [typesRead]
    have hnd : ((typeNames addressTypes t).map toUpperQ).Nodup :=
      List.Nodup.sublist ((typeNames_sublist addressTypes t).map toUpperQ) (by decide)
    rw [distinct_of_nodup _ hnd, List.foldl_map, types_fold addressTypes _ (by decide) address_pow, hmask]
    simp
  | v3_0 =>
    simp only [typesRead]
    split
    · rename_i e
      have := types_fold addressTypes (fun s => stringToAddressType (toLowerQ s)) (by decide) address_pow t 0
      rw [e, hmask] at this
      simp at this
      rw [← this]; decide
    · rw [distinct_of_nodup _ (asc_nodup (address_asc t)), types_fold addressTypes _ (by decide) address_pow, hmask]; simp
  | v4_0 =>
    simp only [typesRead]
    split
    · rename_i e
      have := types_fold addressTypes (fun s => stringToAddressType (toLowerQ s)) (by decide) address_pow t 0
      rw [e, hmask] at this
      simp at this
      rw [← this]; decide
    · rw [distinct_of_nodup _ (asc_nodup (address_asc t)), types_fold addressTypes _ (by decide) address_pow, hmask]; simp

/-- the names under which the types of a phone number are written -/
def phoneNames (v : Version) (t : Nat) : List QString := if v = .v4_0 then (typeNames phoneTypes t).map toLowerQ else typeNames phoneTypes t

theorem phoneNames_ok (v : Version) (t : Nat) : ∀ n ∈ phoneNames v t, TypeName n := by
  unfold phoneNames
  split
  · exact phone_typeNames_lower t
  · exact phone_typeNames t

theorem phoneNames_asc (v : Version) (t : Nat) : (phoneNames v t).Pairwise (fun a b => qlt a b = true) := by
  unfold phoneNames
  split
  · exact List.Pairwise.sublist ((typeNames_sublist _ t).map toLowerQ) (by decide)
  · exact phone_asc t

theorem phoneNames_read (v : Version) (t : Nat) (hne : phoneNames v t ≠ []) : typesRead v (phoneNames v t) = phoneNames v t := by
  cases v with
  | v2_1 =>
    simp only [typesRead]
    conv => rhs; rw [← List.map_id (phoneNames Version.v2_1 t)]
    apply List.map_congr_left
    intro n hn
    obtain ⟨i, hi, rfl⟩ := typeNames_mem (show n ∈ typeNames phoneTypes t from hn)
    have : ∀ i ∈ phoneTypes, toUpperQ i.1 = i.1 := by decide
    exact this i hi
  | v3_0 => simp only [typesRead]; rw [if_neg hne]
  | v4_0 => simp only [typesRead]; rw [if_neg hne]

theorem phone_flags (v : Version) (t : Nat) :
    (phoneNames v t).foldl (fun a s => a ||| stringToPhoneType (toUpperQ s)) 0 = t &&& 16383 := by
  have hmask : phoneTypes.foldr (fun i a => i.2 ||| a) 0 = 16383 := by decide
  unfold phoneNames
  split
  · rw [List.foldl_map, types_fold phoneTypes _ (by decide) phone_pow, hmask]; simp
  · rw [types_fold phoneTypes _ (by decide) phone_pow, hmask]; simp

theorem phoneNames_nil (v : Version) (t : Nat) : phoneNames v t = [] ↔ t &&& 16383 = 0 := by
  constructor
  · intro h
    have := phone_flags v t
    rw [h] at this
    exact this.symm
  · intro h
    have hm : ∀ i ∈ phoneTypes, i.2 &&& 16383 = i.2 := by decide
    have : typeNames phoneTypes t = [] := by
      unfold typeNames
      rw [List.map_eq_nil_iff, List.filter_eq_nil_iff]
      intro i hi
      have e : i.2 &&& t = i.2 &&& (t &&& 16383) := by
        conv => lhs; rw [← hm i hi]
        rw [Nat.and_assoc, Nat.and_comm 16383 t]
      rw [e, h]; simp
    unfold phoneNames
    rw [this]; simp

end KC
