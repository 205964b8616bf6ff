import Verif.Model.VCard
/- Theory of the sorted vectors. -/
namespace KC

theorem qlt_irrefl (a : QString) : qlt a a = false := by
  induction a with
  | nil => rfl
  | cons x t ih => simp [qlt, ih]

theorem qlt_trans {a b c : QString} (h1 : qlt a b = true) (h2 : qlt b c = true) : qlt a c = true := by
  induction a generalizing b c with
  | nil =>
    cases b with
    | nil => simp [qlt] at h1
    | cons y b => cases c with
      | nil => simp [qlt] at h2
      | cons z c => simp [qlt]
  | cons x a ih =>
    cases b with
    | nil => simp [qlt] at h1
    | cons y b =>
      cases c with
      | nil => simp [qlt] at h2
      | cons z c =>
        simp only [qlt] at h1 h2 ⊢
        split at h1
        · split at h2
          · simp_all; exact ih h1 h2
          · simp_all
        · split at h2
          · simp_all
          · simp only [decide_eq_true_eq] at h1 h2
            have h3 := UInt16.lt_trans h1 h2
            rw [if_neg (by intro e; subst e; exact absurd (UInt16.lt_trans h1 h2) (UInt16.lt_irrefl _))]
            simpa using h3

theorem qlt_asymm {a b : QString} (h : qlt a b = true) : qlt b a = false := by
  cases h' : qlt b a with
  | false => rfl
  | true => have := qlt_trans h h'; rw [qlt_irrefl] at this; cases this

theorem qlt_total {a b : QString} (h : qlt a b = false) (hne : a ≠ b) : qlt b a = true := by
  induction a generalizing b with
  | nil => cases b with
    | nil => exact absurd rfl hne
    | cons y b => simp [qlt] at h
  | cons x a ih =>
    cases b with
    | nil => simp [qlt]
    | cons y b =>
      simp only [qlt] at h ⊢
      split at h
      · rename_i e; subst e
        simp only [if_true]
        exact ih h (fun e => hne (by rw [e]))
      · rename_i e
        rw [if_neg (Ne.symm e)]
        simp only [decide_eq_false_iff_not, decide_eq_true_eq] at h ⊢
        have h1 : ¬ x.toNat < y.toNat := fun h' => h (UInt16.lt_iff_toNat_lt.2 h')
        have h2 : x.toNat ≠ y.toNat := fun h' => e (UInt16.toNat_inj.1 h')
        exact UInt16.lt_iff_toNat_lt.2 (by omega)

/-- A vector is sorted when its keys are strictly ascending. -/
def Sorted {ν : Type} (m : SMap ν) : Prop := List.Pairwise (fun a b => qlt a.1 b.1 = true) m

namespace SMap
variable {ν : Type}

theorem find_eq_none {m : SMap ν} {k : QString} : find m k = none ↔ ∀ p ∈ m, p.1 ≠ k := by
  induction m with
  | nil => simp [find]
  | cons p t ih =>
    obtain ⟨k', v⟩ := p
    simp only [find]
    split
    · rename_i h; simp [h]
    · rename_i h; simp [ih, h]

theorem find_insertSorted {m : SMap ν} {k k' : QString} {v : ν} (h : find m k = none) :
    find (insertSorted m k v) k' = if k = k' then some v else find m k' := by
  induction m with
  | nil => simp [insertSorted, find]
  | cons p t ih =>
    obtain ⟨k0, v0⟩ := p
    simp only [find] at h
    split at h
    · cases h
    · rename_i h0
      simp only [insertSorted]
      split
      · simp only [find, ih h]
        by_cases e : k0 = k'
        · simp only [e, if_true]; rw [if_neg (by intro e'; exact h0 (by rw [e, ← e']))]
        · simp only [e, if_false]
      · simp only [find]

theorem find_modify {m : SMap ν} {k k' : QString} {f : ν → ν} :
    find (modify m k f) k' = if k = k' then (find m k').map f else find m k' := by
  induction m with
  | nil => simp [modify, find]
  | cons p t ih =>
    obtain ⟨k0, v0⟩ := p
    simp only [modify]
    split
    · rename_i h
      subst h
      simp only [find]
      by_cases e : k0 = k'
      · simp [e]
      · simp [e]
    · rename_i h
      simp only [find, ih]
      by_cases e : k0 = k'
      · have hk : ¬ k = k' := fun e' => h (by rw [e, ← e'])
        simp [e, hk]
      · simp [e]

theorem keys_modify {m : SMap ν} {k : QString} {f : ν → ν} : (modify m k f).map (·.1) = m.map (·.1) := by
  induction m with
  | nil => rfl
  | cons p t ih => obtain ⟨k0, v0⟩ := p; simp only [modify]; split <;> simp [ih]

theorem mem_keys_insertSorted {m : SMap ν} {k k' : QString} {v : ν} :
    k' ∈ (insertSorted m k v).map (·.1) ↔ k' = k ∨ k' ∈ m.map (·.1) := by
  induction m with
  | nil => simp [insertSorted]
  | cons p t ih =>
    obtain ⟨k0, v0⟩ := p
    simp only [insertSorted]
    split
    · simp only [List.map_cons, List.mem_cons, ih]
      constructor
      · rintro (h | h | h) <;> simp [h]
      · rintro (h | h | h) <;> simp [h]
    · simp

theorem sorted_iff_keys {m : SMap ν} : Sorted m ↔ (m.map (·.1)).Pairwise (fun a b => qlt a b = true) := by
  simp [Sorted, List.pairwise_map]

theorem sorted_insert {m : SMap ν} {k : QString} {v : ν} (hs : Sorted m) (h : find m k = none) :
    Sorted (insertSorted m k v) := by
  induction m with
  | nil => simp [insertSorted, Sorted]
  | cons p t ih =>
    obtain ⟨k0, v0⟩ := p
    have hs' : Sorted t := by unfold Sorted at *; exact (List.pairwise_cons.1 hs).2
    have hlt : ∀ q ∈ t, qlt k0 q.1 = true := by unfold Sorted at hs; exact (List.pairwise_cons.1 hs).1
    simp only [find] at h
    split at h
    · cases h
    · rename_i h0
      simp only [insertSorted]
      split
      · rename_i hlt'
        unfold Sorted
        refine List.pairwise_cons.2 ⟨?_, ih hs' h⟩
        intro q hq
        have : q.1 ∈ (insertSorted t k v).map (·.1) := List.mem_map.2 ⟨q, hq, rfl⟩
        rw [mem_keys_insertSorted] at this
        rcases this with e | hm
        · simpa [e] using hlt'
        · obtain ⟨q', hq', e⟩ := List.mem_map.1 hm
          show qlt k0 q.1 = true
          rw [← e]; exact hlt q' hq'
      · rename_i hnlt
        have hk : qlt k k0 = true := qlt_total (by simpa using hnlt) h0
        unfold Sorted at *
        refine List.pairwise_cons.2 ⟨?_, hs⟩
        intro q hq
        simp only [List.mem_cons] at hq
        rcases hq with rfl | hq
        · exact hk
        · exact qlt_trans hk (hlt q hq)

theorem sorted_modify {m : SMap ν} {k : QString} {f : ν → ν} (hs : Sorted m) : Sorted (modify m k f) := by
  rw [sorted_iff_keys, keys_modify, ← sorted_iff_keys]; exact hs

theorem find_isSome_iff {m : SMap ν} {k : QString} : (find m k).isSome ↔ k ∈ m.map (·.1) := by
  cases h : find m k with
  | none => rw [find_eq_none] at h; simp; intro v hv; exact h (k, v) hv rfl
  | some v =>
    simp only [Option.isSome_some, true_iff]
    apply Classical.byContradiction
    intro hn
    have : find m k = none := find_eq_none.2 fun p hp e => hn (List.mem_map.2 ⟨p, hp, e⟩)
    rw [h] at this; cases this

/-- Generic "add under a key": what both `addParameter` and `addLine` do. -/
def upsert (m : SMap ν) (k : QString) (ins : ν) (upd : ν → ν) : SMap ν :=
  match find m k with
  | some _ => modify m k upd
  | none => insertSorted m k ins

theorem find_upsert {m : SMap ν} {k k' : QString} {ins : ν} {upd : ν → ν} :
    find (upsert m k ins upd) k' =
      if k = k' then some (match find m k with | none => ins | some v => upd v) else find m k' := by
  unfold upsert
  cases h : find m k with
  | none => simp only [find_insertSorted h]
  | some v =>
    simp only [find_modify]
    by_cases e : k = k'
    · subst e; simp [h]
    · simp [e]

theorem sorted_upsert {m : SMap ν} {k : QString} {ins : ν} {upd : ν → ν} (hs : Sorted m) : Sorted (upsert m k ins upd) := by
  unfold upsert
  cases h : find m k with
  | none => exact sorted_insert hs h
  | some v => exact sorted_modify hs

theorem mem_keys_upsert {m : SMap ν} {k k' : QString} {ins : ν} {upd : ν → ν} :
    k' ∈ (upsert m k ins upd).map (·.1) ↔ k' = k ∨ k' ∈ m.map (·.1) := by
  rw [← find_isSome_iff, ← find_isSome_iff, find_upsert]
  by_cases e : k = k'
  · simp [e]
  · simp [e, Ne.symm e]

/-- Two strictly ascending key lists with the same members are equal. -/
theorem sorted_ext {l l' : List QString} (h : l.Pairwise (fun a b => qlt a b = true))
    (h' : l'.Pairwise (fun a b => qlt a b = true)) (hm : ∀ k, k ∈ l ↔ k ∈ l') : l = l' := by
  induction l generalizing l' with
  | nil =>
    cases l' with
    | nil => rfl
    | cons a t => exact absurd ((hm a).2 (by simp)) (by simp)
  | cons a t ih =>
    cases l' with
    | nil => exact absurd ((hm a).1 (by simp)) (by simp)
    | cons b t' =>
      obtain ⟨ha, ht⟩ := List.pairwise_cons.1 h
      obtain ⟨hb, ht'⟩ := List.pairwise_cons.1 h'
      have hab : a = b := by
        apply Classical.byContradiction
        intro hne
        have h1 : a ∈ t' := by
          have := (hm a).1 (by simp)
          simpa [hne] using this
        have h2 : b ∈ t := by
          have := (hm b).2 (by simp)
          simpa [Ne.symm hne] using this
        have := qlt_trans (ha b h2) (hb a h1)
        rw [qlt_irrefl] at this; cases this
      subst hab
      congr 1
      apply ih ht ht'
      intro k
      have := hm k
      simp only [List.mem_cons] at this
      constructor
      · intro hk
        rcases this.1 (Or.inr hk) with e | e
        · subst e; have := ha k hk; rw [qlt_irrefl] at this; cases this
        · exact e
      · intro hk
        rcases this.2 (Or.inr hk) with e | e
        · subst e; have := hb k hk; rw [qlt_irrefl] at this; cases this
        · exact e

end SMap

theorem ParameterMap.add_eq (m : ParameterMap) (p v : QString) :
    ParameterMap.add m p v = SMap.upsert m p [v] (fun vs => if v ∈ vs then vs else vs ++ [v]) := by
  unfold ParameterMap.add SMap.upsert; cases SMap.find m p <;> rfl

theorem VCard.addLine_eq (c : VCard) (l : VCardLine) :
    VCard.addLine c l = SMap.upsert c l.identifier [l] (· ++ [l]) := by
  unfold VCard.addLine SMap.upsert; cases SMap.find c l.identifier <;> rfl

end KC

namespace KC.SMap
variable {ν : Type}

/-- A sorted map is determined by its lookups. -/
theorem ext_find {m m' : SMap ν} (h : Sorted m) (h' : Sorted m') (hf : ∀ k, find m k = find m' k) : m = m' := by
  have hk : m.map (·.1) = m'.map (·.1) := by
    apply sorted_ext (sorted_iff_keys.1 h) (sorted_iff_keys.1 h')
    intro k
    rw [← find_isSome_iff, ← find_isSome_iff, hf]
  induction m generalizing m' with
  | nil => cases m' with
    | nil => rfl
    | cons _ _ => simp at hk
  | cons a t ih =>
    cases m' with
    | nil => simp at hk
    | cons b t' =>
      obtain ⟨k, v⟩ := a
      obtain ⟨k', v'⟩ := b
      simp only [List.map_cons, List.cons.injEq] at hk
      obtain ⟨e, hk⟩ := hk
      subst e
      have hv := hf k
      simp only [find, if_true, Option.some.injEq] at hv
      subst hv
      congr 1
      unfold Sorted at h h'
      rw [List.pairwise_cons] at h h'
      refine ih h.2 h'.2 ?_ hk
      intro x
      by_cases e : k = x
      · subst e
        have n1 : find t k = none := find_eq_none.2 fun p hp e => by
          have := h.1 p hp; simp only at this; rw [e, qlt_irrefl] at this; cases this
        have n2 : find t' k = none := find_eq_none.2 fun p hp e => by
          have := h'.1 p hp; simp only at this; rw [e, qlt_irrefl] at this; cases this
        rw [n1, n2]
      · have := hf x
        simpa [find, e] using this

end KC.SMap
