import Verif.Model.Contact
/-
  Lists of objects searched by a key.
-/
namespace KC
variable {α : Type} {key : α → QString}

theorem findFirst_key {k : QString} {l : List α} {x : α} (h : findFirst key k l = some x) : key x = k ∧ x ∈ l := by
  induction l with
  | nil => simp [findFirst] at h
  | cons y t ih =>
    simp only [findFirst] at h
    split at h
    · rename_i e; cases h; exact ⟨e, by simp⟩
    · exact ⟨(ih h).1, List.mem_cons_of_mem _ (ih h).2⟩

theorem findFirst_none {k : QString} {l : List α} : findFirst key k l = none ↔ k ∉ l.map key := by
  induction l with
  | nil => simp [findFirst]
  | cons y t ih =>
    simp only [findFirst, List.map_cons, List.mem_cons, not_or]
    split
    · rename_i e; simp [e]
    · rename_i e; rw [ih]; exact ⟨fun h => ⟨fun h' => e h'.symm, h⟩, fun h => h.2⟩

theorem findFirst_some {k : QString} {l : List α} {x : α} (h : findFirst key k l = some x) : k ∈ l.map key := by
  have := findFirst_key h
  exact List.mem_map.2 ⟨x, this.2, this.1⟩

theorem map_replaceFirst {k : QString} {x : α} {l : List α} (hx : key x = k) :
    (replaceFirst key k x l).map key = l.map key := by
  induction l with
  | nil => rfl
  | cons y t ih =>
    simp only [replaceFirst]
    split
    · rename_i e; simp [hx, e]
    · simp [ih]

theorem findFirst_replaceFirst {k k' : QString} {x : α} {l : List α} (hx : key x = k) (hm : k ∈ l.map key) :
    findFirst key k' (replaceFirst key k x l) = if k' = k then some x else findFirst key k' l := by
  induction l with
  | nil => simp at hm
  | cons y t ih =>
    simp only [replaceFirst]
    by_cases e : key y = k
    · rw [if_pos e]
      simp only [findFirst, hx, e]
      by_cases e' : k = k'
      · simp [e']
      · rw [if_neg e', if_neg (Ne.symm e'), if_neg e']
    · rw [if_neg e]
      simp only [List.map_cons, List.mem_cons] at hm
      have hm' := hm.resolve_left (Ne.symm e)
      simp only [findFirst]
      by_cases e' : key y = k'
      · have : k' ≠ k := by rw [← e']; exact e
        simp [e', this]
      · rw [if_neg e', ih hm', if_neg e']

theorem filter_replaceFirst {k : QString} {x : α} {l : List α} (hx : key x = k) :
    (replaceFirst key k x l).filter (fun y => key y ≠ k) = l.filter (fun y => key y ≠ k) := by
  induction l with
  | nil => rfl
  | cons y t ih =>
    simp only [replaceFirst]
    split
    · rename_i e; simp [List.filter_cons, hx, e]
    · rename_i e; simp only [List.filter_cons, ih]

theorem mem_replaceFirst {k : QString} {x : α} {l : List α} (hm : k ∈ l.map key) : x ∈ replaceFirst key k x l := by
  induction l with
  | nil => simp at hm
  | cons y t ih =>
    simp only [replaceFirst]
    split
    · simp
    · rename_i e
      simp only [List.map_cons, List.mem_cons] at hm
      exact List.mem_cons_of_mem _ (ih (hm.resolve_left (Ne.symm e)))

theorem filter_eraseFirst {k : QString} {l : List α} :
    (eraseFirst key k l).filter (fun y => key y ≠ k) = l.filter (fun y => key y ≠ k) := by
  induction l with
  | nil => rfl
  | cons y t ih =>
    simp only [eraseFirst]
    split
    · rename_i e; simp [List.filter_cons, e]
    · simp only [List.filter_cons, ih]

theorem eraseFirst_eq_filter {k : QString} {l : List α} (h : (l.map key).Nodup) :
    eraseFirst key k l = l.filter (fun y => key y ≠ k) := by
  induction l with
  | nil => rfl
  | cons y t ih =>
    simp only [List.map_cons, List.nodup_cons] at h
    simp only [eraseFirst]
    split
    · rename_i e
      simp only [List.filter_cons, e, ne_eq, not_true, decide_false]
      rw [List.filter_eq_self.2]
      · simp
      · intro a ha
        simp only [decide_eq_true_eq]
        intro e'; apply h.1; rw [e, ← e']; exact List.mem_map_of_mem ha
    · rename_i e; simp [List.filter_cons, e, ih h.2]

theorem findFirst_filter {k k' : QString} {l : List α} :
    findFirst key k' (l.filter fun y => key y ≠ k) = if k' = k then none else findFirst key k' l := by
  induction l with
  | nil => simp [findFirst]
  | cons y t ih =>
    simp only [List.filter_cons]
    by_cases e : key y = k
    · simp only [e, ne_eq, not_true, decide_false, findFirst]
      by_cases e' : k = k'
      · simp [e'] at ih ⊢; simpa [e'] using ih
      · simp only [if_neg e']; exact ih
    · simp only [ne_eq, e, not_false_eq_true, decide_true, if_true, findFirst]
      by_cases e' : key y = k'
      · have : k' ≠ k := by rw [← e']; exact e
        simp [e', this]
      · simp only [if_neg e']; exact ih

theorem nodup_filter_map {l : List α} {p : α → Bool} (h : (l.map key).Nodup) : ((l.filter p).map key).Nodup :=
  h.sublist ((List.filter_sublist).map key)

theorem findFirst_append_single {k' : QString} {x : α} {l : List α} (h : key x ∉ l.map key) :
    findFirst key k' (l ++ [x]) = if k' = key x then some x else findFirst key k' l := by
  induction l with
  | nil =>
    simp only [List.nil_append, findFirst]
    by_cases e : key x = k'
    · simp [e]
    · simp [e, Ne.symm e]
  | cons y t ih =>
    simp only [List.map_cons, List.mem_cons, not_or] at h
    simp only [List.cons_append, findFirst]
    by_cases e : key y = k'
    · have : k' ≠ key x := by rw [← e]; exact fun h' => h.1 h'.symm
      simp [e, this]
    · rw [if_neg e, ih h.2, if_neg e]

theorem filter_eq_self_of_not_mem {k : QString} {l : List α} (h : k ∉ l.map key) : l.filter (fun y => key y ≠ k) = l := by
  rw [List.filter_eq_self]
  intro a ha
  simp only [decide_eq_true_eq]
  intro e; exact h (List.mem_map.2 ⟨a, ha, e⟩)

theorem nodup_append_single {x : α} {l : List α} (hn : (l.map key).Nodup) (h : key x ∉ l.map key) :
    ((l ++ [x]).map key).Nodup := by
  rw [List.map_append, List.nodup_append]
  refine ⟨hn, by simp, ?_⟩
  intro a ha b hb
  simp only [List.map_cons, List.map_nil, List.mem_singleton] at hb
  subst hb; intro e; subst e; exact h ha

theorem nodup_eraseFirst {k : QString} {l : List α} (h : (l.map key).Nodup) : ((eraseFirst key k l).map key).Nodup := by
  rw [eraseFirst_eq_filter h]; exact nodup_filter_map h

theorem removeSkipping_filter {k : QString} (l : List α) :
    (removeSkipping key k l).filter (fun y => key y ≠ k) = l.filter (fun y => key y ≠ k) := by
  induction l using removeSkipping.induct (key := key) (k := k) with
  | case1 => rfl
  | case2 y h => simp [removeSkipping, h, List.filter_cons]
  | case3 y h => simp [removeSkipping, h]
  | case4 y z t h ih =>
    rw [removeSkipping, if_pos h, List.filter_cons, ih]
    conv => rhs; rw [List.filter_cons]
    simp only [h, ne_eq, not_true, decide_false]
    simp [List.filter_cons]
  | case5 y z t h ih =>
    rw [removeSkipping, if_neg h, List.filter_cons, ih]
    conv => rhs; rw [List.filter_cons]

/-- The key survives exactly if two neighbours both have it. -/
theorem mem_removeSkipping {k : QString} (l : List α) :
    k ∈ (removeSkipping key k l).map key ↔ ∃ pre a b post, l = pre ++ a :: b :: post ∧ key a = k ∧ key b = k := by
  induction l using removeSkipping.induct (key := key) (k := k) with
  | case1 => simp [removeSkipping]
  | case2 y h =>
    simp only [removeSkipping, if_pos h, List.map_nil, List.not_mem_nil, false_iff]
    rintro ⟨pre, a, b, post, h, -⟩
    have := congrArg List.length h; simp at this; omega
  | case3 y h =>
    simp only [removeSkipping, if_neg h, List.map_cons, List.map_nil, List.mem_singleton]
    constructor
    · intro e; exact absurd e.symm h
    · rintro ⟨pre, a, b, post, h, -⟩
      have := congrArg List.length h; simp at this; omega
  | case4 y z t h ih =>
    rw [removeSkipping, if_pos h, List.map_cons, List.mem_cons, ih]
    constructor
    · rintro (e | ⟨pre, a, b, post, e, ha, hb⟩)
      · exact ⟨[], y, z, t, rfl, h, e.symm⟩
      · exact ⟨y :: z :: pre, a, b, post, by rw [e]; rfl, ha, hb⟩
    · rintro ⟨pre, a, b, post, e, ha, hb⟩
      match pre with
      | [] => simp only [List.nil_append, List.cons.injEq] at e; left; rw [e.2.1, hb]
      | [p] =>
        simp only [List.cons_append, List.nil_append, List.cons.injEq] at e
        left; rw [e.2.1, ha]
      | p :: q :: pre =>
        simp only [List.cons_append, List.cons.injEq] at e
        right; exact ⟨pre, a, b, post, e.2.2, ha, hb⟩
  | case5 y z t h ih =>
    rw [removeSkipping, if_neg h, List.map_cons, List.mem_cons, ih]
    constructor
    · rintro (e | ⟨pre, a, b, post, e, ha, hb⟩)
      · exact absurd e.symm h
      · exact ⟨y :: pre, a, b, post, by rw [e]; rfl, ha, hb⟩
    · rintro ⟨pre, a, b, post, e, ha, hb⟩
      right
      match pre with
      | [] => simp only [List.nil_append, List.cons.injEq] at e; rw [← e.1] at ha; exact absurd ha h
      | p :: pre =>
        simp only [List.cons_append, List.cons.injEq] at e
        exact ⟨pre, a, b, post, e.2, ha, hb⟩

theorem removeSkipping_eq_filter {k : QString} {l : List α} (h : (l.map key).Nodup) :
    removeSkipping key k l = l.filter (fun y => key y ≠ k) := by
  have hk : k ∉ (removeSkipping key k l).map key := by
    rw [mem_removeSkipping]
    rintro ⟨pre, a, b, post, e, ha, hb⟩
    subst e
    simp only [List.map_append, List.map_cons, List.nodup_append, List.nodup_cons] at h
    exact h.2.1.1 (by simp [ha, hb])
  rw [← removeSkipping_filter, filter_eq_self_of_not_mem hk]

/-- A list whose elements other than those with key `k` are the given ones, as a permutation-free statement about keys. -/
theorem nodup_of_cons_filter {x : α} {l : List α} (hn : (l.map key).Nodup) (hk : key x ∉ l.map key) :
    ((x :: l).map key).Nodup := by
  simp only [List.map_cons, List.nodup_cons]; exact ⟨hk, hn⟩

theorem rotate_replace {k : QString} {x : α} {l : List α} (hx : key x = k) (hm : k ∈ l.map key) (hn : (l.map key).Nodup) :
    rotateToFront key k (replaceFirst key k x l) = x :: l.filter (fun y => key y ≠ k) := by
  unfold rotateToFront
  rw [findFirst_replaceFirst hx hm, if_pos rfl]
  simp only
  rw [eraseFirst_eq_filter (by rw [map_replaceFirst hx]; exact hn), filter_replaceFirst hx]

end KC
