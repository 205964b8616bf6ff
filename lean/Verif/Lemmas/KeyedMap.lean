import Verif.Lemmas.Keyed
import Verif.Spec.KeyedMap
namespace KC
open Spec

/-- A list with unique keys that represents the map `m`. -/
def Represents {α : Type} (key : α → QString) (l : List α) (m : QString → Option α) : Prop :=
  (l.map key).Nodup ∧ ∀ k, findFirst key k l = m k

theorem represents_mem {α : Type} {key : α → QString} {l : List α} {m : QString → Option α} (h : Represents key l m) (x : α) :
    x ∈ l ↔ m (key x) = some x := by
  obtain ⟨hn, hf⟩ := h
  rw [← hf]
  constructor
  · intro hx
    clear hf
    induction l with
    | nil => simp at hx
    | cons y t ih =>
      simp only [List.map_cons, List.nodup_cons] at hn
      simp only [findFirst]
      rcases List.mem_cons.1 hx with rfl | hx
      · simp
      · rw [if_neg, ih hn.2 hx]
        intro e; exact hn.1 (by rw [e]; exact List.mem_map_of_mem hx)
  · intro h; exact (findFirst_key h).2

theorem represents_nil {α : Type} (key : α → QString) : Represents key [] (fun _ => none) :=
  ⟨by simp, fun _ => rfl⟩

theorem represents_replace {α : Type} {key : α → QString} {l : List α} {m : QString → Option α} (h : Represents key l m) (x y : α)
    (hf : findFirst key (key x) l = some y) :
    Represents key (replaceFirst key (key x) x l) (fun k => if k = key x then some x else m k) := by
  refine ⟨by rw [map_replaceFirst rfl]; exact h.1, ?_⟩
  intro k; rw [findFirst_replaceFirst rfl (findFirst_some hf), h.2]

theorem represents_append {α : Type} {key : α → QString} {l : List α} {m : QString → Option α} (h : Represents key l m) (x : α)
    (hf : findFirst key (key x) l = none) :
    Represents key (l ++ [x]) (fun k => if k = key x then some x else m k) := by
  have hf' := findFirst_none.1 hf
  refine ⟨nodup_append_single h.1 hf', ?_⟩
  intro k; rw [findFirst_append_single hf', h.2]

theorem represents_filter {α : Type} {key : α → QString} {l : List α} {m : QString → Option α} (h : Represents key l m) (q : QString) :
    Represents key (l.filter fun y => key y ≠ q) (fun k => if k = q then none else m k) := by
  refine ⟨nodup_filter_map h.1, ?_⟩
  intro k; rw [findFirst_filter, h.2]

theorem represents_erase {α : Type} {key : α → QString} {l : List α} {m : QString → Option α} (h : Represents key l m) (q : QString) :
    Represents key (eraseFirst key q l) (fun k => if k = q then none else m k) := by
  rw [eraseFirst_eq_filter h.1]; exact represents_filter h q

/-- One fold over the history of operations keeps the representation. -/
theorem represents_history {α σ : Type} (key : α → QString) (accept : α → Bool → Bool) (get : σ → List α)
    (step : σ → MapOp α → σ) (s0 : σ) (h0 : get s0 = [])
    (hins : ∀ s x m, Represents key (get s) m →
      Represents key (get (step s (.insert x))) (if accept x (m (key x)).isSome then fun k => if k = key x then some x else m k else m))
    (hrem : ∀ s x m, Represents key (get s) m → Represents key (get (step s (.remove x))) (fun k => if k = key x then none else m k))
    (ops : List (MapOp α)) : Represents key (get (ops.foldl step s0)) (mapAfter key accept ops) := by
  have key' : ∀ (ops : List (MapOp α)) (s : σ) (m : QString → Option α), Represents key (get s) m →
      Represents key (get (ops.foldl step s)) (ops.foldl (fun m op => match op with
        | .insert x => if accept x (m (key x)).isSome then fun k => if k = key x then some x else m k else m
        | .remove x => fun k => if k = key x then none else m k) m) := by
    intro ops
    induction ops with
    | nil => intro s m h; exact h
    | cons op t ih =>
      intro s m h
      simp only [List.foldl_cons]
      apply ih
      cases op with
      | insert x => exact hins s x m h
      | remove x => exact hrem s x m h
  exact key' ops s0 _ (by rw [h0]; exact represents_nil key)

theorem words_cons2 (x y : UInt16) (r : QString) : words isSpaceQ (x :: y :: r) =
    if isSpaceQ x then words isSpaceQ (y :: r)
    else if isSpaceQ y then [x] :: words isSpaceQ (y :: r)
    else match words isSpaceQ (y :: r) with
      | [] => [[x]]
      | w :: r => (x :: w) :: r := by
  rw [words]; split
  · rfl
  · split
    · rfl
    · cases words isSpaceQ (y :: r) <;> rfl

theorem words_eq_nil {s : QString} : words isSpaceQ s = [] ↔ hasVisible s = false := by
  induction s with
  | nil => simp [words, hasVisible]
  | cons x t ih =>
    simp only [hasVisible, List.any_cons] at ih ⊢
    cases t with
    | nil => by_cases hx : isSpaceQ x <;> simp [words, hx]
    | cons y r =>
      rw [words_cons2]
      by_cases hx : isSpaceQ x
      · rw [if_pos hx, ih]; simp [hx]
      · rw [if_neg hx]
        split
        · simp [hx]
        · split <;> simp [hx]

theorem join_eq_nil {sep : QString} : ∀ {l : List QString}, (∀ w ∈ l, w ≠ []) → (join sep l = [] ↔ l = [])
  | [], _ => by simp [join]
  | [w], h => by simp [join, h w]
  | w :: v :: t, h => by simp [join, h w]

theorem words_ne {s : QString} : ∀ w ∈ words isSpaceQ s, w ≠ [] := by
  induction s with
  | nil => simp [words]
  | cons x t ih =>
    intro w hw
    cases t with
    | nil =>
      simp only [words] at hw
      split at hw <;> simp_all
    | cons y r =>
      rw [words_cons2] at hw
      generalize words isSpaceQ (y :: r) = W at *
      split at hw
      · exact ih w hw
      · split at hw
        · rcases List.mem_cons.1 hw with rfl | hw
          · simp
          · exact ih w hw
        · split at hw
          · simp_all
          · rcases List.mem_cons.1 hw with rfl | hw
            · simp
            · exact ih w (List.mem_cons_of_mem _ hw)

theorem simplified_isEmpty (s : QString) : (simplified s).isEmpty = !hasVisible s := by
  rw [Bool.eq_iff_iff, List.isEmpty_iff, simplified, join_eq_nil words_ne, words_eq_nil]; simp

end KC
