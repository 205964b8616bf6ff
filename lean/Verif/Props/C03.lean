import Verif.Lemmas.Fold
/-
  C03: folding a long line never changes it.
-/
namespace KC
open Spec

theorem linesOf_append (l rest : List UInt8) (h : (10 : UInt8) ∉ l) :
    linesOf (l ++ 10 :: rest) = l :: linesOf rest := by
  induction l with
  | nil => simp [linesOf]
  | cons c t ih =>
    have hc : c ≠ 10 := fun e => h (by simp [e])
    have := ih (fun e => h (by simp [e]))
    simp [linesOf, hc, this]

theorem linesOf_physical (first : List UInt8) (rest : List (List UInt8)) (h : (10 : UInt8) ∉ first)
    (hr : ∀ r ∈ rest, (10 : UInt8) ∉ r) :
    linesOf (physical first rest) = (first ++ [13]) :: (rest.map fun r => 32 :: r ++ [13]) ++ [[]] := by
  have key : ∀ ls : List (List UInt8), (∀ l ∈ ls, (10 : UInt8) ∉ l) →
      linesOf (ls.flatMap (· ++ [13, 10])) = ls.map (· ++ [13]) ++ [[]] := by
    intro ls hl
    induction ls with
    | nil => rfl
    | cons l ls ih =>
      have e : (l :: ls).flatMap (· ++ [13, 10]) = (l ++ [13]) ++ 10 :: ls.flatMap (· ++ [13, 10]) := by simp
      rw [e, linesOf_append _ _ (by simp [hl l (by simp)]), ih (fun x hx => hl x (by simp [hx]))]
      simp
  unfold physical
  rw [key]
  · simp
  · intro l hl
    simp only [List.mem_cons, List.mem_map] at hl
    rcases hl with rfl | ⟨r, hr', rfl⟩
    · exact h
    · simp [hr r hr']

theorem dropCR_append (l : List UInt8) : dropCR (l ++ [13]) = l := by simp [dropCR]

theorem unfold_physical (first : List UInt8) (rest : List (List UInt8)) (h : (10 : UInt8) ∉ first)
    (hr : ∀ r ∈ rest, (10 : UInt8) ∉ r) : unfold (physical first rest) = first ++ rest.flatten := by
  unfold unfold
  rw [linesOf_physical first rest h hr]
  simp only [List.map_cons, List.map_append, List.map_map, List.cons_append, dropCR_append]
  have : (dropCR ∘ fun r => 32 :: (r ++ [13])) = (fun r : List UInt8 => 32 :: r) := by
    funext r
    have := dropCR_append (32 :: r)
    simpa using this
  rw [this]
  simp [List.flatMap_map, dropCR]

/-- C03, shape: the folded text of any line is a sequence of CR LF terminated physical lines, all but the first starting with one
    space, and the pieces they carry concatenate to the line. -/
theorem C03_fold_shape (line : QByteArray) (mb : Bool) :
    ∃ first rest, fixLineSize line mb = physical first rest ∧ first ++ rest.flatten = line := by
  obtain ⟨h, t, hp, hf⟩ := fixLineSize_eq line mb
  refine ⟨h, t, hf, ?_⟩
  have := flatten_pieces line mb
  rw [hp] at this
  simpa using this

/-- C03: for every content line without LF, of any length and in both folding modes, joining the physical
    lines the way the reader does returns the line byte for byte. -/
theorem C03_fold_unfold (line : QByteArray) (mb : Bool) (h : (10 : UInt8) ∉ line) :
    unfold (fixLineSize line mb) = line := by
  obtain ⟨f, r, hf, hr⟩ := C03_fold_shape line mb
  rw [hf, unfold_physical, hr]
  · intro e; apply h; rw [← hr]; simp [e]
  · intro x hx e; apply h; rw [← hr]
    simp only [List.mem_append, List.mem_flatten]
    exact Or.inr ⟨x, hx, e⟩

-- non-vacuity: a line longer than the fold width, in both modes, with multi-byte characters around the fold column
example : (10 : UInt8) ∉ (List.replicate 74 97 ++ [0xC3, 0xBC] ++ List.replicate 80 98 : QByteArray) := by decide
example : fixLineSize (List.replicate 74 97 ++ [0xC3, 0xBC, 98]) true
    = List.replicate 74 97 ++ [13, 10, 32, 0xC3, 0xBC, 98, 13, 10] := by decide
example : fixLineSize (List.replicate 77 97) false
    = List.replicate 75 97 ++ [13, 10, 32, 97, 97, 13, 10] := by decide

end KC
