/- Specification side of C12/C13: histories of additions. -/
namespace KC.Spec
variable {α : Type} [DecidableEq α]

/-- The distinct elements of a list in order of first occurrence. -/
def distinct : List α → List α := fun l => l.foldl (fun acc x => if x ∈ acc then acc else acc ++ [x]) []

/-- The values added under a name in a history of (name, value) additions, in order. -/
def valuesOf {β : Type} (h : List (α × β)) (name : α) : List β := (h.filter fun p => p.1 = name).map (·.2)

/-- Dictionary order on strings of code units, as a relation. -/
inductive Less : List UInt16 → List UInt16 → Prop
  | nil {b t} : Less [] (b :: t)
  | head {a b s t} : a < b → Less (a :: s) (b :: t)
  | tail {a s t} : Less s t → Less (a :: s) (a :: t)

/-- Strictly ascending in dictionary order: in particular without repetition. -/
def Ascending (l : List (List UInt16)) : Prop := l.Pairwise Less

end KC.Spec
