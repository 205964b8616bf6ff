import Verif.Qt.Basic
/-
  Specification of "behaves like a map keyed by id": plain partial functions.
-/
namespace KC.Spec

/-- Insert or remove an object. -/
inductive MapOp (α : Type) where
  | insert (x : α)
  | remove (x : α)

/-- The map after a history of operations on an empty map: inserting stores the object under its id if `accept` allows it (given
    the object and whether the id is already present), removing forgets the id. -/
def mapAfter {α : Type} (id : α → QString) (accept : α → Bool → Bool) (ops : List (MapOp α)) : QString → Option α :=
  ops.foldl (fun m op => match op with
    | .insert x => if accept x (m (id x)).isSome then fun k => if k = id x then some x else m k else m
    | .remove x => fun k => if k = id x then none else m k) (fun _ => none)

/-- A text with at least one character that is not white space. -/
def hasVisible (s : QString) : Bool := s.any fun c => !isSpaceQ c

end KC.Spec
