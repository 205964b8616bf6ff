import Verif.Qt.Basic
/-
  Specification: texts that are joined to one value with a separator, and what is found when that value is taken apart again.
-/
namespace KC

/-- The texts found: a text that ends in a backslash is not told from the next one. Both become one text, with the separator in place of
    the backslash. -/
def merged (sep : UInt16) : List QString → List QString
  | [] => []
  | [a] => [a]
  | a :: b :: t =>
    if a.getLast? = some 92 then
      match merged sep (b :: t) with
      | [] => []
      | x :: r => (a.dropLast ++ sep :: x) :: r
    else a :: merged sep (b :: t)

/-- The first n of the texts; missing ones are empty. -/
def inPlaces (n : Nat) (l : List QString) : List QString := (List.range n).map fun i => l.getD i []

end KC
