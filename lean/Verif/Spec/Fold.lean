/-
  Specification side of folding: a folded text is a sequence of physical lines, each ended by CR LF, the
  continuation lines starting with one space.
-/
namespace KC.Spec

/-- The bytes of a folded line whose physical lines carry the pieces `first`, `rest`: every line ends in CR LF,
    continuation lines start with a space. -/
def physical (first : List UInt8) (rest : List (List UInt8)) : List UInt8 :=
  (first :: rest.map (32 :: ·)).flatMap (· ++ [13, 10])

/-- Split at every LF (the LF is dropped). -/
def linesOf : List UInt8 → List (List UInt8)
  | [] => [[]]
  | c :: t =>
    if c = 10 then [] :: linesOf t
    else match linesOf t with
      | [] => [[c]]
      | l :: r => (c :: l) :: r

/-- Remove one trailing CR. -/
def dropCR (l : List UInt8) : List UInt8 := if l.getLast? = some 13 then l.dropLast else l

/-- How a reader joins the physical lines of one folded line: lines end at LF, one trailing CR is dropped, every line
    but the first loses its first byte and is appended. -/
def unfold (text : List UInt8) : List UInt8 :=
  match (linesOf text).map dropCR with
  | [] => []
  | l :: ls => l ++ ls.flatMap (List.drop 1)

end KC.Spec
