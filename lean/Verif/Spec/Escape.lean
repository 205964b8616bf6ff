/-
  Specification side of C01: what a value must look like for the backslash escaping to be lossless,
  and what happens to every other value. No reference to the model.
-/
namespace KC.Spec

/-- A byte string is *escape safe* when no backslash is directly followed by one of the letters n, N, r. -/
def EscapeSafe (s : List UInt8) : Prop :=
  ∀ pre post c, s = pre ++ 92 :: c :: post → c ≠ 110 ∧ c ≠ 78 ∧ c ≠ 114

/-- The damage done to a value: an n or N directly after a backslash becomes a line feed, an r becomes a
    carriage return. `prev` says whether the preceding byte is a backslash. -/
def damage : (prev : Bool) → List UInt8 → List UInt8
  | _, [] => []
  | prev, c :: t =>
    (if prev && (c == 110 || c == 78) then 10 else if prev && c == 114 then 13 else c) :: damage (c == 92) t

end KC.Spec
