import Verif.Spec.Text
/-
  Specification: the texts that plain vCard values can carry.
-/
namespace KC.Spec

/-- Well-formed UTF-16 that does not start with U+FEFF and in which no backslash is directly followed by n, N or r. -/
structure SafeText (s : List UInt16) : Prop where
  wf : WellFormed s
  bom : s.head? ≠ some 0xFEFF
  safe : ∀ pre post c, s = pre ++ 92 :: c :: post → c ≠ 110 ∧ c ≠ 78 ∧ c ≠ 114

end KC.Spec
