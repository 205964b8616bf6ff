import Verif.Props.C73
import Verif.Model.VCardTool
/- Specification: the text of a day in the extended format of ISO 8601. -/
namespace KC.Spec

/-- The text of a day in the extended format of ISO 8601, as Qt reads it: four digits of the year, two of the month and two of the day with
    punctuation between them, and whatever follows does not begin with a digit. -/
def IsoText (E : ToolEnv) (s : QString) (d : Int × Nat × Nat) : Prop :=
  1 ≤ d.1 ∧ d.1 ≤ 9999 ∧ RealDay d ∧
  ∃ p p' rest, s = four d.1.toNat ++ p :: (two d.2.1 ++ p' :: (two d.2.2 ++ rest)) ∧
    (∀ c ∈ [p, p'], c ∈ q! "!\"#%&'()*,-./:;?@[\\]_{}" ∨ (128 ≤ c.toNat ∧ E.widePunct c = true)) ∧
    (∀ c ∈ rest.head?, ¬ (48 ≤ c.toNat ∧ c.toNat ≤ 57) ∧ (128 ≤ c.toNat → E.wideDigit c = false))

end KC.Spec
