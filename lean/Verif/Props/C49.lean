import Verif.Lemmas.AddressFormat
/-
  C49. Parsing a format string yields the fields, separators and literals in order; printing the elements back gives the string for every
  string without invalid placeholders, and the used fields are exactly those mentioned.
  (`Spec/AddressFormat`: letters, `printFormat`, `ValidFormat`, `Mentions`, `Canonical`.)
-/
namespace KC
open Spec

/-- Printing the elements back gives the string exactly for the strings without invalid placeholders. -/
theorem C49_print_parse (s : QString) : printFormat (parseElements s) = s ↔ ValidFormat s :=
  ⟨fun h => valid_of_print s [] (by simpa [parseElements] using h), fun h => by simpa [parseElements] using print_parse h []⟩

/-- Parsing what was printed gives the same elements, in the same order: nothing lost, merged or split. -/
theorem C49_parse_print (es : List FormatElem) (h : Canonical es) : parseElements (printFormat es) = es := parse_print h

/-- And these are all lists of elements that valid strings give. -/
theorem C49_canonical (s : QString) (h : ValidFormat s) : Canonical (parseElements s) := canonical_parse h [] (by simp)

/-- A field is used by the format exactly if the string mentions it, for every string. -/
theorem C49_used_fields (F : AddressFormat) (s : QString) (h : F.elements = parseElements s) (f : AField) :
    hasField F.usedFields f = true ↔ Mentions f s := by
  rw [used_iff, h, parseElements, mentions_parse]

/-- A list of fields (the entries "Required" and "Upper") holds exactly the fields whose letters it has. -/
theorem C49_field_list (s : QString) (f : AField) : hasField (parseFields s) f = true ↔ f.letter ∈ s := parseFields_iff s f

/-- Witness: a format with literals before, between and after. -/
def sampleElements : List FormatElem :=
  [.lit (q! "PO BOX "), .field .postOfficeBox, .sep, .sep, .field .locality, .lit (q! " - "), .field .postalCode, .lit (q! " 100%")]

example : printFormat sampleElements = q! "PO BOX %P%n%n%C - %Z 100%" ∧ parseElements (q! "PO BOX %P%n%n%C - %Z 100%") = sampleElements := by decide

example : Canonical sampleElements :=
  .lit _ _ (by decide) (by decide)
    (.field _ _ (.sep _ (.sep _ (.field _ _ (.lit _ _ (by decide) (by decide) (.field _ _ (.percent (q! " 100") (by decide))) (by simp)))))) (by simp)

/-- An invalid placeholder is dropped: "%q" in the middle of a text leaves two literals. -/
example : parseElements (q! "a%qb%%c") = [.lit (q! "a"), .lit (q! "b"), .lit (q! "c")] := by decide

/-- Letters of other rows of Unicode with the same low byte are not fields. -/
example : parseField 0x141 = none ∧ parseField 0x41 = some .streetAddress := by decide

end KC
