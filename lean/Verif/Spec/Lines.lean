/-
  Specification side of C07/C08: lines of a text, soft line breaks.
-/
namespace KC.Spec

/-- ASCII lower case of a byte. -/
def lowerByte (c : UInt8) : UInt8 := if 65 ≤ c ∧ c ≤ 90 then c + 32 else c

/-- The letters "quoted-printable" occur in the line, in upper or lower case. -/
def MentionsQP (l : List UInt8) : Prop :=
  ∃ pre post : List UInt8, l.map lowerByte =
    pre ++ (['q', 'u', 'o', 't', 'e', 'd', '-', 'p', 'r', 'i', 'n', 't', 'a', 'b', 'l', 'e'].map fun c => UInt8.ofNat c.toNat) ++ post

/-- A line that consists of white space only. -/
def Blank (l : List UInt8) : Prop := ∀ c ∈ l, c = 32 ∨ (9 ≤ c ∧ c ≤ 13)

/-- A line that ends in an equals sign, not counting a carriage return: a soft line break of quoted-printable text. -/
def EndsInEquals (l : List UInt8) : Prop := ∃ pre, l = pre ++ [61] ∨ l = pre ++ [61, 13]

/-- The text with every LF replaced by CR LF. -/
def withCRLF (text : List UInt8) : List UInt8 := text.flatMap fun c => if c = 10 then [13, 10] else [c]

/-- The logical lines of a sequence of physical lines: a line starting with a space or tab continues the one before it (without that
    first character), blank lines are skipped. `acc` is the line being collected. -/
def logicalLines (acc : List UInt8) : List (List UInt8) → List (List UInt8)
  | [] => [acc]
  | l :: ls =>
    if l.head? = some 32 ∨ l.head? = some 9 then logicalLines (acc ++ l.drop 1) ls
    else if l.all (fun c => c = 32 || (9 ≤ c && c ≤ 13)) then logicalLines acc ls
    else acc :: logicalLines l ls

end KC.Spec
