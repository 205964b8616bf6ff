import Verif.Qt.Basic
/-
  Line folding: src/vcardparser/vcardparser.cpp:335-385
-/
namespace KC

/-- `FOLD_WIDTH`, vcardparser.cpp:335. -/
def FOLD_WIDTH : Nat := 75

/-- `sequenceLength`, vcardparser.cpp:349-354, in the order of the source: the test for three bytes comes first. -/
def sequenceLength (c : UInt8) : Nat :=
  if c &&& 0xE0 = 0xE0 then 3 else if c &&& 0xF0 = 0xF0 then 4 else 2

/-- The loop vcardparser.cpp:346-372. `lineLength` as in the source; `skip` is the number of bytes of the current
    multi-byte sequence that are still to be copied (`textLine.mid(i, sequenceLength)` and `i += sequenceLength - 1`,
    copied byte by byte here). The test `i < textLine.length() - 1` is "bytes remain". -/
def foldMb : (lineLength skip : Nat) → QByteArray → QByteArray
  | _, _, [] => []
  | lineLength, k + 1, c :: t =>
    if k = 0 then
      if lineLength = FOLD_WIDTH ∧ t ≠ [] then c :: (b! "\r\n " ++ foldMb 1 0 t) else c :: foldMb lineLength 0 t
    else c :: foldMb lineLength k t
  | lineLength, 0, c :: t =>
    if c &&& 0xC0 = 0xC0 then
      let n := sequenceLength c
      if lineLength + n > FOLD_WIDTH then b! "\r\n " ++ c :: foldMb (1 + n) (n - 1) t
      else c :: foldMb (lineLength + n) (n - 1) t
    else if lineLength + 1 = FOLD_WIDTH ∧ t ≠ [] then c :: (b! "\r\n " ++ foldMb 1 0 t)
    else c :: foldMb (lineLength + 1) 0 t

/-- `fixLineSize`, vcardparser.cpp:339-384. -/
def fixLineSize (textLine : QByteArray) (checkMultibyte : Bool) : QByteArray :=
  if textLine.length > FOLD_WIDTH then
    if checkMultibyte then foldMb 0 0 textLine ++ b! "\r\n"
    else (List.range (textLine.length / FOLD_WIDTH + 1)).flatMap fun i =>
      (if i = 0 then [] else b! " ") ++ mid textLine (i * FOLD_WIDTH) FOLD_WIDTH ++ b! "\r\n"
  else textLine ++ b! "\r\n"

end KC
