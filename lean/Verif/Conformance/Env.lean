import Verif.Model.Converter
import Verif.Spec.Sample
/-
  An environment close to the libraries kcontacts runs with (KCodecs, QString, QUrl), used to run the model on the project's own test data
  (modules Verif.Conformance.*). These are tests of the model, not proofs of properties; no theorem of Verif.Props uses them.
-/
namespace KC.Conformance

/-- one hexadecimal digit -/
def hexByte (n : Nat) : UInt8 := UInt8.ofNat (if n < 10 then 48 + n else 55 + n)

/-- the value of a hexadecimal digit -/
def hexOf (b : UInt8) : Option Nat :=
  if 48 ≤ b.toNat ∧ b.toNat ≤ 57 then some (b.toNat - 48)
  else if 65 ≤ b.toNat ∧ b.toNat ≤ 70 then some (b.toNat - 55)
  else if 97 ≤ b.toNat ∧ b.toNat ≤ 102 then some (b.toNat - 87) else none

/-- One line of `KCodecs::quotedPrintableEncode`: bytes outside the printable range, `=`, the letters `F`, `.`, `-` at the beginning and
    white space at the end of a line are encoded. Soft line breaks are not made (no test needs them). -/
def qpLine (l : QByteArray) : QByteArray :=
  (l.zipIdx).flatMap fun p =>
    if p.1.toNat > 126 ∨ (p.1.toNat < 32 ∧ p.1 ≠ 9) ∨ p.1 = 61 ∨ (p.2 = 0 ∧ (p.1 = 70 ∨ p.1 = 46 ∨ p.1 = 45)) ∨
        (p.2 + 1 = l.length ∧ (p.1 = 32 ∨ p.1 = 9))
    then [61, hexByte (p.1.toNat / 16), hexByte (p.1.toNat % 16)] else [p.1]

/-- `KCodecs::quotedPrintableEncode(…, false)` -/
def qpEncode (b : QByteArray) : QByteArray := ((b.splitOn 10).map qpLine).intersperse [10] |>.flatten

/-- `KCodecs::quotedPrintableDecode`; the first argument bounds the number of steps. -/
def qpDecodeN : Nat → QByteArray → QByteArray
  | 0, _ => []
  | _, [] => []
  | n + 1, 61 :: 13 :: 10 :: t => qpDecodeN n t
  | n + 1, 61 :: 10 :: t => qpDecodeN n t
  | n + 1, 61 :: b :: c :: t =>
    match hexOf b, hexOf c with
    | some x, some y => UInt8.ofNat (x * 16 + y) :: qpDecodeN n t
    | _, _ => 61 :: qpDecodeN n (b :: c :: t)
  | n + 1, a :: t => a :: qpDecodeN n t

def qpDecode (b : QByteArray) : QByteArray := qpDecodeN (b.length + 1) b

/-- `%.6f` -/
def fmt6 : Flt → QString
  | .fin k =>
    let n := (k.natAbs * 10 ^ 6 * 2 + 2 ^ 149) / 2 ^ 150
    let frac := dec (n % 10 ^ 6)
    (if k < 0 then q! "-" else []) ++ dec (n / 10 ^ 6) ++ q! "." ++ List.replicate (6 - frac.length) (qc! '0') ++ frac
  | _ => q! "nan"

/-- the float nearest to n / d: 24 significant bits -/
def nearest (n d : Nat) : Nat :=
  let x := n * 2 ^ 149 / d
  let drop := x.log2 - 23
  (x + 2 ^ (drop - 1)) / 2 ^ drop * 2 ^ drop

/-- decimal number -/
def toFloat (s : QString) : Flt :=
  let t := trimmedQ s
  let neg := startsWith (q! "-") t
  let t := if neg then t.drop 1 else t
  let a := t.takeWhile (· ≠ qc! '.')
  let b := (t.dropWhile (· ≠ qc! '.')).drop 1
  let k := nearest ((toIntQ a).toNat * 10 ^ b.length + (toIntQ b).toNat) (10 ^ b.length)
  .fin (if neg then - (k : Int) else k)

def env : ToolEnv :=
  { Sample.env with
    fmt6 := fmt6
    toFloat := toFloat
    toDouble := toFloat
    qpEncode := qpEncode
    qpDecode := qpDecode
    decoder := fun n => if n = b! "utf-8" then some fromUtf8 else if n = b! "iso-8859-1" then some fromLatin1 else none }

/-- `converter.createVCards(converter.parseVCards(text), version)`, the round trip of autotests/testroundtrip.cpp:113-150. -/
def again (v : Version) (text : QByteArray) : QByteArray :=
  match parseContacts env Sample.ids (2 * text.length + 10) text with
  | .ok cs => createContacts env v false cs
  | _ => []

end KC.Conformance
