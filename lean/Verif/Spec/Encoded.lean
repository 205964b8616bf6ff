import Verif.Spec.Parameters
import Verif.Spec.Text
/-
  The encodings and character sets in which the text of a vCard property can be written (C106).
-/
namespace KC.Spec

/-- `EscapedText t v`: the value `v` is the text `t` in which line ends and commas may be written with a backslash. The text has no backslash. -/
inductive EscapedText : List UInt8 → List UInt8 → Prop
  | nil : EscapedText [] []
  | same {t v : List UInt8} (c : UInt8) : c ≠ c! '\\' → EscapedText t v → EscapedText (c :: t) (c :: v)
  | lineFeed {t v : List UInt8} (e : UInt8) : e = c! 'n' ∨ e = c! 'N' → EscapedText t v → EscapedText (10 :: t) (c! '\\' :: e :: v)
  | carriageReturn {t v : List UInt8} : EscapedText t v → EscapedText (13 :: t) (c! '\\' :: c! 'r' :: v)
  | comma {t v : List UInt8} : EscapedText t v → EscapedText (c! ',' :: t) (c! '\\' :: c! ',' :: v)

/-- The encodings that are known, in lower case. -/
def knownEncodings : List (List UInt8) := [b! "8bit", b! "quoted-printable", b! "b", b! "base64"]

/-- The value stands for these bytes in this encoding: none or 8bit, with escapes; quoted-printable; base64. A value in an encoding that is not known stands
    for nothing. -/
def TransferredAs (E : Codecs) (encoding : Option (List UInt8)) (bytes value : List UInt8) : Prop :=
  ((encoding = none ∨ encoding.map (·.map lowerByte) = some (b! "8bit")) ∧ EscapedText bytes value) ∨
  (encoding.map (·.map lowerByte) = some (b! "quoted-printable") ∧ c! '\\' ∉ value ∧ E.qpDecode value = bytes) ∨
  ((encoding.map (·.map lowerByte) = some (b! "b") ∨ encoding.map (·.map lowerByte) = some (b! "base64")) ∧ value = toBase64 bytes) ∨
  (∃ e, encoding = some e ∧ e ≠ [] ∧ e.map lowerByte ∉ knownEncodings ∧ bytes = [])

/-- The bytes stand for this text: in UTF-8 (not beginning with U+FEFF, see C11), or in the character set that is named, if there is a decoder for it; if there
    is none they are taken for UTF-8. -/
def InCharset (E : Codecs) (charset : Option (List UInt8)) (s : List UInt16) (bytes : List UInt8) : Prop :=
  ((∀ cs, charset = some cs → cs = [] ∨ E.decoder (cs.map lowerByte) = none) ∧ s.head? ≠ some 0xFEFF ∧ ∃ cs : List Char, s = utf16 cs ∧ bytes = utf8 cs) ∨
  ∃ cs dec, charset = some cs ∧ cs ≠ [] ∧ E.decoder (cs.map lowerByte) = some dec ∧ dec bytes = s

/-- The property has this name, these parameters and, decoded, this text. (If a parameter is given more than once the last one counts.) -/
def WrittenProperty.Means (E : Codecs) (p : WrittenProperty) (name : List UInt8) (params : List (List UInt8 × List UInt8)) (s : List UInt16) : Prop :=
  ∃ value bytes, p.Says name params value ∧ TransferredAs E (valuesOf params (b! "encoding")).getLast? bytes value ∧
    InCharset E (valuesOf params (b! "charset")).getLast? s bytes

/-- The properties of which the contact keeps the text, and not the parameters. -/
def textProperties : List (List UInt8) :=
  [b! "anniversary", b! "bday", b! "deathdate", b! "categories", b! "class", b! "gender", b! "kind", b! "fn", b! "geo", b! "mailer", b! "n", b! "name", b! "note",
   b! "prodid", b! "rev", b! "sort-string", b! "tz", b! "uid", b! "source", b! "member"]

/-- Two ways of writing the same text: only the encoding and the character set differ. -/
def WrittenProperty.SameText (E : Codecs) (p q : WrittenProperty) : Prop :=
  p.unfolded = q.unfolded ∨ ∃ name a b s, name.map lowerByte ∈ textProperties ∧ p.Means E name a s ∧ q.Means E name b s ∧
    ∀ k, k ≠ b! "encoding" → k ≠ b! "charset" → valuesOf a k = valuesOf b k

end KC.Spec
