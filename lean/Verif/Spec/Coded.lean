import Verif.Spec.Writable
import Verif.Spec.SafeText
import Verif.Model.VCardTool
/-
  Specification: texts and parameters that a written vCard can carry.
-/
namespace KC
open Spec

/-- Only the characters from space to tilde. -/
def PlainAscii (s : QString) : Prop := ∀ u ∈ s, 32 ≤ u.toNat ∧ u.toNat ≤ 126

instance (s : QString) : Decidable (PlainAscii s) := by unfold PlainAscii; infer_instance

/-- A text that the quoted-printable codec and the UTF-8 codec restore, and whose coded form is not empty, has no backslash before
    n, N, r and does not end in '='. -/
structure Quotable (E : Codecs) (s : QString) : Prop where
  codecs : ∃ enc dec, E.encoder (b! "UTF-8") = some enc ∧ E.decoder (b! "utf-8") = some dec ∧
    dec (E.qpDecode (E.qpEncode (enc s))) = s ∧ E.qpEncode (enc s) ≠ [] ∧ EscapeSafe (E.qpEncode (enc s)) ∧
    (E.qpEncode (enc s)).getLast? ≠ some 61

/-- A text that a version of the format can carry in the fields that version 2.1 codes as quoted-printable when they are not plain
    ASCII. -/
def CodedText (E : Codecs) (v : Version) (s : QString) : Prop :=
  if v = .v2_1 ∧ ¬ PlainAscii s then Quotable E s else SafeText s

/-- A parameter map that can be written: names ascending (as in every `ParameterMap`), each with at least one value and no value
    twice, no `encoding` or `charset`, names and values as in `ParamOK`. -/
structure ParamsOK (m : ParameterMap) : Prop where
  ascending : Ascending (m.map (·.1))
  values : ∀ p ∈ m, p.2 ≠ [] ∧ p.2.Nodup
  coding : ∀ p ∈ m, p.1 ≠ q! "encoding" ∧ p.1 ≠ q! "charset"
  writable : ∀ p ∈ m, ∀ v ∈ p.2, ParamOK p.1 v

end KC
