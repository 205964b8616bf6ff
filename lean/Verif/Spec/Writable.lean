import Verif.Spec.Escape
import Verif.Spec.Text
import Verif.Model.Parser
import Verif.Props.C12
/-
  Specification: lines that can be written as vCard text and read back.
-/
namespace KC
open Spec

/-- Latin-1 text. -/
def Latin1 (s : QString) : Prop := ∀ u ∈ s, u.toNat < 256

/-- A parameter that can be written: Latin-1, the name without capital letters and without `;` `:` `=` LF, the value not empty,
    without `;` `:` `,` LF and not starting with a quotation mark. -/
structure ParamOK (k v : QString) : Prop where
  latinK : Latin1 k
  latinV : Latin1 v
  lowerK : ∀ u ∈ k, ¬ (65 ≤ u.toNat ∧ u.toNat ≤ 90)
  sepK : qc! ';' ∉ k ∧ qc! ':' ∉ k ∧ qc! '=' ∉ k ∧ (10 : UInt16) ∉ k
  neV : v ≠ []
  sepV : qc! ';' ∉ v ∧ qc! ':' ∉ v ∧ qc! ',' ∉ v ∧ (10 : UInt16) ∉ v
  quoteV : v.head? ≠ some (qc! '"')

/-- A name (property or group) that can be written: Latin-1 without `;` `:` `.` LF. -/
structure NameOK (s : QString) : Prop where
  latin : Latin1 s
  sep : qc! ';' ∉ s ∧ qc! ':' ∉ s ∧ qc! '.' ∉ s ∧ (10 : UInt16) ∉ s

/-- The values that can be written, given the parameters `h` of the line. -/
inductive ValueOK (E : Codecs) (h : List (QString × QString)) : QVariant → Prop
  /-- plain text: well-formed, not empty, no byte order mark in front, no backslash before n, N, r -/
  | text (s : QString) : (∀ p ∈ h, p.1 ≠ q! "encoding" ∧ p.1 ≠ q! "charset") → WellFormed s → s ≠ [] → s.head? ≠ some 0xFEFF →
      EscapeSafe (toUtf8 s) → ValueOK E h (.str s)
  /-- binary data under `encoding=b` -/
  | bytes (b : QByteArray) : (q! "encoding", q! "b") ∈ h → (∀ p ∈ h, (p.1 = q! "encoding" → p.2 = q! "b") ∧ p.1 ≠ q! "charset") →
      b ≠ [] → ValueOK E h (.bytes b)
  /-- text under `encoding=quoted-printable`, for a codec that restores it and does not end in '=' -/
  | quoted (s : QString) : (q! "encoding", q! "quoted-printable") ∈ h →
      (∀ p ∈ h, (p.1 = q! "encoding" → p.2 = q! "quoted-printable") ∧ p.1 ≠ q! "charset") →
      WellFormed s → s.head? ≠ some 0xFEFF →
      E.qpDecode (E.qpEncode (toUtf8 s)) = toUtf8 s → E.qpEncode (toUtf8 s) ≠ [] → EscapeSafe (E.qpEncode (toUtf8 s)) →
      (E.qpEncode (toUtf8 s)).getLast? ≠ some 61 → ValueOK E h (.str s)
  /-- text under a charset the codecs know: what the encoder writes the decoder restores -/
  | charset (s cs : QString) (enc : QString → QByteArray) (dec : QByteArray → QString) :
      (q! "charset", cs) ∈ h → (∀ p ∈ h, (p.1 = q! "charset" → p.2 = cs) ∧ p.1 ≠ q! "encoding") →
      E.encoder (toLatin1 cs) = some enc → E.decoder (toLowerB (toLatin1 cs)) = some dec →
      dec (enc s) = s → enc s ≠ [] → EscapeSafe (enc s) → ValueOK E h (.str s)

/-- A line that can be written. -/
structure LineOK (E : Codecs) (l : VCardLine) : Prop where
  name : NameOK l.identifier
  group : NameOK l.group
  /-- the line does not start with white space -/
  start : ∀ c, (if l.group = [] then l.identifier else l.group).head? = some c → c.toNat ≠ 32 ∧ ¬ (9 ≤ c.toNat ∧ c.toNat ≤ 13)
  /-- it is not the begin or end marker -/
  marker : toLowerB (toLatin1 l.identifier) ≠ b! "begin" ∧ toLowerB (toLatin1 l.identifier) ≠ b! "end"
  noRaw : l.base64Value = []
  /-- its parameters were added one by one, each of them and the value can be written -/
  params : ∃ h, l.params = paramsAfter h ∧ (∀ p ∈ h, ParamOK p.1 p.2) ∧ ValueOK E h l.value

end KC
