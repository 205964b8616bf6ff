import Verif.Qt.Basic
/-
  QByteArray::toBase64 / fromBase64 (Qt 6, default options: Base64Encoding | KeepTrailingEquals on encoding,
  IgnoreBase64DecodingErrors on decoding). Qt is not in /repo; trusted description of its behaviour.
-/
namespace KC

/-- Alphabet of base64: A-Z a-z 0-9 + /. -/
def enc6 (n : Nat) : UInt8 :=
  if n < 26 then UInt8.ofNat (65 + n)
  else if n < 52 then UInt8.ofNat (97 + (n - 26))
  else if n < 62 then UInt8.ofNat (48 + (n - 52))
  else if n = 62 then 43 else 47

/-- `QByteArray::toBase64()`: three bytes become four characters, the last group is padded with '='. -/
def toBase64 : QByteArray → QByteArray
  | [] => []
  | [a] => [enc6 (a.toNat / 4), enc6 (a.toNat % 4 * 16), 61, 61]
  | [a, b] => [enc6 (a.toNat / 4), enc6 (a.toNat % 4 * 16 + b.toNat / 16), enc6 (b.toNat % 16 * 4), 61]
  | a :: b :: c :: t =>
    enc6 (a.toNat / 4) :: enc6 (a.toNat % 4 * 16 + b.toNat / 16) :: enc6 (b.toNat % 16 * 4 + c.toNat / 64)
      :: enc6 (c.toNat % 64) :: toBase64 t

/-- Value of a base64 character; `none` for every other byte (including '='). -/
def dec6 (c : UInt8) : Option Nat :=
  if 65 ≤ c ∧ c ≤ 90 then some (c.toNat - 65)
  else if 97 ≤ c ∧ c ≤ 122 then some (c.toNat - 97 + 26)
  else if 48 ≤ c ∧ c ≤ 57 then some (c.toNat - 48 + 52)
  else if c = 43 then some 62
  else if c = 47 then some 63
  else none

/-- The decoding loop: `buf` holds `nbits` pending bits; bytes outside the alphabet are skipped. -/
def decode64 : (buf nbits : Nat) → QByteArray → QByteArray
  | _, _, [] => []
  | buf, nbits, c :: t =>
    match dec6 c with
    | none => decode64 buf nbits t
    | some d =>
      let buf' := buf * 64 + d
      let nbits' := nbits + 6
      if nbits' ≥ 8 then
        UInt8.ofNat (buf' / 2 ^ (nbits' - 8)) :: decode64 (buf' % 2 ^ (nbits' - 8)) (nbits' - 8) t
      else decode64 buf' nbits' t

/-- `QByteArray::fromBase64(data)`. -/
def fromBase64 (s : QByteArray) : QByteArray := decode64 0 0 s

end KC
