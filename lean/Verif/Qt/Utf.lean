import Verif.Qt.Basic
/-
  QString::toUtf8 / fromUtf8 (Qt 6). Qt is not in /repo; trusted description of its behaviour.
  The bit operations are written with division and remainder.
-/
namespace KC

/-- UTF-8 form of one code unit outside a surrogate pair; a lone surrogate becomes '?'. -/
def utf8Unit (n : Nat) : QByteArray :=
  if n < 0x80 then [UInt8.ofNat n]
  else if n < 0x800 then [UInt8.ofNat (0xC0 + n / 64), UInt8.ofNat (0x80 + n % 64)]
  else if n < 0xD800 ∨ 0xE000 ≤ n then
    [UInt8.ofNat (0xE0 + n / 4096), UInt8.ofNat (0x80 + n / 64 % 64), UInt8.ofNat (0x80 + n % 64)]
  else [63]

/-- UTF-8 form of a surrogate pair. -/
def utf8Pair (n m : Nat) : QByteArray :=
  let c := 0x10000 + (n - 0xD800) * 1024 + (m - 0xDC00)
  [UInt8.ofNat (0xF0 + c / 262144), UInt8.ofNat (0x80 + c / 4096 % 64), UInt8.ofNat (0x80 + c / 64 % 64),
   UInt8.ofNat (0x80 + c % 64)]

/-- `QString::toUtf8`: surrogate pairs become four bytes, a lone surrogate becomes '?'. -/
def toUtf8 : QString → QByteArray
  | [] => []
  | [u] => utf8Unit u.toNat
  | u :: v :: t =>
    if 0xD800 ≤ u.toNat ∧ u.toNat < 0xDC00 ∧ 0xDC00 ≤ v.toNat ∧ v.toNat < 0xE000 then
      utf8Pair u.toNat v.toNat ++ toUtf8 t
    else utf8Unit u.toNat ++ toUtf8 (v :: t)

/-- a continuation byte -/
def isCont (b : UInt8) : Bool := 0x80 ≤ b.toNat && b.toNat < 0xC0

/-- Decode the sequence at the head of the bytes: the code units and the number of continuation bytes used.
    A byte that does not start a valid sequence becomes U+FFFD
    (Qt's number of replacement characters for longer malformed sequences is not modelled more precisely). -/
def utf8Head (b : UInt8) (t : QByteArray) : QString × Nat :=
  let n := b.toNat
  let bad : QString × Nat := ([0xFFFD], 0)
  if n < 0x80 then ([UInt16.ofNat n], 0)
  else if n < 0xC2 then bad
  else if n < 0xE0 then
    match t with
    | c :: _ => if isCont c then ([UInt16.ofNat ((n - 0xC0) * 64 + (c.toNat - 0x80))], 1) else bad
    | _ => bad
  else if n < 0xF0 then
    match t with
    | c :: d :: _ =>
      let v := (n - 0xE0) * 4096 + (c.toNat - 0x80) * 64 + (d.toNat - 0x80)
      if isCont c ∧ isCont d ∧ 0x800 ≤ v ∧ (v < 0xD800 ∨ 0xE000 ≤ v) then ([UInt16.ofNat v], 2) else bad
    | _ => bad
  else
    match t with
    | c :: d :: e :: _ =>
      let v := (n - 0xF0) * 262144 + (c.toNat - 0x80) * 4096 + (d.toNat - 0x80) * 64 + (e.toNat - 0x80)
      if isCont c ∧ isCont d ∧ isCont e ∧ 0x10000 ≤ v ∧ v < 0x110000 then
        ([UInt16.ofNat (0xD800 + (v - 0x10000) / 1024), UInt16.ofNat (0xDC00 + (v - 0x10000) % 1024)], 3)
      else bad
    | _ => bad

/-- UTF-8 decoding without byte order mark handling; `skip` counts continuation bytes already used. -/
def decodeUtf8 : (skip : Nat) → QByteArray → QString
  | _, [] => []
  | k + 1, _ :: t => decodeUtf8 k t
  | 0, b :: t => (utf8Head b t).1 ++ decodeUtf8 (utf8Head b t).2 t

/-- `QString::fromUtf8`: a leading byte order mark (EF BB BF) is skipped, then the bytes are decoded. -/
def fromUtf8 (s : QByteArray) : QString :=
  if s.take 3 = [0xEF, 0xBB, 0xBF] then decodeUtf8 0 (s.drop 3) else decodeUtf8 0 s

end KC
