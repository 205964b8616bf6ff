/-
  The parts of Qt's QByteArray / QString API that kcontacts calls, as functions on lists.

  QByteArray is a list of bytes, QString is a list of UTF-16 code units.
  Qt itself is not part of /repo: these definitions are part of the trusted base (see DESIGN.md).
-/
namespace KC

/-- `QByteArray`: a sequence of bytes. -/
abbrev QByteArray := List UInt8
/-- `QString`: a sequence of UTF-16 code units (`QChar`). -/
abbrev QString := List UInt16

open Lean in
/-- QString literal (`QStringLiteral("…")`, `QLatin1String("…")`), elaborated to an explicit list of code units. -/
macro "q!" s:str : term => do
  let lits := s.getString.toList.map fun c => Syntax.mkNumLit (toString c.toNat)
  `(([ $(lits.toArray),* ] : List UInt16))

open Lean in
/-- QByteArray literal (`"…"` as `const char *`), elaborated to an explicit list of bytes. -/
macro "b!" s:str : term => do
  let lits := s.getString.toList.map fun c => Syntax.mkNumLit (toString c.toNat)
  `(([ $(lits.toArray),* ] : List UInt8))

open Lean in
/-- QChar literal (`QLatin1Char('…')`). -/
macro "qc!" c:char : term => do
  let l := Syntax.mkNumLit (toString c.getChar.toNat)
  `(($l : UInt16))

open Lean in
/-- `char` literal. -/
macro "c!" c:char : term => do
  let l := Syntax.mkNumLit (toString c.getChar.toNat)
  `(($l : UInt8))

section generic
variable {α : Type} [DecidableEq α]

/-- `QByteArray::replace(char, const char*)`, `QString::replace(QChar, QString)`: every occurrence of one element. -/
def replaceChar (c : α) (by_ : List α) (s : List α) : List α :=
  s.flatMap fun x => if x = c then by_ else [x]

/-- `QByteArray::replace("ab", after)` for a two element pattern: leftmost, non-overlapping occurrences,
    the replacement text is not rescanned. -/
def replace2 (a b : α) (by_ : List α) : List α → List α
  | [] => []
  | [x] => [x]
  | x :: y :: t => if x = a ∧ y = b then by_ ++ replace2 a b by_ t else x :: replace2 a b by_ (y :: t)

/-- `remove(QChar)`: delete every occurrence. -/
def removeChar (c : α) (s : List α) : List α := s.filter (fun x => x ≠ c)

/-- `indexOf(c)`; `none` stands for -1. -/
def indexOf? (c : α) : List α → Option Nat
  | [] => none
  | x :: t => if x = c then some 0 else (indexOf? c t).map (· + 1)

/-- `indexOf(c, from)` for `0 ≤ from`; `none` stands for -1. -/
def indexOfFrom? (c : α) (s : List α) (i : Nat) : Option Nat := (indexOf? c (s.drop i)).map (· + i)

/-- `mid(pos, len)` for non-negative arguments. -/
def mid (s : List α) (pos len : Nat) : List α := (s.drop pos).take len

/-- `QStringList::join(sep)` / `QList<QByteArray>::join`. -/
def join (sep : List α) : List (List α) → List α
  | [] => []
  | [x] => x
  | x :: y :: t => x ++ sep ++ join sep (y :: t)

/-- `QString::split(sep, Qt::KeepEmptyParts)`. -/
def splitOn (sep : α) : List α → List (List α)
  | [] => [[]]
  | x :: t =>
    if x = sep then [] :: splitOn sep t
    else match splitOn sep t with
      | [] => [[x]]
      | h :: r => (x :: h) :: r

/-- `startsWith(prefix)`. -/
def startsWith (pre s : List α) : Bool := s.take pre.length == pre

/-- `endsWith(suffix)`. -/
def endsWith (suf s : List α) : Bool := suf.length ≤ s.length && s.drop (s.length - suf.length) == suf

/-- `endsWith(char)`. -/
def endsWithChar (c : α) (s : List α) : Bool := s.getLast? == some c

/-- `chop(1)`. -/
def chop1 (s : List α) : List α := s.dropLast

/-- `QString::remove(sub)` / `replace(sub, after)` for an arbitrary non-empty pattern:
    leftmost, non-overlapping occurrences (an empty pattern is not used by the code). -/
def replaceAll (pat by_ : List α) : Nat → List α → List α
  | 0, s => s
  | _ + 1, [] => []
  | n + 1, x :: t =>
    if pat ≠ [] ∧ startsWith pat (x :: t) then by_ ++ replaceAll pat by_ n ((x :: t).drop pat.length)
    else x :: replaceAll pat by_ n t

/-- `replace(before, after)`; fuel = length suffices as each step consumes at least one element. -/
def replaceStr (pat by_ s : List α) : List α := replaceAll pat by_ s.length s

/-- Position of the first occurrence of a sub-sequence: `indexOf(str)`, `none` stands for -1. -/
def indexOfStr? (pat : List α) : List α → Option Nat
  | [] => if pat = [] then some 0 else none
  | x :: t => if startsWith pat (x :: t) then some 0 else (indexOfStr? pat t).map (· + 1)

end generic

/-- `QByteArray::trimmed` white space: `ascii_isspace`: space, \t \n \v \f \r. -/
def isSpaceB (c : UInt8) : Bool := c = 32 || (9 ≤ c && c ≤ 13)

/-- `QChar::isSpace` restricted to the code units that occur in practice: ASCII white space, U+0085, U+00A0 and
    the Unicode space separators. -/
def isSpaceQ (c : UInt16) : Bool :=
  c = 32 || (9 ≤ c && c ≤ 13) || c = 0x85 || c = 0xA0 || c = 0x1680 || (0x2000 ≤ c && c ≤ 0x200A)
    || c = 0x2028 || c = 0x2029 || c = 0x202F || c = 0x205F || c = 0x3000

/-- `trimmed()` for a given white space predicate. -/
def trim {α : Type} (sp : α → Bool) (s : List α) : List α :=
  ((s.dropWhile sp).reverse.dropWhile sp).reverse

/-- `QByteArray::trimmed()`. -/
def trimmedB (s : QByteArray) : QByteArray := trim isSpaceB s
/-- `QString::trimmed()`. -/
def trimmedQ (s : QString) : QString := trim isSpaceQ s

/-- Maximal runs of non-space elements, in order. -/
def words {α : Type} (sp : α → Bool) : List α → List (List α)
  | [] => []
  | x :: t =>
    if sp x then words sp t
    else match t with
      | [] => [[x]]
      | y :: _ =>
        if sp y then [x] :: words sp t
        else match words sp t with
          | [] => [[x]]
          | w :: r => (x :: w) :: r

/-- `QString::simplified()`: trimmed, every internal white space run replaced by one space. -/
def simplified (s : QString) : QString := join [32] (words isSpaceQ s)

/-- `QByteArray::toLower()` (ASCII only in Qt 6). -/
def lowerB (c : UInt8) : UInt8 := if 65 ≤ c ∧ c ≤ 90 then c + 32 else c
/-- `QByteArray::toUpper()` (ASCII only in Qt 6). -/
def upperB (c : UInt8) : UInt8 := if 97 ≤ c ∧ c ≤ 122 then c - 32 else c
def toLowerB (s : QByteArray) : QByteArray := s.map lowerB
def toUpperB (s : QByteArray) : QByteArray := s.map upperB

/-- `QChar::toLower` on Latin-1; identity elsewhere (simplification: other scripts are not case mapped;
    the code only compares results with ASCII literals or stores them). -/
def lowerQ (c : UInt16) : UInt16 :=
  if (65 ≤ c ∧ c ≤ 90) ∨ (0xC0 ≤ c ∧ c ≤ 0xDE ∧ c ≠ 0xD7) then c + 32 else c
/-- `QChar::toUpper` on ASCII and Latin-1 letters that have an upper case partner in Latin-1; identity elsewhere. -/
def upperQ (c : UInt16) : UInt16 :=
  if (97 ≤ c ∧ c ≤ 122) ∨ (0xE0 ≤ c ∧ c ≤ 0xFE ∧ c ≠ 0xF7) then c - 32 else c
def toLowerQ (s : QString) : QString := s.map lowerQ
def toUpperQ (s : QString) : QString := s.map upperQ

/-- `QString::fromLatin1`. -/
def fromLatin1 (s : QByteArray) : QString := s.map fun b => UInt16.ofNat b.toNat
/-- `QString::toLatin1`: code units above 255 become '?'. -/
def toLatin1 (s : QString) : QByteArray := s.map fun c => if c.toNat < 256 then UInt8.ofNat c.toNat else 63

/-- Lexicographic order of code units (`operator<` of QString). -/
def qlt : QString → QString → Bool
  | [], [] => false
  | [], _ :: _ => true
  | _ :: _, [] => false
  | a :: s, b :: t => if a = b then qlt s t else a < b

end KC
