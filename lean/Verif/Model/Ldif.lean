import Verif.Qt.Base64
import Verif.Qt.Utf
/-
  Model of src/ldif.cpp (and src/ldif_p.h): lines of LDIF documents, and the parser that is fed with pieces of a document.
-/
namespace KC

/-! ### lines -/

/-- `value[i] > 0` for a (signed) `char`. -/
def charPositive (c : UInt8) : Bool := 0 < c && c < 128

/-- SAFE-INIT-CHAR and SAFE-CHAR, ldif.cpp:69-90. -/
def ldifSafe (isDn : Bool) : QByteArray → Bool
  | [] => true
  | c :: t =>
    charPositive c && c ≠ 10 && c ≠ 13 && c ≠ c! ':' && c ≠ c! '<' &&
    t.all fun d => !((isDn && d = 0) || (!isDn && !charPositive d) || d = 13 || d = 10)

/-- The folding loop, ldif.cpp:98-104: `n` bounds the iterations (each of them moves `i` towards the end of `result`).
    Simplification: no overflow of `int i`. -/
def ldifFold (linelen : Nat) : Nat → Nat → QByteArray → QByteArray
  | 0, _, result => result
  | n + 1, i, result => if i < result.length then ldifFold linelen n (i + linelen + 2) (result.take i ++ b! "\n " ++ result.drop i) else result

/-- `Ldif::assembleLine(const QString &, const QByteArray &, uint, bool)`, ldif.cpp:60-107. -/
def assembleLine (fieldname : QString) (value : QByteArray) (linelen : Nat) (url : Bool) : QByteArray :=
  if url then toUtf8 fieldname ++ b! ":< " ++ value
  else
    let isDn := toLowerQ fieldname = q! "dn"
    let result := if ldifSafe isDn value then toUtf8 fieldname ++ b! ": " ++ value else toUtf8 fieldname ++ b! ":: " ++ toBase64 value
    if 0 < linelen then ldifFold linelen result.length (if fieldname.length + 2 > linelen then fieldname.length + 2 else linelen) result
    else result

/-- `Ldif::splitLine`, ldif.cpp:114-159: field name, value, and whether the value is a URL. -/
def splitLine (line : QByteArray) : QString × QByteArray × Bool :=
  match indexOf? (c! ':') line with
  | none => ([], trimmedB line, false)
  | some position =>
    let fieldname := fromUtf8 (trimmedB (line.take position))
    if position + 1 < line.length && line.getD (position + 1) 0 = c! ':' then
      (fieldname, if line.length ≤ position + 3 then [] else fromBase64 (line.drop (position + 3)), false)
    else if position + 1 < line.length && line.getD (position + 1) 0 = c! '<' then
      if line.length ≤ position + 3 then (fieldname, [], false)
      else (fieldname, fromBase64 (line.drop (position + 3)), true)
    else (fieldname, if line.length ≤ position + 2 then [] else line.drop (position + 2), false)

/-- `Ldif::splitControl`, ldif.cpp:161-181: the object identifier, whether it is critical, the value, whether the value is a URL.
    `chop(n)` with `n` larger than the text leaves nothing. -/
def splitControl (line : QByteArray) : QString × Bool × QByteArray × Bool :=
  let (tmp, value, url) := splitLine line
  let (tmp, value) := if tmp.isEmpty then (fromUtf8 value, []) else (tmp, value)
  if endsWith (q! "true") tmp then (tmp.take (tmp.length - 5), true, value, url)
  else if endsWith (q! "false") tmp then (tmp.take (tmp.length - 6), false, value, url)
  else (tmp, false, value, url)

/-! ### the parser -/

/-- `Ldif::ParseValue`, ldif_p.h. -/
inductive ParseValue where
  | none | newEntry | endEntry | item | control | err | moreData
deriving DecidableEq

/-- `Ldif::EntryType`, ldif_p.h. -/
inductive EntryType where
  | none | add | del | mod | modrdn
deriving DecidableEq

/-- `Ldif::ModType`, ldif_p.h. -/
inductive ModType where
  | none | add | replace | del
deriving DecidableEq

/-- `Ldif::LdifPrivate`, ldif.cpp:14-28. `rest` is `mLdif` from `mPos` on. `mUrl`, `mCritical` are not initialised by the code; their
    value before the first processed line is never used by it. -/
structure Ldif where
  modType : ModType := .none
  delOldRdn : Bool := false
  url : Bool := false
  dn : QByteArray := []
  attr : QString := []
  newRdn : QString := []
  newSuperior : QString := []
  oid : QString := []
  rest : QByteArray := []
  value : QByteArray := []
  entryType : EntryType := .none
  isNewLine : Bool := false
  isComment : Bool := false
  critical : Bool := false
  last : ParseValue := .none
  lineNumber : Nat := 0
  line : QByteArray := []
deriving DecidableEq

/-- `Ldif::startParsing`, ldif.cpp:356-368. `mPos = 0` goes back to the start of the text, which `rest` does not keep: the caller sets a new
    text afterwards, as all callers do. (`mDn`, `mAttr`, `mValue`, `mOid` keep their values.) -/
def Ldif.startParsing (s : Ldif) (text : QByteArray) : Ldif :=
  { s with rest := text, lineNumber := 0, delOldRdn := false, entryType := .none, modType := .none, newRdn := [], newSuperior := [], line := [],
           isNewLine := false, isComment := false, last := .none }

/-- `Ldif::setLdif`, ldif.cpp:370-374. -/
def Ldif.setLdif (s : Ldif) (text : QByteArray) : Ldif := { s with rest := text }

/-- `Ldif::endLdif`, ldif.cpp:349-354. -/
def Ldif.endLdif (s : Ldif) : Ldif := { s with rest := [10, 10, 10] }

/-- `case Entry_None`, ldif.cpp:201-240. -/
def Ldif.lineNone (s : Ldif) : ParseValue × Ldif :=
  let attrLower := toLowerQ s.attr
  if attrLower = q! "version" then (if !s.dn.isEmpty then .err else .none, s)
  else if attrLower = q! "dn" then (.newEntry, { s with dn := s.value, modType := .none })
  else if attrLower = q! "changetype" then
    if s.dn.isEmpty then (.err, s)
    else
      let tmpval := fromUtf8 s.value
      if tmpval = q! "add" then (.none, { s with entryType := .add })
      else if tmpval = q! "delete" then (.none, { s with entryType := .del })
      else if tmpval = q! "modrdn" || tmpval = q! "moddn" then
        (.none, { s with newRdn := [], newSuperior := [], delOldRdn := true, entryType := .modrdn })
      else if tmpval = q! "modify" then (.none, { s with entryType := .mod })
      else (.err, s)
  else if attrLower = q! "control" then
    let (oid, critical, value, url) := splitControl s.value
    (.control, { s with oid := oid, critical := critical, value := value, url := url })
  else if !s.attr.isEmpty && !s.value.isEmpty then (.item, { s with entryType := .add })
  else (.none, s)

/-- `case Entry_Mod`, ldif.cpp:255-286. -/
def Ldif.lineMod (s : Ldif) : ParseValue × Ldif :=
  let attrLower := toLowerQ s.attr
  if s.modType = .none then
    if s.attr.isEmpty && s.value.isEmpty then (.endEntry, s)
    else if attrLower = q! "add" then (.none, { s with modType := .add })
    else if attrLower = q! "replace" then (.item, { s with modType := .replace, attr := fromUtf8 s.value, value := [] })
    else if attrLower = q! "delete" then (.item, { s with modType := .del, attr := fromUtf8 s.value, value := [] })
    else (.err, s)
  else if s.attr.isEmpty then
    if fromUtf8 s.value = q! "-" then (.none, { s with modType := .none })
    else if s.value.isEmpty then (.endEntry, s) else (.err, s)
  else (.item, s)

/-- `case Entry_Modrdn`, ldif.cpp:287-304. -/
def Ldif.lineModrdn (s : Ldif) : ParseValue × Ldif :=
  let attrLower := toLowerQ s.attr
  if s.attr.isEmpty && s.value.isEmpty then (.endEntry, s)
  else if attrLower = q! "newrdn" then (.none, { s with newRdn := fromUtf8 s.value })
  else if attrLower = q! "newsuperior" then (.none, { s with newSuperior := fromUtf8 s.value })
  else if attrLower = q! "deleteoldrdn" then
    if s.value.head? = some (c! '0') then (.none, { s with delOldRdn := false })
    else if s.value.head? = some (c! '1') then (.none, { s with delOldRdn := true })
    else (.err, s)
  else (.err, s)

/-- The `switch` on the entry type, ldif.cpp:200-305. -/
def Ldif.lineOf (s : Ldif) : ParseValue × Ldif :=
  match s.entryType with
  | .none => s.lineNone
  | .add => (if s.attr.isEmpty && s.value.isEmpty then .endEntry else .item, s)
  | .del => (if s.attr.isEmpty && s.value.isEmpty then .endEntry else .err, s)
  | .mod => s.lineMod
  | .modrdn => s.lineModrdn

/-- `Ldif::processLine`, ldif.cpp:183-307. -/
def Ldif.processLine (s : Ldif) : ParseValue × Ldif :=
  if s.isComment then (.none, s)
  else ({ s with entryType := if s.last = .endEntry then .none else s.entryType,
                 attr := (splitLine s.line).1, value := (splitLine s.line).2.1, url := (splitLine s.line).2.2 } : Ldif).lineOf

/-- One character: the body of the loop in `Ldif::nextItem`, ldif.cpp:315-344. The result is `none` if the loop goes on. -/
def Ldif.char (s : Ldif) (c : UInt8) : ParseValue × Ldif :=
  if s.isNewLine && c = 13 then (.none, s)
  else if s.isNewLine && (c = 32 || c = 9) then (.none, { s with isNewLine := false })
  else
    let (retval, s) : ParseValue × Ldif :=
      if s.isNewLine then
        let (retval, s) := ({ s with isNewLine := false } : Ldif).processLine
        (retval, { s with last := retval, line := [], isComment := c = c! '#' })
      else (.none, s)
    if c = 10 || c = 13 then (retval, { s with lineNumber := s.lineNumber + 1, isNewLine := true })
    else (retval, if !s.isComment then { s with line := s.line ++ [c] } else s)

/-- The loop of `Ldif::nextItem`, ldif.cpp:309-347, over the characters left. -/
def Ldif.scan (s : Ldif) : QByteArray → ParseValue × Ldif
  | [] => (.moreData, { s with rest := [] })
  | c :: t =>
    match s.char c with
    | (.none, s') => s'.scan t
    | (r, s') => (r, { s' with rest := t })

/-- `Ldif::nextItem`, ldif.cpp:309-347. -/
def Ldif.nextItem (s : Ldif) : ParseValue × Ldif := s.scan s.rest

end KC
