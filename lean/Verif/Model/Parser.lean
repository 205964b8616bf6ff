import Verif.Qt.Utf
import Verif.Qt.Base64
import Verif.Model.Escape
import Verif.Model.Fold
import Verif.Model.VCard
/-
  Reading and writing vCard text: src/vcardparser/vcardparser.cpp
-/
namespace KC

/-- Functions that live outside /repo and are not fixed bit-exactly by the code: charset codecs
    (`QStringDecoder`/`QStringEncoder`, `none` = not valid) and the quoted-printable codec of KCodecs. -/
structure Codecs where
  decoder : QByteArray → Option (QByteArray → QString)
  encoder : QByteArray → Option (QString → QByteArray)
  qpEncode : QByteArray → QByteArray
  qpDecode : QByteArray → QByteArray

/-- `enum State` of `parseLine`, vcardparser.cpp:104-111. -/
inductive PState where
  | initial | paramKey | paramValue | quotedValue | afterParamValue | value
deriving DecidableEq

/-- Variables of `VCardLineParser::parseLine`. `tok` is `currentLine.mid(start, pos - start)`, so `pos == start`
    is `tok = []`. -/
structure PL where
  st : PState := .initial
  tok : QByteArray := []
  key : QByteArray := []
  line : VCardLine := {}
  enc : QByteArray := []
  charset : QByteArray := []
deriving DecidableEq

/-- `VCardLineParser::addParameter`, vcardparser.cpp:86-95. The string cache is the identity on values. -/
def PL.addParameter (p : PL) (paramKey paramValue : QByteArray) : PL :=
  { p with
    enc := if paramKey = b! "encoding" then toLowerB paramValue else p.enc
    charset := if paramKey = b! "encoding" then p.charset
               else if paramKey = b! "charset" then toLowerB paramValue else p.charset
    line := p.line.addParameter (fromLatin1 paramKey) (fromLatin1 paramValue) }

/-- One iteration of the loop vcardparser.cpp:119-201 (the `switch`). -/
def PL.step (p : PL) (ch : UInt8) : PL :=
  match p.st with
  | .initial =>                                                     -- 123-138
    if ch = c! ';' then
      { p with line := { p.line with identifier := fromLatin1 p.tok }, tok := [], st := .paramKey }
    else if ch = c! ':' then
      { p with line := { p.line with identifier := fromLatin1 p.tok }, tok := [], st := .value }
    else if ch = c! '.' then
      { p with line := { p.line with group := fromLatin1 p.tok }, tok := [] }
    else { p with tok := p.tok ++ [ch] }
  | .paramKey =>                                                    -- 139-162
    if ch = c! ';' ∨ ch = c! ':' then
      let lowerKey := toLowerB p.tok
      let k := if lowerKey = b! "quoted-printable" ∨ lowerKey = b! "base64" then b! "encoding" else b! "type"
      let p' := p.addParameter k p.tok
      { p' with key := k, tok := [], st := if ch = c! ';' then .paramKey else .value }
    else if ch = c! '=' then { p with key := p.tok, tok := [], st := .paramValue }
    else { p with tok := p.tok ++ [ch] }
  | .quotedValue =>                                                 -- 163-173
    if ch = c! '"' ∨ (ch = c! ',' ∧ toLowerB p.key = b! "type") then
      let p' := p.addParameter (toLowerB p.key) p.tok
      { p' with tok := [], st := if ch = c! '"' then .afterParamValue else .quotedValue }
    else { p with tok := p.tok ++ [ch] }
  | .paramValue =>                                                  -- 174-192
    if ch = c! ';' ∨ ch = c! ':' ∨ ch = c! ',' then
      let p' := p.addParameter (toLowerB p.key) p.tok
      { p' with tok := [], st := if ch = c! ';' then .paramKey else if ch = c! ':' then .value else .paramValue }
    else if p.tok = [] ∧ ch = c! '"' then { p with st := .quotedValue, tok := [] }
    else { p with tok := p.tok ++ [ch] }
  | .afterParamValue =>                                             -- 182-192
    if ch = c! ';' then { p with st := .paramKey, tok := [] }
    else if ch = c! ':' then { p with st := .value }
    else if p.tok = [] ∧ ch = c! '"' then { p with st := .quotedValue, tok := [] }
    else { p with tok := p.tok ++ [ch] }
  | .value => p                                                     -- unreachable, 193-195

/-- The loop vcardparser.cpp:119-201: stops at the ':' that starts the value; `none` when there is none.
    Second component: the bytes after that ':'. -/
def PL.scan : PL → QByteArray → PL × Option QByteArray
  | p, [] => (p, none)
  | p, ch :: t =>
    let p' := p.step ch
    if p'.st = .value then (p', some t) else PL.scan p' t

/-- Decoding of the value, vcardparser.cpp:211-246, after any quoted-printable continuation lines were joined. -/
def PL.decodeValue (E : Codecs) (p : PL) (value : QByteArray) : VCardLine :=
  let isB := p.enc = b! "b" ∨ p.enc = b! "base64"
  let output : QByteArray :=
    if p.enc ≠ [] then
      if isB then fromBase64 value
      else if p.enc = b! "quoted-printable" then E.qpDecode value
      else if p.enc = b! "8bit" then value
      else []                                                        -- "Unknown vcard encoding type!"
    else value
  if p.charset ≠ [] then
    match E.decoder p.charset with
    | some dec => { p.line with value := .str (dec output) }
    | none => { p.line with value := .str (fromUtf8 output) }
  else if p.enc ≠ [] ∧ isB then { p.line with value := .bytes output }
  else { p.line with value := .str (fromUtf8 output) }

/-- The value asks for another physical line: quoted-printable and a trailing '=' (vcardparser.cpp:218-223). -/
def PL.wantsMore (p : PL) (value : QByteArray) : Bool :=
  p.enc = b! "quoted-printable" && endsWithChar (c! '=') value

/-- Variables of the reader loop that the `fetchAnotherLine` closure changes: `lineStart`, `lineEnd`, `cur`. -/
structure Cursor where
  lineStart : Int
  lineEnd : Int
  cur : QByteArray
deriving DecidableEq

/-- `QByteArray::mid(pos, len)`: a negative length means "to the end". -/
def midI (s : QByteArray) (pos len : Int) : QByteArray :=
  if len < 0 then s.drop pos.toNat else (s.drop pos.toNat).take len.toNat

/-- `QByteArray::indexOf(c, from)` with -1 for "not found"; `from ≥ 0` in all calls. -/
def indexOfI (s : QByteArray) (c : UInt8) (frm : Int) : Int :=
  match indexOfFrom? c s frm.toNat with
  | some i => i
  | none => -1

/-- Remove the trailing CR, vcardparser.cpp:274-277 and 297-300. -/
def chopCR (s : QByteArray) : QByteArray := if endsWithChar 13 s then chop1 s else s

/-- `fetchAnotherLine`, vcardparser.cpp:291-303. -/
def fetchAnotherLine (text : QByteArray) (σ : Cursor) : QByteArray × Cursor :=
  let lineStart := σ.lineEnd + 1
  let lineEnd := indexOfI text 10 lineStart
  let cur := if lineEnd ≠ -1 then chopCR (midI text lineStart (lineEnd - lineStart)) else σ.cur
  (σ.cur, { lineStart, lineEnd, cur })

/-- The loop joining quoted-printable lines, vcardparser.cpp:220-223. Fuel runs out = does not terminate. -/
def joinQP (text : QByteArray) : Nat → QByteArray → Cursor → Option (QByteArray × Cursor)
  | 0, _, _ => none
  | n + 1, value, σ =>
    if endsWithChar (c! '=') value then
      let (l, σ') := fetchAnotherLine text σ
      joinQP text n (chop1 value ++ l) σ'
    else some (value, σ)

/-- `VCardLineParser::parseLine`, vcardparser.cpp:97-247. -/
def parseLine (E : Codecs) (text : QByteArray) (fuel : Nat) (currentLine : QByteArray) (σ : Cursor) :
    Option (VCardLine × Cursor) :=
  match PL.scan {} currentLine with
  | (p, none) => some (p.line, σ)                                    -- 203-205
  | (p, some rest) =>
    let value := removeEscapes rest
    if p.enc = b! "quoted-printable" then
      match joinQP text fuel value σ with
      | none => none
      | some (v, σ') => some (p.decodeValue E v, σ')
    else some (p.decodeValue E value, σ)

/-- Variables of the reader loop, vcardparser.cpp:261-271. -/
structure Reader where
  lineStart : Int
  lineEnd : Int
  currentLine : QByteArray
  inVCard : Bool
  card : VCard
  out : List VCard
deriving DecidableEq

/-- `qstrnicmp(cur.constData(), "begin:vcard", 11) == 0`, vcardparser.cpp:313, and the same for "end:vcard". -/
def startsWithCI (pre cur : QByteArray) : Bool := toLowerB (cur.take pre.length) == pre

/-- `cur.startsWith(' ') || cur.startsWith('\t')`, vcardparser.cpp:279-280. -/
def isFolded (cur : QByteArray) : Bool := cur.head? == some 32 || cur.head? == some 9

/-- `cur.trimmed().isEmpty()`, vcardparser.cpp:284. -/
def isBlank (cur : QByteArray) : Bool := (trimmedB cur).isEmpty

/-- Loop body after the line was possibly parsed: the markers, vcardparser.cpp:312-328. -/
def markers (cur : QByteArray) (r : Reader) : Reader :=
  if startsWithCI (b! "begin:vcard") cur then { r with inVCard := true, currentLine := [], card := [] }
  else if startsWithCI (b! "end:vcard") cur then
    { r with inVCard := false, out := r.out ++ [r.card], currentLine := [], card := [] }
  else { r with currentLine := cur }

/-- The loop body, vcardparser.cpp:273-329. -/
def readBody (E : Codecs) (text : QByteArray) (fuel : Nat) (r : Reader) : Option Reader :=
  let cur := chopCR (midI text r.lineStart (r.lineEnd - r.lineStart))
  if isFolded cur then some { r with currentLine := r.currentLine ++ cur.drop 1 }
  else if isBlank cur then some r
  else if r.inVCard ∧ r.currentLine ≠ [] then
    match parseLine E text fuel r.currentLine ⟨r.lineStart, r.lineEnd, cur⟩ with
    | none => none
    | some (l, σ) => some (markers σ.cur { r with lineStart := σ.lineStart, lineEnd := σ.lineEnd, card := r.card.addLine l })
  else some (markers cur r)

/-- The increment of the `for` loop, vcardparser.cpp:272. -/
def readNext (text : QByteArray) (r : Reader) : Reader :=
  let lineStart := r.lineEnd + 1
  let i := indexOfI text 10 lineStart
  { r with lineStart := lineStart, lineEnd := if i = -1 then text.length else i }

/-- The `for` loop, vcardparser.cpp:271-330; `none` when the fuel does not suffice. -/
def readLoop (E : Codecs) (text : QByteArray) : Nat → Reader → Option (List VCard)
  | 0, _ => none
  | n + 1, r =>
    if r.lineStart = text.length + 1 then some r.out
    else match readBody E text n r with
      | none => none
      | some r' => readLoop E text n (readNext text r')

/-- `VCardParser::parseVCards`, vcardparser.cpp:259-333, with a bound on the number of loop iterations. -/
def parseVCards (E : Codecs) (fuel : Nat) (text : QByteArray) : Option (List VCard) :=
  readLoop E text fuel
    { lineStart := 0, lineEnd := indexOfI text 10 0, currentLine := [], inVCard := false, card := [], out := [] }

/-- Name and parameters of a written line, vcardparser.cpp:419-442. -/
def writeHead (l : VCardLine) : QByteArray :=
  let ident := if l.group ≠ [] then toLatin1 l.group ++ [c! '.'] ++ toLatin1 l.identifier else toLatin1 l.identifier
  l.parameterList.foldl (fun textLine param =>
    (l.parameters param).foldl (fun textLine str =>
      let textLine := textLine ++ [c! ';'] ++ toUpperB (toLatin1 param)
      if str ≠ [] then textLine ++ [c! '='] ++ toLatin1 str else textLine) textLine) ident

/-- Value bytes before escaping and whether multi-byte folding is used, vcardparser.cpp:444-478. -/
def writeValue (E : Codecs) (l : VCardLine) : QByteArray × Bool :=
  let charset := l.parameter (q! "charset")
  let (input, mb) : QByteArray × Bool :=
    if charset ≠ [] then
      match E.encoder (toLatin1 charset) with
      | some enc => (enc l.value.toString, false)
      | none => (toUtf8 l.value.toString, true)
    else match l.value with
      | .bytes b => (b, false)
      | v => (toUtf8 v.toString, true)
  if q! "encoding" ∈ l.parameterList then
    let encodingType := toLowerQ (l.parameter (q! "encoding"))
    if encodingType = q! "b" then (toBase64 input, false)
    else if encodingType = q! "quoted-printable" then (E.qpEncode input, false)
    else ([], mb)
  else (input, mb)

/-- `vline.identifier() == "CATEGORIES" || … "GEO"`, vcardparser.cpp:479. -/
def excludesComma (l : VCardLine) : Bool := l.identifier = q! "CATEGORIES" || l.identifier = q! "GEO"

/-- The unfolded content line, vcardparser.cpp:419-482; `none` when nothing is written because the value is empty. -/
def writeContent (E : Codecs) (l : VCardLine) : Option (QByteArray × Bool) :=
  let (v, mb) := writeValue E l
  let output := addEscapes v (excludesComma l)
  if output ≠ [] then some (writeHead l ++ [c! ':'] ++ output, mb) else none

/-- Text of one line, vcardparser.cpp:417-489. -/
def writeLine (E : Codecs) (l : VCardLine) : QByteArray :=
  match l.value with
  | .invalid =>
    if l.base64Value ≠ [] then toLatin1 l.identifier ++ fixLineSize (b! ";base64," ++ l.base64Value) false else []
  | _ =>
    match writeContent E l with
    | some (t, mb) => fixLineSize t mb
    | none => []

/-- The names in the order they are written, vcardparser.cpp:405-410: `takeAt(indexOf("VERSION"))` then `prepend`. -/
def writeOrder (c : VCard) : List QString :=
  let idents := c.identifiers
  if q! "VERSION" ∈ idents then q! "VERSION" :: idents.erase (q! "VERSION") else idents

/-- Text of one card, vcardparser.cpp:402-495. -/
def writeCard (E : Codecs) (c : VCard) : QByteArray :=
  b! "BEGIN:VCARD\r\n" ++ (writeOrder c).flatMap (fun id => (c.lines id).flatMap (writeLine E)) ++
    b! "END:VCARD\r\n" ++ b! "\r\n"

/-- `VCardParser::createVCards`, vcardparser.cpp:387-498. -/
def createVCardText (E : Codecs) (cards : List VCard) : QByteArray := cards.flatMap (writeCard E)

end KC
