import Verif.Model.Setters
import Verif.Qt.Utf
/-
  Names: splitting a string into the parts of a name, the displayed name, "Name <address>" texts and taking them apart again.
  Modelled: addressee.cpp:1421-1638 (setNameFromString, realName, assembledName, fullEmail), 2341-2518 (parseEmailAddress),
  addresseehelper.cpp.
-/
namespace KC

/-- `AddresseeHelper`, addresseehelper.cpp: the sets of titles, family name prefixes and suffixes (translated words and configured ones) and the
    setting "TreatAsFamilyName". The sets are arbitrary. `lower` is `QString::toLower`, also arbitrary. -/
structure NameHelper where
  title : QString → Bool
  prefix_ : QString → Bool
  suffix : QString → Bool
  treatAsFamilyName : Bool
  lower : QString → QString

/-- The loop that collects suffixes from the right, addressee.cpp:1454-1461 and 1513-1520. The words `parts[0 .. rightOffset]` are given in
    reverse; the result is the suffix and the words left, in reverse (none left: `rightOffset` is -1). -/
def suffixLoop (h : NameHelper) : List QString → QString → QString × List QString
  | [], s => (s, [])
  | w :: r, s => if h.suffix w then suffixLoop h r (w ++ (if s.isEmpty then [] else [qc! ' ']) ++ s) else (s, w :: r)

/-- The loop that collects titles from the left, addressee.cpp:1480-1487 and 1547-1554. The words are `parts[leftOffset .. rightOffset - 1]`; the
    result is the prefix and the words left. -/
def titleLoop (h : NameHelper) : List QString → QString → QString × List QString
  | [], s => (s, [])
  | w :: r, s => if h.title w then titleLoop h r (s ++ ((if s.isEmpty then [] else [qc! ' ']) ++ w)) else (s, w :: r)

/-- The loop that collects the additional names, addressee.cpp:1496-1499 and 1563-1566. -/
def additionalLoop : List QString → QString → QString
  | [], s => s
  | w :: r, s => additionalLoop r (s ++ ((if s.isEmpty then [] else [qc! ' ']) ++ w))

/-- Prefix, given name and additional names from words, addressee.cpp:1479-1500 and 1546-1567. -/
def setLeftParts (h : NameHelper) (c : Contact) (ws : List QString) : Contact :=
  let t := titleLoop h ws []
  let c := c.setPrefix t.1
  match t.2 with
  | [] => c.setAdditionalName []
  | g :: r => (c.setGivenName g).setAdditionalName (additionalLoop r [])

/-- The family name: the last word `w`, with the word before it if that is a family name prefix, addressee.cpp:1468-1477 and 1523-1528. Gives the
    family name and the words left of it; `r` is the words before `w` in reverse. The flag says whether a prefix was used. -/
def familyPart (h : NameHelper) (w : QString) (r : List QString) : QString × List QString × Bool :=
  match r with
  | [] => (w, [], false)
  | p :: r' => if h.prefix_ (h.lower p) then (p ++ [qc! ' '] ++ w, r', true) else (w, r, false)

/-- The enclosing quotes are removed, addressee.cpp:1423-1427. -/
def unquoteName (s : QString) : QString :=
  if s.length > 1 ∧ s.head? = some (qc! '"') ∧ s.getLast? = some (qc! '"') then mid s 1 (s.length - 2) else s

/-- A name without a comma, addressee.cpp:1449-1500. -/
def setNameNoComma (h : NameHelper) (c : Contact) (str : QString) : Contact :=
  let s := suffixLoop h (splitOn (qc! ' ') str).reverse []
  let c := c.setSuffix s.1
  match s.2 with
  | [] => c
  | w :: r =>
    let f := familyPart h w r
    let c := if f.2.2 || h.treatAsFamilyName then c.setFamilyName f.1 else c.setGivenName f.1
    setLeftParts h c f.2.1.reverse

/-- A name with a comma at index `i`, addressee.cpp:1501-1575. `parts[rightOffset]` with `rightOffset` -1 is undefined behaviour (`none`).
    The titles of the first part are computed and not used (1530-1538): left out. `split` never gives an empty list, so the branches for that
    are left out. -/
def setNameComma (h : NameHelper) (c : Contact) (str : QString) (i : Nat) : Option Contact :=
  let s := suffixLoop h (splitOn (qc! ' ') (str.take i)).reverse []
  let c := c.setSuffix s.1
  match s.2 with
  | [] => none
  | w :: r =>
    let c := c.setFamilyName (familyPart h w r).1
    some (setLeftParts h c (splitOn (qc! ' ') (str.drop (i + 1))))

/-- `Addressee::setNameFromString`, addressee.cpp:1421-1576; `none` is undefined behaviour. -/
def Contact.setNameFromString (h : NameHelper) (c : Contact) (s : QString) : Option Contact :=
  let str := unquoteName s
  let c := (c.setFormattedName str).setName str
  let c := ((((c.setPrefix []).setGivenName []).setAdditionalName []).setFamilyName []).setSuffix []
  if str.isEmpty then some c
  else match indexOf? (qc! ',') str with
    | none => some (setNameNoComma h c str)
    | some i => setNameComma h c str i

/-- `Addressee::assembledName`, addressee.cpp:1598-1609. -/
def Contact.assembledName (c : Contact) : QString :=
  simplified (c.prefix_ ++ [qc! ' '] ++ c.givenName ++ [qc! ' '] ++ c.additionalName ++ [qc! ' '] ++ c.familyName ++ [qc! ' '] ++ c.suffix)

/-- `Addressee::realName`, addressee.cpp:1578-1596. -/
def Contact.realName (c : Contact) : QString :=
  if !c.formattedName.isEmpty then c.formattedName
  else if !c.assembledName.isEmpty then c.assembledName
  else if !c.name.isEmpty then c.name
  else c.text .organization

/-! ### "Name <address>" -/

/-- The text is valid UTF-16 (a search by regular expression fails on other texts). -/
def utf16Valid : QString → Bool
  | [] => true
  | c :: t =>
    if c < 0xD800 ∨ 0xE000 ≤ c then utf16Valid t
    else if 0xDC00 ≤ c then false
    else match t with
      | [] => false
      | d :: t' => decide (0xDC00 ≤ d ∧ d < 0xE000) && utf16Valid t'

/-- The characters that need no quotes: a space, digits, letters, U+0080 to U+FFFF. Both halves of a character above U+FFFF need quotes. -/
def plainNameChar (c : UInt16) : Bool :=
  c = 32 || (48 ≤ c && c ≤ 57) || (65 ≤ c && c ≤ 90) || (97 ≤ c && c ≤ 122) || (0x80 ≤ c && c < 0xD800) || 0xE000 ≤ c

/-- `realName().indexOf(needQuotes) != -1`, addressee.cpp:1628-1629. -/
def needQuotes (s : QString) : Bool := utf16Valid s && s.any fun c => !plainNameChar c

/-- `Addressee::fullEmail`, addressee.cpp:1611-1638; no address given (`none`) means the preferred one. -/
def Contact.fullEmail (c : Contact) (email : Option QString) : QString :=
  let e := email.getD c.preferredEmail
  if e.isEmpty then []
  else if c.realName.isEmpty then e
  else if needQuotes c.realName then q! "\"" ++ replaceStr (q! "\"") (q! "\\\"") c.realName ++ q! "\" <" ++ e ++ q! ">"
  else c.realName ++ q! " <" ++ e ++ q! ">"

/-- `sourceLevel`, addressee.cpp:2362-2366. -/
inductive MailLevel where
  | top | comment | angle
deriving DecidableEq

/-- The variables of the parser, addressee.cpp:2354-2370. -/
structure MailState where
  context : MailLevel := .top
  inQuotedString : Bool := false
  commentLevel : Int := 0
  displayName : QByteArray := []
  addrSpec : QByteArray := []
  comment : QByteArray := []
deriving DecidableEq

/-- A character goes to the text being collected. -/
def MailState.add (st : MailState) (b : UInt8) : MailState :=
  match st.context with
  | .top => { st with displayName := st.displayName ++ [b] }
  | .comment => { st with comment := st.comment ++ [b] }
  | .angle => { st with addrSpec := st.addrSpec ++ [b] }

/-- What one character other than a backslash does, addressee.cpp:2374-2473; `none`: parsing is aborted. -/
def MailState.step (st : MailState) (b : UInt8) : Option MailState :=
  match st.context with
  | .top =>
    if b = c! '"' then some { st.add b with inQuotedString := !st.inQuotedString }
    else if b = c! '(' then some (if !st.inQuotedString then { st with context := .comment, commentLevel := 1 } else st.add b)
    else if b = c! '<' then some (if !st.inQuotedString then { st with context := .angle } else st.add b)
    else if b = c! ',' then (if !st.inQuotedString then none else some (st.add b))
    else some (st.add b)
  | .comment =>
    if b = c! '(' then some { st.add b with commentLevel := st.commentLevel + 1 }
    else if b = c! ')' then
      some (if st.commentLevel - 1 = 0 then { st.add (c! ' ') with context := .top, commentLevel := 0 }
            else { st.add b with commentLevel := st.commentLevel - 1 })
    else some (st.add b)
  | .angle =>
    if b = c! '"' then some { st.add b with inQuotedString := !st.inQuotedString }
    else if b = c! '>' then some (if !st.inQuotedString then { st with context := .top } else st.add b)
    else some (st.add b)

/-- `*p` for a pointer into the characters of a byte array: they are followed by a NUL; beyond that the behaviour is undefined (`none`). -/
def charAt (a : QByteArray) (p : Nat) : Option UInt8 :=
  match a.drop p with
  | b :: _ => some b
  | [] => if p = a.length then some 0 else none

theorem charAt_bound {a : QByteArray} {p : Nat} {b : UInt8} (h : charAt a p = some b) : p ≤ a.length := by
  unfold charAt at h
  by_cases hp : p ≤ a.length
  · exact hp
  · rw [List.drop_eq_nil_of_le (by omega)] at h
    simp only [] at h
    rw [if_neg (by omega)] at h
    cases h

/-- The parser's loop, addressee.cpp:2372-2475, from the pointer `p`; `none` is undefined behaviour. -/
def mailLoop (a : QByteArray) (p : Nat) (st : MailState) : Option MailState :=
  match _ : charAt a p with
  | none => none
  | some b =>
    if b = 0 then some st
    else if b = c! '\\' then
      match charAt a (p + 1) with
      | none => none
      | some d => if d = 0 then some (st.add b) else mailLoop a (p + 2) ((st.add b).add d)
    else match st.step b with
      | none => some st
      | some st' => mailLoop a (p + 1) st'
termination_by a.length + 1 - p
decreasing_by all_goals (have := charAt_bound ‹_›; omega)

/-- Quotes around the name are removed, addressee.cpp:2508-2517. -/
def unquoteFull (s : QString) : QString :=
  if s.length < 3 then s
  else if startsWith [qc! '"'] s && endsWith [qc! '"'] s then mid s 1 (s.length - 2) else s

/-- The end of the parser, addressee.cpp:2477-2517: full name and address. -/
def mailResult (lower : QString → QString) (st : MailState) : QString × QString :=
  let displayName := trimmedB st.displayName
  let comment := trimmedB st.comment
  let addrSpec := trimmedB st.addrSpec
  if st.inQuotedString || st.context = .comment || st.context = .angle then (fromUtf8 displayName, fromUtf8 addrSpec)
  else if addrSpec.isEmpty then
    if displayName.isEmpty then (fromUtf8 displayName, fromUtf8 addrSpec)
    else (unquoteFull (fromUtf8 comment), lower (fromUtf8 displayName))
  else (unquoteFull (fromUtf8 displayName), lower (fromUtf8 addrSpec))

/-- `Addressee::parseEmailAddress`, addressee.cpp:2341-2518: full name and address; `none` is undefined behaviour. -/
def parseEmailAddress (lower : QString → QString) (raw : QString) : Option (QString × QString) :=
  if raw.isEmpty then some ([], [])
  else (mailLoop (toUtf8 raw) 0 {}).map (mailResult lower)

end KC
