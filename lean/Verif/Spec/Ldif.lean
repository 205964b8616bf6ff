import Verif.Model.Ldif
import Verif.Spec.Text
/-
  Specification side of LDIF: what a user of the parser sees, and documents made of records.
-/
namespace KC.Spec

/-- What the accessors of the parser say after an item was returned. -/
structure LdifEvent where
  kind : ParseValue
  attr : QString
  value : QByteArray
  url : Bool
  entryType : EntryType
  modType : ModType
  newRdn : QString
  newSuperior : QString
  delOldRdn : Bool
  oid : QString
  critical : Bool
  lineNumber : Nat
deriving DecidableEq

/-- The accessors after `nextItem` returned `kind`. -/
def observe (kind : ParseValue) (s : Ldif) : LdifEvent :=
  { kind, attr := s.attr, value := s.value, url := s.url, entryType := s.entryType, modType := s.modType, newRdn := s.newRdn,
    newSuperior := s.newSuperior, delOldRdn := s.delOldRdn, oid := s.oid, critical := s.critical, lineNumber := s.lineNumber }

/-- `Items s es s'`: calling `nextItem` on the parser `s` until it asks for more data gives the items `es` and leaves the parser `s'`. -/
inductive Items : Ldif → List LdifEvent → Ldif → Prop
  | done {s s' : Ldif} : s.nextItem = (.moreData, s') → Items s [] s'
  | item {s s₁ s' : Ldif} {r : ParseValue} {es : List LdifEvent} :
      s.nextItem = (r, s₁) → r ≠ .moreData → Items s₁ es s' → Items s (observe r s₁ :: es) s'

/-- `FedItems s pieces es s'`: giving the pieces to the parser one after the other, and taking all items of each before the next one, gives `es`. -/
inductive FedItems : Ldif → List QByteArray → List LdifEvent → Ldif → Prop
  | nil {s : Ldif} : FedItems s [] [] s
  | cons {s s₁ s₂ : Ldif} {p : QByteArray} {ps : List QByteArray} {es fs : List LdifEvent} :
      Items (s.setLdif p) es s₁ → FedItems s₁ ps fs s₂ → FedItems s (p :: ps) (es ++ fs) s₂

/-- All items of a document read by a new parser: the text, then the end of the document. -/
def DocumentItems (text : QByteArray) (es : List LdifEvent) : Prop :=
  ∃ es₁ s₁ es₂ s₂, Items ((({} : Ldif).startParsing []).setLdif text) es₁ s₁ ∧ Items s₁.endLdif es₂ s₂ ∧ es = es₁ ++ es₂

/-- All items of a document read by a parser that was used before and is started again. -/
def RestartedItems (s : Ldif) (text : QByteArray) (es : List LdifEvent) : Prop :=
  ∃ es₁ s₁ es₂ s₂, Items ((s.startParsing []).setLdif text) es₁ s₁ ∧ Items s₁.endLdif es₂ s₂ ∧ es = es₁ ++ es₂

/-- The part of an item that does not depend on the position in the text, for comparing documents. -/
def LdifEvent.noLine (e : LdifEvent) : LdifEvent := { e with lineNumber := 0 }

/-- The kind of an item with the attribute and value it carries. -/
structure LdifItem where
  kind : ParseValue
  attr : QString
  value : QByteArray
  url : Bool
deriving DecidableEq

def LdifEvent.short (e : LdifEvent) : LdifItem := ⟨e.kind, e.attr, e.value, e.url⟩

/-- ASCII white space. -/
def AsciiSpace (c : UInt16) : Prop := c = 32 ∨ (9 ≤ c ∧ c ≤ 13)

/-- A text that can be the name of an attribute: not empty, no colon, no line end, no white space at its ends, no `#` or byte order mark first.
    (The names LDIF allows — letters, digits, `-`, `.`, `;` — are of this kind.) -/
structure LdifName (name : QString) : Prop where
  nonempty : name ≠ []
  wellFormed : WellFormed name
  noBom : name.head? ≠ some 0xFEFF
  noColon : qc! ':' ∉ name
  noLf : 10 ∉ name
  noCr : 13 ∉ name
  noHash : name.head? ≠ some (qc! '#')
  startTrim : ∀ c, name.head? = some c → ¬ AsciiSpace c
  endTrim : ∀ c, name.getLast? = some c → ¬ AsciiSpace c

/-- A record: a distinguished name and attributes with values. -/
structure LdifRecord where
  dn : QByteArray
  attrs : List (QString × QByteArray)

/-- One line of a record with its line end. -/
def ldifLine (linelen : Nat) (name : QString) (value : QByteArray) : QByteArray := assembleLine name value linelen false ++ b! "\n"

/-- A record written line by line, with the empty line after it. -/
def LdifRecord.text (linelen : Nat) (r : LdifRecord) : QByteArray :=
  ldifLine linelen (q! "dn") r.dn ++ (r.attrs.flatMap fun a => ldifLine linelen a.1 a.2) ++ b! "\n"

/-- What reading a record should give. -/
def LdifRecord.items (r : LdifRecord) : List LdifItem :=
  ⟨.newEntry, q! "dn", r.dn, false⟩ :: r.attrs.map (fun a => ⟨.item, a.1, a.2, false⟩) ++ [⟨.endEntry, [], [], false⟩]

/-- The names with a meaning of their own directly after the distinguished name. -/
def ldifKeywords : List QString := [q! "version", q! "dn", q! "changetype", q! "control"]

/-- Names that can be written, and a first attribute that is not empty and not taken for a keyword. -/
structure LdifRecord.Proper (r : LdifRecord) : Prop where
  names : ∀ a ∈ r.attrs, LdifName a.1
  first : ∃ a rest, r.attrs = a :: rest ∧ a.2 ≠ [] ∧ toLowerQ a.1 ∉ ldifKeywords

/-! ### line ends and comments -/

/-- Every line end of the text belongs to a fold: it is followed by a space or a tab. -/
def Continues : QByteArray → Bool
  | [] => true
  | c :: t =>
    if c = 10 then
      match t with
      | [] => false
      | d :: t => (d = 32 || d = 9) && Continues t
    else c ≠ 13 && Continues t

/-- One line, possibly folded, that starts with a visible ASCII character other than a colon. -/
def VisibleLine (l : QByteArray) : Prop := ∃ c t, l = c :: t ∧ 33 ≤ c ∧ c ≤ 126 ∧ c ≠ c! ':' ∧ Continues t = true

/-- The text with CR LF line ends. -/
def crlf (d : QByteArray) : QByteArray := d.flatMap fun c => if c = 10 then [13, 10] else [c]

/-- The text with LF CR line ends. -/
def lfcr (d : QByteArray) : QByteArray := d.flatMap fun c => if c = 10 then [10, 13] else [c]

/-- The text with an empty line after every line that is not empty (`blank`: at the start of a line). -/
def spaced (blank : Bool) : QByteArray → QByteArray
  | [] => []
  | c :: t => if c = 10 then (if blank then 10 :: spaced true t else 10 :: 10 :: spaced true t) else c :: spaced false t

end KC.Spec
