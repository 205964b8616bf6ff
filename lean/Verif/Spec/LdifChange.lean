import Verif.Spec.Ldif
/-
  Specification side of LDIF change records (RFC 2849): what a record asks for, how it is written, and what a user of the parser should see.
-/
namespace KC.Spec

/-- A control: its object identifier, whether it is critical (if that is said), its value (if there is one). -/
structure LdifControl where
  oid : QString
  critical : Option Bool
  value : Option QByteArray

/-- `1.2.3 true: value` -/
def LdifControl.text (c : LdifControl) : QByteArray :=
  let head := match c.critical with | none => c.oid | some true => c.oid ++ q! " true" | some false => c.oid ++ q! " false"
  match c.value with
  | none => toUtf8 head
  | some v => assembleLine head v 0 false

/-- What is done with the values of an attribute. -/
inductive LdifOp where
  | add | replace | delete
deriving DecidableEq

def LdifOp.word : LdifOp → QString
  | .add => q! "add" | .replace => q! "replace" | .delete => q! "delete"

def LdifOp.code : LdifOp → ModType
  | .add => .add | .replace => .replace | .delete => .del

/-- One modification: an attribute and the values to add, to put in place of the old ones, or to delete (none: all of them). -/
structure LdifMod where
  op : LdifOp
  attr : QString
  values : List QByteArray

/-- What a change record asks for. -/
inductive LdifChange where
  /-- a new entry -/
  | add (attrs : List (QString × QByteArray))
  | delete
  | modify (mods : List LdifMod)
  /-- `word`: written with `moddn` (otherwise `modrdn`) -/
  | rename (word : Bool) (newRdn : QString) (deleteOld : Bool) (newSuperior : Option QString)

structure LdifChangeRecord where
  dn : QByteArray
  controls : List LdifControl
  change : LdifChange

def LdifMod.text (linelen : Nat) (m : LdifMod) : QByteArray :=
  ldifLine linelen m.op.word (toUtf8 m.attr) ++ (m.values.flatMap fun v => ldifLine linelen m.attr v) ++ b! "-\n"

def LdifChange.text (linelen : Nat) : LdifChange → QByteArray
  | .add attrs => ldifLine linelen (q! "changetype") (b! "add") ++ attrs.flatMap fun a => ldifLine linelen a.1 a.2
  | .delete => ldifLine linelen (q! "changetype") (b! "delete")
  | .modify mods => ldifLine linelen (q! "changetype") (b! "modify") ++ mods.flatMap (LdifMod.text linelen)
  | .rename word rdn old sup =>
    ldifLine linelen (q! "changetype") (if word then b! "moddn" else b! "modrdn") ++
    ldifLine linelen (q! "newrdn") (toUtf8 rdn) ++
    ldifLine linelen (q! "deleteoldrdn") (if old then b! "1" else b! "0") ++
    (match sup with | none => [] | some p => ldifLine linelen (q! "newsuperior") (toUtf8 p))

/-- A change record, line by line, with the empty line after it. -/
def LdifChangeRecord.text (linelen : Nat) (r : LdifChangeRecord) : QByteArray :=
  ldifLine linelen (q! "dn") r.dn ++ (r.controls.flatMap fun c => ldifLine linelen (q! "control") c.text) ++ r.change.text linelen ++ b! "\n"

/-- What a user of the parser sees of one returned item. -/
inductive LdifStep where
  | entry (dn : QByteArray)
  | control (oid : QString) (critical : Bool) (value : QByteArray)
  | item (entry : EntryType) (mod : ModType) (attr : QString) (value : QByteArray)
  | finish (entry : EntryType)
  | renamed (newRdn newSuperior : QString) (deleteOld : Bool)
  | error
  | other
deriving DecidableEq

/-- The accessors that mean something for the kind of item. -/
def LdifEvent.step (e : LdifEvent) : LdifStep :=
  if e.url then .other else
  match e.kind with
  | .newEntry => .entry e.value
  | .control => .control e.oid e.critical e.value
  | .item => .item e.entryType e.modType e.attr e.value
  | .endEntry => if e.entryType = .modrdn then .renamed e.newRdn e.newSuperior e.delOldRdn else .finish e.entryType
  | .err => .error
  | .none => .other
  | .moreData => .other

def LdifControl.step (c : LdifControl) : LdifStep := .control c.oid (c.critical = some true) (c.value.getD [])

/-- Replacing and deleting name the attribute first, without a value. -/
def LdifMod.steps (m : LdifMod) : List LdifStep :=
  (if m.op = .add then [] else [.item .mod m.op.code m.attr []]) ++ m.values.map fun v => .item .mod m.op.code m.attr v

def LdifChange.steps : LdifChange → List LdifStep
  | .add attrs => (attrs.map fun a => .item .add .none a.1 a.2) ++ [.finish .add]
  | .delete => [.finish .del]
  | .modify mods => mods.flatMap LdifMod.steps ++ [.finish .mod]
  | .rename _ rdn old sup => [.renamed rdn (sup.getD []) old]

def LdifChangeRecord.steps (r : LdifChangeRecord) : List LdifStep :=
  .entry r.dn :: r.controls.map LdifControl.step ++ r.change.steps

/-- Texts that UTF-8 keeps. -/
def Utf8Text (s : QString) : Prop := WellFormed s ∧ s.head? ≠ some 0xFEFF

def LdifChange.Proper : LdifChange → Prop
  | .add attrs => ∀ a ∈ attrs, LdifName a.1
  | .delete => True
  | .modify mods => ∀ m ∈ mods, LdifName m.attr
  | .rename _ rdn _ sup => Utf8Text rdn ∧ ∀ p, sup = some p → Utf8Text p

/-- Object identifiers of digits and dots, attribute names that can be written, and a distinguished name that is not empty. -/
structure LdifChangeRecord.Proper (r : LdifChangeRecord) : Prop where
  dn : r.dn ≠ []
  oids : ∀ c ∈ r.controls, c.oid ≠ [] ∧ ∀ u ∈ c.oid, u = qc! '.' ∨ (qc! '0' ≤ u ∧ u ≤ qc! '9')
  change : r.change.Proper

end KC.Spec
