import Verif.Model.Contact
import Verif.Model.Group
/-
  Implicitly shared objects: every class keeps its data in a `QSharedDataPointer<Private>`; copies share the data and a
  modifying function first detaches (`QSharedDataPointer::operator->` non-const), which makes a new `Private` with its copy
  constructor when the data is shared.
-/
namespace KC

/-- The objects of one class in a program: the data blocks ever made and, per object, the block it points to (`none` once
    destroyed). Simplification: blocks are never freed, which no program can observe. -/
structure Store (α : Type) where
  blocks : List α := []
  handles : List (Option Nat) := []

/-- What a program can do with the objects. `change h f` is the call on object `h` of a modifying function with effect `f`. -/
inductive StoreOp (α : Type) where
  | create (v : α)
  | copy (h : Nat)
  | assign (dst src : Nat)
  | destroy (h : Nat)
  | change (h : Nat) (f : α → α)

variable {α : Type}

/-- The block of an object. -/
def Store.block (s : Store α) (h : Nat) : Option Nat := (s.handles[h]?).join

/-- The value an object shows. -/
def Store.value (s : Store α) (h : Nat) : Option α := (s.block h).bind fun b => s.blocks[b]?

/-- Whether another object shares the block (`QSharedData::ref != 1`). -/
def Store.shared (s : Store α) (b : Nat) : Bool := decide (1 < s.handles.count (some b))

/-- One operation; `cc` is the copy constructor of the `Private` class. Operations on objects that do not exist do nothing.
    Qt: qshareddata.h, `QSharedDataPointer::detach_helper` (`clone()` is `new T(*d)`). -/
def Store.step (cc : α → α) (s : Store α) : StoreOp α → Store α
  | .create v => { blocks := s.blocks ++ [v], handles := s.handles ++ [some s.blocks.length] }
  | .copy h => match s.block h with
    | none => s
    | some b => { s with handles := s.handles ++ [some b] }
  | .assign dst src => match s.block dst, s.block src with
    | some _, some b => { s with handles := s.handles.set dst (some b) }
    | _, _ => s
  | .destroy h => { s with handles := s.handles.set h none }
  | .change h f => match s.block h with
    | none => s
    | some b =>
      if s.shared b then
        match s.blocks[b]? with
        | none => s
        | some v => { blocks := s.blocks ++ [f (cc v)], handles := s.handles.set h (some s.blocks.length) }
      else { s with blocks := s.blocks.modify b f }

/-- A program run. -/
def Store.run (cc : α → α) (s : Store α) (ops : List (StoreOp α)) : Store α := ops.foldl (Store.step cc) s

/-! ### the copy constructors -/

/-- `Addressee::Private(const Private &)`, addressee.cpp:64-112: four members are not copied. -/
def Contact.copyCtor (c : Contact) : Contact := { c with kind := [], fieldGroups := [], nickNames := [], clientPidMaps := [] }
/-- `Address::Private(const Private &)`, address.cpp:34-50: the position is not copied. -/
def Address.copyCtor (a : Address) : Address := { a with geo := {} }
/-- `PhoneNumber::Private(const Private &)`, phonenumber.cpp:33-39: the parameters are not copied. -/
def PhoneNumber.copyCtor (p : PhoneNumber) : PhoneNumber := { p with params := [] }
/-- `Impp::Private(const Private &)`, impp.cpp:26-30: the address is not copied. -/
def ParamUrl.copyCtorImpp (u : ParamUrl) : ParamUrl := { u with url := [] }
/-- `ContactReferencePrivate(const ContactReferencePrivate &)`, contactgroup.cpp:25-31: the gid is not copied. -/
def ContactRef.copyCtor (r : ContactRef) : ContactRef := { r with gid := [] }
/-- `PicturePrivate(const PicturePrivate &)`, picture.cpp:24-31: the raw data is not copied. -/
def Picture.copyCtor (p : Picture) : Picture := { p with rawData := [] }

end KC
