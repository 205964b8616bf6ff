import Verif.Model.Values
/-
  Contact groups: src/contactgroup.cpp.
-/
namespace KC

/-- `QMap::insert`: replace or add. -/
def SMap.put {ν : Type} (m : SMap ν) (k : QString) (v : ν) : SMap ν :=
  match m.find k with
  | some _ => m.modify k fun _ => v
  | none => m.insertSorted k v

/-- `ContactReferencePrivate`, contactgroup.cpp:17-37. -/
structure ContactRef where
  uid : QString := []
  gid : QString := []
  preferredEmail : QString := []
  customs : SMap QString := []
deriving DecidableEq

/-- `ContactReference::operator==`, contactgroup.cpp:113-116: the gid is not compared. -/
def ContactRef.eq (a b : ContactRef) : Bool := a.uid = b.uid && a.preferredEmail = b.preferredEmail && a.customs = b.customs

/-- `ContactGroupReferencePrivate`, contactgroup.cpp:118-135; `==` (191-194) compares both members. -/
structure GroupRef where
  uid : QString := []
  customs : SMap QString := []
deriving DecidableEq

/-- `DataPrivate`, contactgroup.cpp:196-215; `==` (282-287) compares all members. -/
structure GroupData where
  name : QString := []
  email : QString := []
  customs : SMap QString := []
deriving DecidableEq

/-- `ContactGroup::Private`, contactgroup.cpp:289-313. -/
structure Group where
  id : QString
  name : QString := []
  refs : List ContactRef := []
  groupRefs : List GroupRef := []
  data : List GroupData := []
deriving DecidableEq

/-- `QList::removeOne`: remove the first element that compares equal. -/
def removeOne {α : Type} (eq : α → α → Bool) (x : α) : List α → List α
  | [] => []
  | y :: t => if eq y x then t else y :: removeOne eq x t

/-- The modifying functions of `ContactGroup`, contactgroup.cpp:335-353, 417-460. -/
inductive GroupOp where
  | setName (s : QString) | setId (s : QString)
  | appendRef (r : ContactRef) | appendGroupRef (r : GroupRef) | appendData (d : GroupData)
  | removeRef (r : ContactRef) | removeGroupRef (r : GroupRef) | removeData (d : GroupData)
  | removeAllRefs | removeAllGroupRefs | removeAllData

/-- Their effects. -/
def Group.apply (g : Group) : GroupOp → Group
  | .setName s => { g with name := s }
  | .setId s => { g with id := s }
  | .appendRef r => { g with refs := g.refs ++ [r] }
  | .appendGroupRef r => { g with groupRefs := g.groupRefs ++ [r] }
  | .appendData d => { g with data := g.data ++ [d] }
  | .removeRef r => { g with refs := removeOne ContactRef.eq r g.refs }
  | .removeGroupRef r => { g with groupRefs := removeOne (fun a b => a = b) r g.groupRefs }
  | .removeData d => { g with data := removeOne (fun a b => a = b) d g.data }
  | .removeAllRefs => { g with refs := [] }
  | .removeAllGroupRefs => { g with groupRefs := [] }
  | .removeAllData => { g with data := [] }

/-- `ContactGroup::count`, contactgroup.cpp:355-358. -/
def Group.count (g : Group) : Nat := g.refs.length + g.data.length

/-- `ContactGroup::contactReference(i)` and the like, contactgroup.cpp:370-416; the assertion `index < count` is `none`. -/
def Group.refAt (g : Group) (i : Nat) : Option ContactRef := g.refs[i]?
/-- `ContactGroup::contactGroupReference(i)`. -/
def Group.groupRefAt (g : Group) (i : Nat) : Option GroupRef := g.groupRefs[i]?
/-- `ContactGroup::data(i)`. -/
def Group.dataAt (g : Group) (i : Nat) : Option GroupData := g.data[i]?

/-- `QList<ContactReference>::operator==`: same length, elements equal. -/
def refsEq : List ContactRef → List ContactRef → Bool
  | [], [] => true
  | a :: s, b :: t => a.eq b && refsEq s t
  | _, _ => false

/-- `ContactGroup::operator==`, contactgroup.cpp:471-478. -/
def Group.eq (a b : Group) : Bool :=
  a.id = b.id && a.name = b.name && refsEq a.refs b.refs && a.groupRefs = b.groupRefs && a.data = b.data

/-- `insertCustom`, `removeCustom`, `custom` of the three member classes, e.g. contactgroup.cpp:89-102. -/
def insertMemberCustom (m : SMap QString) (k v : QString) : SMap QString := m.put k v
def removeMemberCustom (m : SMap QString) (k : QString) : SMap QString := m.eraseFirst k
def memberCustom (m : SMap QString) (k : QString) : QString := (m.find k).getD []

end KC
