import Verif.Model.Group
import Verif.Model.Shared
/-
  Changing a member of a contact group in its place: src/contactgroup.cpp. `group.contactReference(i)` returns a reference to the
  member in the group, whose setters are then called.
-/
namespace KC

/-- A call on a reference to a contact: `setUid`, `setGid`, `setPreferredEmail`, `insertCustom`, `removeCustom`,
    contactgroup.cpp:59-62, 69-72, 79-82, 89-92, 94-97. -/
inductive RefSet where
  | uid (s : QString) | gid (s : QString) | preferredEmail (s : QString) | insertCustom (k v : QString) | removeCustom (k : QString)
deriving DecidableEq

/-- What the call does to the private object, contactgroup.cpp:59-97. -/
def RefSet.run (r : ContactRef) : RefSet → ContactRef
  | .uid s => { r with uid := s }
  | .gid s => { r with gid := s }
  | .preferredEmail s => { r with preferredEmail := s }
  | .insertCustom k v => { r with customs := insertMemberCustom r.customs k v }
  | .removeCustom k => { r with customs := removeMemberCustom r.customs k }

/-- A setter of a reference, contactgroup.cpp:59-97: `d->` makes a copy of the private object first (copy constructor,
    contactgroup.cpp:25-31) if another object shares it, such as the object that was given to `append` or a copy of the group. -/
def ContactRef.set (shared : Bool) (r : ContactRef) (op : RefSet) : ContactRef := op.run (if shared then r.copyCtor else r)

/-- A call on a reference to a group: `setUid`, `insertCustom`, `removeCustom`, contactgroup.cpp:157-160, 167-175. -/
inductive GroupRefSet where
  | uid (s : QString) | insertCustom (k v : QString) | removeCustom (k : QString)
deriving DecidableEq

/-- Its effect, contactgroup.cpp:157-175. The copy constructor (126-131) copies everything, so sharing does not show. -/
def GroupRef.set (r : GroupRef) : GroupRefSet → GroupRef
  | .uid s => { r with uid := s }
  | .insertCustom k v => { r with customs := insertMemberCustom r.customs k v }
  | .removeCustom k => { r with customs := removeMemberCustom r.customs k }

/-- A call on a data entry: `setName`, `setEmail`, `insertCustom`, `removeCustom`, contactgroup.cpp:238-266. -/
inductive DataSet where
  | name (s : QString) | email (s : QString) | insertCustom (k v : QString) | removeCustom (k : QString)
deriving DecidableEq

/-- Its effect, contactgroup.cpp:238-266. The copy constructor (204-210) copies everything, so sharing does not show. -/
def GroupData.set (r : GroupData) : DataSet → GroupData
  | .name s => { r with name := s }
  | .email s => { r with email := s }
  | .insertCustom k v => { r with customs := insertMemberCustom r.customs k v }
  | .removeCustom k => { r with customs := removeMemberCustom r.customs k }

/-- A call on the member at an index: `contactReference(i)`, `contactGroupReference(i)`, `data(i)`, contactgroup.cpp:375-380, 389-394,
    403-408, followed by a setter. The index is below the count (assertion). -/
inductive MemberCall where
  | ref (i : Nat) (shared : Bool) (op : RefSet) | groupRef (i : Nat) (op : GroupRefSet) | data (i : Nat) (op : DataSet)

/-- Its effect on the group. -/
def Group.change (g : Group) : MemberCall → Group
  | .ref i shared op => { g with refs := g.refs.modify i (·.set shared op) }
  | .groupRef i op => { g with groupRefs := g.groupRefs.modify i (·.set op) }
  | .data i op => { g with data := g.data.modify i (·.set op) }

end KC
