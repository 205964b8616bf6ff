import Verif.Model.GroupMembers
import Verif.Props.C45
/-
  C121: members of a contact group changed in their place.
-/
namespace KC

/-! ### what is meant -/

/-- The calls of a history on the reference to a contact at an index, with whether the object was shared at that time. -/
def callsOnRef (i : Nat) (cs : List MemberCall) : List (Bool × RefSet) :=
  cs.filterMap fun | .ref j s op => if j = i then some (s, op) else none | _ => none

/-- The calls of a history on the reference to a group at an index. -/
def callsOnGroupRef (i : Nat) (cs : List MemberCall) : List GroupRefSet :=
  cs.filterMap fun | .groupRef j op => if j = i then some op else none | _ => none

/-- The calls of a history on the data entry at an index. -/
def callsOnData (i : Nat) (cs : List MemberCall) : List DataSet :=
  cs.filterMap fun | .data j op => if j = i then some op else none | _ => none

/-- The last value given, or the one from before. -/
def lastOr (l : List QString) (before : QString) : QString := l.getLast?.getD before

/-- The values given to each field of a reference by calls. A removed custom field is empty. -/
def uidsSet (ops : List (Bool × RefSet)) : List QString := ops.filterMap fun | (_, .uid s) => some s | _ => none
def emailsSet (ops : List (Bool × RefSet)) : List QString := ops.filterMap fun | (_, .preferredEmail s) => some s | _ => none
def gidsSet (ops : List (Bool × RefSet)) : List QString := ops.filterMap fun | (_, .gid s) => some s | _ => none
def customsSet (k : QString) (ops : List (Bool × RefSet)) : List QString :=
  ops.filterMap fun | (_, .insertCustom j v) => if j = k then some v else none | (_, .removeCustom j) => if j = k then some [] else none | _ => none

/-- The calls from the last setting of the global id on, that one left out; all calls if it is not set. -/
def afterLastGid (ops : List (Bool × RefSet)) : List (Bool × RefSet) :=
  (ops.reverse.takeWhile fun | (_, .gid _) => false | _ => true).reverse

/-! ### helpers -/

theorem lastOr_cons (x : QString) (l : List QString) (b : QString) : lastOr (x :: l) b = lastOr l x := by
  unfold lastOr
  cases l <;> simp [List.getLast?_cons]

theorem modify_at {α : Type} (l : List α) (f : α → α) (i j : Nat) : (l.modify i f)[j]? = if i = j then (l[j]?).map f else l[j]? := by
  rw [List.getElem?_modify]
  split
  · simp
  · simp

/-! ### the property -/

/-- After any history of calls on the members of a group: its identifier, its name and the numbers of members are as before, and each
    member is what the calls on this member alone, in their order, have made of it. -/
theorem C121 (g : Group) (cs : List MemberCall) (i : Nat) :
    let h := cs.foldl Group.change g
    h.id = g.id ∧ h.name = g.name ∧ h.count = g.count ∧ h.refs.length = g.refs.length ∧ h.groupRefs.length = g.groupRefs.length ∧
    h.data.length = g.data.length ∧
    h.refAt i = (g.refAt i).map (fun r => (callsOnRef i cs).foldl (fun r c => r.set c.1 c.2) r) ∧
    h.groupRefAt i = (g.groupRefAt i).map (fun r => (callsOnGroupRef i cs).foldl GroupRef.set r) ∧
    h.dataAt i = (g.dataAt i).map (fun r => (callsOnData i cs).foldl GroupData.set r) := by
  intro h
  unfold Group.refAt Group.groupRefAt Group.dataAt Group.count
  suffices h.id = g.id ∧ h.name = g.name ∧ h.refs.length = g.refs.length ∧ h.groupRefs.length = g.groupRefs.length ∧
      h.data.length = g.data.length ∧ h.refs[i]? = (g.refs[i]?).map (fun r => (callsOnRef i cs).foldl (fun r c => r.set c.1 c.2) r) ∧
      h.groupRefs[i]? = (g.groupRefs[i]?).map (fun r => (callsOnGroupRef i cs).foldl GroupRef.set r) ∧
      h.data[i]? = (g.data[i]?).map (fun r => (callsOnData i cs).foldl GroupData.set r) by
    obtain ⟨h1, h2, h3, h4, h5, h6⟩ := this
    exact ⟨h1, h2, by rw [h3, h5], h3, h4, h5, h6⟩
  show _
  induction cs generalizing g with
  | nil => simp [h, callsOnRef, callsOnGroupRef, callsOnData]
  | cons c cs ih =>
    obtain ⟨h1, h2, h3, h4, h5, h6, h7, h8⟩ := ih (g.change c)
    refine ⟨h1.trans ?_, h2.trans ?_, h3.trans ?_, h4.trans ?_, h5.trans ?_, h6.trans ?_, h7.trans ?_, h8.trans ?_⟩
    all_goals cases c <;> simp only [Group.change, List.length_modify, modify_at, callsOnRef, callsOnGroupRef, callsOnData, List.filterMap_cons]
    all_goals split <;> simp_all [Function.comp_def]

/-- A reference to a contact after any history of calls on it: the uid, the preferred e-mail address and each custom field have the value
    given last, whatever the other calls and whoever shares the object. -/
theorem C121_fields (r : ContactRef) (hs : Sorted r.customs) (ops : List (Bool × RefSet)) (k : QString) :
    let r' := ops.foldl (fun r c => r.set c.1 c.2) r
    r'.uid = lastOr (uidsSet ops) r.uid ∧ r'.preferredEmail = lastOr (emailsSet ops) r.preferredEmail ∧
    memberCustom r'.customs k = lastOr (customsSet k ops) (memberCustom r.customs k) := by
  intro r'
  show _
  induction ops generalizing r with
  | nil => exact ⟨rfl, rfl, rfl⟩
  | cons c ops ih =>
    obtain ⟨s, op⟩ := c
    have hset : Sorted (r.set s op).customs ∧ (r.set s op).uid = lastOr (uidsSet [(s, op)]) r.uid ∧
        (r.set s op).preferredEmail = lastOr (emailsSet [(s, op)]) r.preferredEmail ∧
        memberCustom (r.set s op).customs k = lastOr (customsSet k [(s, op)]) (memberCustom r.customs k) := by
      have hm := fun a v => C45_member_customs r.customs hs a k v
      cases s <;> cases op <;>
        simp [ContactRef.set, RefSet.run, ContactRef.copyCtor, hs, uidsSet, emailsSet, customsSet, lastOr, (hm _ _).1, (hm _ []).2.1, (hm _ _).2.2.1, (hm _ []).2.2.2] <;>
        split <;> simp_all
    obtain ⟨e1, e2, e3⟩ := ih (r.set s op) hset.1
    have split1 : ∀ (f : Bool × RefSet → Option QString) (b : QString), lastOr (ops.filterMap f) (lastOr ([(s, op)].filterMap f) b) = lastOr (((s, op) :: ops).filterMap f) b := by
      intro f b
      rw [List.filterMap_cons, List.filterMap_cons, List.filterMap_nil]
      cases f (s, op) with
      | none => rfl
      | some x => simp only [lastOr_cons]; rfl
    refine ⟨?_, ?_, ?_⟩
    · exact e1.trans (by rw [hset.2.1]; exact split1 _ _)
    · exact e2.trans (by rw [hset.2.2.1]; exact split1 _ _)
    · exact e3.trans (by rw [hset.2.2.2]; exact split1 _ _)

/-- The global id has the value given last, if the object has not been shared at a call since. If it has been, it is lost. -/
theorem C121_gid_partial (r : ContactRef) (ops : List (Bool × RefSet)) :
    (ops.foldl (fun r c => r.set c.1 c.2) r).gid = if (afterLastGid ops).any (·.1) then [] else lastOr (gidsSet ops) r.gid := by
  -- from the last call backwards
  rw [← List.reverse_reverse ops]
  induction ops.reverse with
  | nil => rfl
  | cons c l ih =>
    obtain ⟨s, op⟩ := c
    rw [List.reverse_cons, List.foldl_append, List.foldl_cons, List.foldl_nil]
    have ha : afterLastGid (l.reverse ++ [(s, op)]) = match (op : RefSet) with | .gid _ => [] | _ => afterLastGid l.reverse ++ [(s, op)] := by
      unfold afterLastGid
      rw [List.reverse_append, List.reverse_reverse]
      cases op <;> simp
    have hg : gidsSet (l.reverse ++ [(s, op)]) = gidsSet l.reverse ++ gidsSet [(s, op)] := List.filterMap_append
    rw [hg, ha]
    clear hg ha
    generalize List.foldl (fun r c => ContactRef.set c.1 r c.2) r l.reverse = x at ih ⊢
    generalize gidsSet l.reverse = G at ih ⊢
    generalize afterLastGid l.reverse = A at ih ⊢
    have e1 : ∀ c : Bool × RefSet, (A ++ [c]).any (·.1) = (A.any (·.1) || c.1) := by simp
    cases op with
    | gid v => simp [ContactRef.set, RefSet.run, gidsSet, lastOr]
    | _ =>
      cases s
      · simp only [e1, Bool.or_false]; rw [show gidsSet _ = [] from rfl, List.append_nil]; exact ih
      · simp only [e1, Bool.or_true, if_true]; rfl

/-- Setting the preferred e-mail address of a member while the reference that was appended still exists loses the member's global id: the
    claim that a call changes only its own field is false. -/
theorem C121_gid_false : ¬ ∀ (g : Group) (r : ContactRef) (s : QString),
    (((g.apply (.appendRef r)).change (.ref g.refs.length true (.preferredEmail s))).refAt g.refs.length).map (·.gid) = some r.gid := by
  intro h
  exact absurd (h { id := [] } { uid := q! "u", gid := q! "g" } (q! "e")) (by decide)

/-- Non-vacuity: calls on two members of a group, one of them shared at the second call. -/
example :
    let g : Group := { id := q! "1", refs := [{ uid := q! "a", gid := q! "x" }, { uid := q! "b", gid := q! "y" }], data := [{ email := q! "e" }] }
    let cs : List MemberCall := [.ref 0 false (.uid (q! "c")), .ref 1 true (.preferredEmail (q! "p")), .data 0 (.name (q! "n")), .ref 0 false (.insertCustom (q! "k") (q! "v"))]
    cs.foldl Group.change g = { id := q! "1", refs := [{ uid := q! "c", gid := q! "x", customs := [(q! "k", q! "v")] }, { uid := q! "b", preferredEmail := q! "p" }],
                                data := [{ name := q! "n", email := q! "e" }] } := by decide +kernel

/-- Non-vacuity of the hypothesis on the custom fields. -/
example : Sorted ([(q! "a", q! "v"), (q! "b", q! "w")] : SMap QString) := by unfold Sorted; decide

end KC
