import Verif.Model.Group
import Verif.Props.C31
/-
  C45: members of a contact group are those appended and not yet removed, in order.
-/
namespace KC

/-- What a history does to one of the three member lists. -/
inductive ListOp (α : Type) where
  | append (x : α) | remove (x : α) | clear | other

/-- Everything appended, in order. -/
def appended {α : Type} : List (ListOp α) → List α
  | [] => []
  | .append x :: t => x :: appended t
  | _ :: t => appended t

/-- How many members looking like `x` are left: one more for each one appended, one less for each removal (if there is one),
    none after a clear. `look` says which members look alike. -/
def leftover {α β : Type} [DecidableEq β] (look : α → β) (x : β) (ops : List (ListOp α)) : Nat :=
  ops.foldl (fun n op => match op with
    | .append y => if look y = x then n + 1 else n
    | .remove y => if look y = x then n - 1 else n
    | .clear => 0
    | .other => n) 0

def GroupOp.onRefs : GroupOp → ListOp ContactRef
  | .appendRef r => .append r | .removeRef r => .remove r | .removeAllRefs => .clear | _ => .other
def GroupOp.onGroupRefs : GroupOp → ListOp GroupRef
  | .appendGroupRef r => .append r | .removeGroupRef r => .remove r | .removeAllGroupRefs => .clear | _ => .other
def GroupOp.onData : GroupOp → ListOp GroupData
  | .appendData r => .append r | .removeData r => .remove r | .removeAllData => .clear | _ => .other

/-- A new group after a history of calls. -/
def groupAfter (id : QString) (ops : List GroupOp) : Group := ops.foldl Group.apply { id := id }

/-- References look alike when all but the gid agrees. -/
def ContactRef.look (r : ContactRef) : ContactRef := { r with gid := [] }

section
variable {α β : Type} [DecidableEq β]

def listApply (eq : α → α → Bool) (l : List α) : ListOp α → List α
  | .append x => l ++ [x]
  | .remove x => removeOne eq x l
  | .clear => []
  | .other => l

theorem removeOne_sublist (eq : α → α → Bool) (x : α) (l : List α) : (removeOne eq x l).Sublist l := by
  induction l with
  | nil => exact List.Sublist.refl _
  | cons y t ih =>
    simp only [removeOne]; split
    · exact List.sublist_cons_self _ _
    · exact ih.cons_cons _

theorem removeOne_count (eq : α → α → Bool) (look : α → β) (heq : ∀ a b, eq a b = true ↔ look a = look b) (x : α) (l : List α) (k : β) :
    ((removeOne eq x l).map look).count k = if look x = k then (l.map look).count k - 1 else (l.map look).count k := by
  induction l with
  | nil => simp [removeOne]
  | cons y t ih =>
    simp only [removeOne]
    by_cases h : eq y x = true
    · rw [if_pos h]
      have h' := (heq y x).1 h
      simp only [List.map_cons, List.count_cons, h', beq_iff_eq]
      by_cases hk : look x = k <;> simp [hk]
    · rw [if_neg h]
      have h' : look y ≠ look x := fun e => h ((heq y x).2 e)
      simp only [List.map_cons, List.count_cons, ih, beq_iff_eq]
      by_cases hk : look x = k
      · have : look y ≠ k := by rw [← hk]; exact h'
        simp [hk, this]
      · simp [hk]

theorem list_history_sublist (eq : α → α → Bool) (ops : List (ListOp α)) :
    ∀ l : List α, (ops.foldl (listApply eq) l).Sublist (l ++ appended ops) := by
  induction ops with
  | nil => intro l; simp [appended]
  | cons op t ih =>
    intro l
    rw [List.foldl_cons]
    refine (ih _).trans ?_
    cases op with
    | append x => simp [listApply, appended]
    | remove x => exact (removeOne_sublist eq x l).append_right _
    | clear => simp [listApply, appended]
    | other => exact List.Sublist.refl _

theorem list_history_count (eq : α → α → Bool) (look : α → β) (heq : ∀ a b, eq a b = true ↔ look a = look b) (ops : List (ListOp α)) (k : β) :
    ∀ l : List α, ((ops.foldl (listApply eq) l).map look).count k =
      ops.foldl (fun n op => match op with
        | .append y => if look y = k then n + 1 else n
        | .remove y => if look y = k then n - 1 else n
        | .clear => 0
        | .other => n) ((l.map look).count k) := by
  induction ops with
  | nil => intro l; rfl
  | cons op t ih =>
    intro l
    rw [List.foldl_cons, List.foldl_cons, ih]
    congr 1
    cases op with
    | append x =>
      simp only [listApply, List.map_append, List.map_cons, List.map_nil, List.count_append, List.count_cons, List.count_nil, beq_iff_eq]
      by_cases h : look x = k <;> simp [h]
    | remove x => exact removeOne_count eq look heq x l k
    | clear => rfl
    | other => rfl
end

theorem groupAfter_lists (ops : List GroupOp) : ∀ g : Group,
    (ops.foldl Group.apply g).refs = (ops.map GroupOp.onRefs).foldl (listApply ContactRef.eq) g.refs ∧
    (ops.foldl Group.apply g).groupRefs = (ops.map GroupOp.onGroupRefs).foldl (listApply (fun a b => a = b)) g.groupRefs ∧
    (ops.foldl Group.apply g).data = (ops.map GroupOp.onData).foldl (listApply (fun a b => a = b)) g.data := by
  induction ops with
  | nil => intro g; exact ⟨rfl, rfl, rfl⟩
  | cons op t ih =>
    intro g
    simp only [List.foldl_cons, List.map_cons]
    have := ih (g.apply op)
    cases op <;> exact this

/-- Order: each list of members is what was appended, in that order, with some left out. -/
theorem C45_order (id : QString) (ops : List GroupOp) :
    (groupAfter id ops).refs.Sublist (appended (ops.map GroupOp.onRefs)) ∧
    (groupAfter id ops).groupRefs.Sublist (appended (ops.map GroupOp.onGroupRefs)) ∧
    (groupAfter id ops).data.Sublist (appended (ops.map GroupOp.onData)) := by
  obtain ⟨h1, h2, h3⟩ := groupAfter_lists ops { id := id }
  unfold groupAfter
  rw [h1, h2, h3]
  exact ⟨by simpa using list_history_sublist ContactRef.eq (ops.map GroupOp.onRefs) [],
    by simpa using list_history_sublist (fun a b : GroupRef => decide (a = b)) (ops.map GroupOp.onGroupRefs) [],
    by simpa using list_history_sublist (fun a b : GroupData => decide (a = b)) (ops.map GroupOp.onData) []⟩

/-- Members: how often each group reference and each data entry occurs is the number of times it was appended minus
    the effective removals; for contact references this holds up to the gid, which the comparison ignores. -/
theorem C45_members_partial (id : QString) (ops : List GroupOp) :
    (∀ k, ((groupAfter id ops).refs.map ContactRef.look).count k = leftover ContactRef.look k (ops.map GroupOp.onRefs)) ∧
    (∀ r, (groupAfter id ops).groupRefs.count r = leftover (fun x => x) r (ops.map GroupOp.onGroupRefs)) ∧
    (∀ d, (groupAfter id ops).data.count d = leftover (fun x => x) d (ops.map GroupOp.onData)) := by
  obtain ⟨h1, h2, h3⟩ := groupAfter_lists ops { id := id }
  unfold groupAfter
  rw [h1, h2, h3]
  refine ⟨fun k => ?_, fun r => ?_, fun d => ?_⟩
  · exact list_history_count ContactRef.eq ContactRef.look (by intro a b; simp [ContactRef.eq, ContactRef.look, and_assoc]) _ k []
  · have := list_history_count (fun a b : GroupRef => decide (a = b)) (fun x => x) (by simp) (ops.map GroupOp.onGroupRefs) r []
    simpa [leftover] using this
  · have := list_history_count (fun a b : GroupData => decide (a = b)) (fun x => x) (by simp) (ops.map GroupOp.onData) d []
    simpa [leftover] using this

/-- Non-vacuity. -/
example : (groupAfter (q! "g") [.appendData { name := q! "a" }, .appendData { name := q! "b" }, .appendRef { uid := q! "r" },
    .removeData { name := q! "a" }, .appendData { name := q! "a" }]).data = [{ name := q! "b" }, { name := q! "a" }] := by decide

/-- The claim as listed is false for contact references: with two references that differ only in their gid, removing the
    second one removes the first one. -/
theorem C45_false : ¬ ∀ (id : QString) (ops : List GroupOp) (r : ContactRef),
    (groupAfter id ops).refs.count r = leftover (fun x => x) r (ops.map GroupOp.onRefs) := by
  intro h
  exact absurd (h [] [.appendRef { gid := q! "1" }, .appendRef { gid := q! "2" }, .removeRef { gid := q! "2" }] { gid := q! "1" }) (by decide)

/-- Counts and indexed access. -/
theorem C45_counts (g : Group) :
    g.count = g.refs.length + g.data.length ∧
    (∀ i, (g.refAt i).isSome = true ↔ i < g.refs.length) ∧ g.refs = (List.range g.refs.length).filterMap g.refAt ∧
    (∀ i, (g.groupRefAt i).isSome = true ↔ i < g.groupRefs.length) ∧ g.groupRefs = (List.range g.groupRefs.length).filterMap g.groupRefAt ∧
    (∀ i, (g.dataAt i).isSome = true ↔ i < g.data.length) ∧ g.data = (List.range g.data.length).filterMap g.dataAt := by
  have key : ∀ {α : Type} (l : List α), l = (List.range l.length).filterMap (fun i => l[i]?) := by
    intro α l
    induction l with
    | nil => rfl
    | cons a t ih =>
      rw [List.length_cons, List.range_succ_eq_map, List.filterMap_cons, List.filterMap_map]
      simp only [List.getElem?_cons_zero]
      congr 1
  refine ⟨rfl, ?_, key _, ?_, key _, ?_, key _⟩ <;> intro i <;> simp [Group.refAt, Group.groupRefAt, Group.dataAt]

/-- Custom fields of a member: after any history of insertions and removals the value under a key is the last one inserted,
    unless removed since. -/
theorem C45_member_customs (m : SMap QString) (hs : Sorted m) (k k' v : QString) :
    Sorted (insertMemberCustom m k v) ∧ Sorted (removeMemberCustom m k) ∧
    memberCustom (insertMemberCustom m k v) k' = (if k = k' then v else memberCustom m k') ∧
    memberCustom (removeMemberCustom m k) k' = (if k = k' then [] else memberCustom m k') := by
  unfold insertMemberCustom removeMemberCustom memberCustom SMap.put
  refine ⟨?_, ?_, ?_, ?_⟩
  · cases h : m.find k with
    | some x => exact SMap.sorted_modify hs
    | none => exact SMap.sorted_insert hs h
  · have key : ∀ m : SMap QString, Sorted m → (m.eraseFirst k).Sublist m := by
      intro m _
      induction m with
      | nil => exact List.Sublist.refl _
      | cons p t ih =>
        obtain ⟨a, b⟩ := p
        simp only [SMap.eraseFirst]; split
        · exact List.sublist_cons_self _ _
        · exact (ih (by assumption |> List.Pairwise.of_cons)).cons_cons _
    exact List.Pairwise.sublist (key m hs) hs
  · cases h : m.find k with
    | some x => simp only [SMap.find_modify]; by_cases e : k = k' <;> simp_all
    | none => simp only [SMap.find_insertSorted h]; by_cases e : k = k' <;> simp_all
  · rw [find_eraseFirst hs]; by_cases e : k = k' <;> simp_all

end KC
