import Verif.Props.C45
/-
  C69. Comparison of contact groups
-/
namespace KC
namespace Spec

/-- What the comparison of two references to contacts looks at: everything but the global id. -/
def withoutGid (r : ContactRef) : ContactRef := { r with gid := [] }

/-- What the comparison of two groups looks at. -/
def shownGroup (g : Group) : Group := { g with refs := g.refs.map withoutGid }

end Spec
open Spec

theorem contactRef_eq_iff (a b : ContactRef) : a.eq b = true ↔ withoutGid a = withoutGid b := by
  obtain ⟨a1, a2, a3, a4⟩ := a
  obtain ⟨b1, b2, b3, b4⟩ := b
  simp [ContactRef.eq, withoutGid, and_assoc]

theorem refsEq_iff (l m : List ContactRef) : refsEq l m = true ↔ l.map withoutGid = m.map withoutGid := by
  induction l generalizing m with
  | nil => cases m <;> simp [refsEq]
  | cons a l ih => cases m <;> simp [refsEq, ih, contactRef_eq_iff]

/-- **C69.** Two groups compare equal exactly if they have the same id, name, references to groups and own members, and the same references to contacts
    up to the global ids, all in the same order. -/
theorem C69_iff (a b : Group) : a.eq b = true ↔ shownGroup a = shownGroup b := by
  obtain ⟨a1, a2, a3, a4, a5⟩ := a
  obtain ⟨b1, b2, b3, b4, b5⟩ := b
  simp [Group.eq, shownGroup, refsEq_iff, and_assoc]

/-- **C69.** The comparison is an equivalence. -/
theorem C69_equivalence : Equivalence fun a b : Group => a.eq b = true where
  refl a := (C69_iff a a).2 rfl
  symm {a b} h := (C69_iff b a).2 ((C69_iff a b).1 h).symm
  trans {a b c} h h' := (C69_iff a c).2 (((C69_iff a b).1 h).trans ((C69_iff b c).1 h'))

/-- **C69.** Groups that compare equal have the same numbers of members, and the same calls make groups that compare equal from them. -/
theorem C69_congruence (a b : Group) (h : a.eq b = true) (ops : List GroupOp) :
    (ops.foldl Group.apply a).eq (ops.foldl Group.apply b) = true ∧ (ops.foldl Group.apply a).count = (ops.foldl Group.apply b).count := by
  have hrem : ∀ (r : ContactRef) (l m : List ContactRef), l.map withoutGid = m.map withoutGid →
      (removeOne ContactRef.eq r l).map withoutGid = (removeOne ContactRef.eq r m).map withoutGid := by
    intro r l
    induction l with
    | nil => intro m h; cases m <;> simp_all [removeOne]
    | cons x l ih =>
      intro m h
      cases m with
      | nil => simp at h
      | cons y m =>
        simp only [List.map_cons, List.cons.injEq] at h
        have e : x.eq r = y.eq r := by
          rw [Bool.eq_iff_iff, contactRef_eq_iff, contactRef_eq_iff, h.1]
        simp only [removeOne, e]
        split
        · exact h.2
        · simp only [List.map_cons, h.1, ih m h.2]
  have step : ∀ (a b : Group) (op : GroupOp), shownGroup a = shownGroup b → shownGroup (a.apply op) = shownGroup (b.apply op) := by
    intro a b op h
    obtain ⟨a1, a2, a3, a4, a5⟩ := a
    obtain ⟨b1, b2, b3, b4, b5⟩ := b
    simp only [shownGroup, Group.mk.injEq] at h
    obtain ⟨rfl, rfl, h, rfl, rfl⟩ := h
    cases op <;> simp [Group.apply, shownGroup, h, hrem _ _ _ h]
  have hist : ∀ (ops : List GroupOp) (a b : Group), shownGroup a = shownGroup b → shownGroup (ops.foldl Group.apply a) = shownGroup (ops.foldl Group.apply b) := by
    intro ops
    induction ops with
    | nil => intro a b h; exact h
    | cons op ops ih => intro a b h; exact ih _ _ (step a b op h)
  have hh := hist ops a b ((C69_iff a b).1 h)
  refine ⟨(C69_iff _ _).2 hh, ?_⟩
  have h1 := congrArg (fun g : Group => g.refs.length) hh
  have h2 := congrArg (fun g : Group => g.data.length) hh
  simp only [shownGroup, List.length_map] at h1 h2
  simp only [Group.count, h1, h2]

/-- **C69 is false:** groups that compare equal need not be the same: the global ids of references are not compared. -/
theorem C69_false : ¬ ∀ a b : Group, a.eq b = true → a = b := by
  intro h
  have := h { id := q! "g", refs := [{ uid := q! "u", gid := q! "1" }] } { id := q! "g", refs := [{ uid := q! "u", gid := q! "2" }] } (by decide)
  revert this
  decide

/-- **C69.** Without global ids equal groups are the same. -/
theorem C69_partial (a b : Group) (ha : ∀ r ∈ a.refs, r.gid = []) (hb : ∀ r ∈ b.refs, r.gid = []) : a.eq b = true ↔ a = b := by
  have hid : ∀ l : List ContactRef, (∀ r ∈ l, r.gid = []) → l.map withoutGid = l := by
    intro l h
    conv => rhs; rw [← List.map_id l]
    apply List.map_congr_left
    intro r hr
    obtain ⟨r1, r2, r3, r4⟩ := r
    have := h _ hr
    simp only at this
    subst this
    rfl
  rw [C69_iff, shownGroup, shownGroup, hid _ ha, hid _ hb]

/-! ### Instances -/

example : Group.eq { id := q! "g", refs := [{ uid := q! "u" }] } { id := q! "g", refs := [{ uid := q! "u" }, { uid := q! "v" }] } = false := by decide
example : Group.eq { id := q! "g", data := [{ name := q! "n" }] } { id := q! "h", data := [{ name := q! "n" }] } = false := by decide
example : Group.eq { id := q! "g", refs := [{ uid := q! "u", gid := q! "1" }] } { id := q! "g", refs := [{ uid := q! "u", gid := q! "2" }] } = true := by decide

end KC
