import Verif.Lemmas.Keyed
import Verif.Props.C12
/-
  C30: categories behave like an ordered set.
-/
namespace KC

inductive CatOp where
  | insert (s : QString)
  | remove (s : QString)
deriving DecidableEq

/-- The category an operation is about. -/
def CatOp.about : CatOp → QString
  | .insert s => s
  | .remove s => s

def CatOp.apply (c : Contact) : CatOp → Contact
  | .insert s => c.insertCategory s
  | .remove s => c.removeCategory s

/-- A new contact after a history of category operations. -/
def catHistory (u : QString) (ops : List CatOp) : Contact := ops.foldl CatOp.apply (Contact.new u)

/-- The last operation about `s` in the history is an insertion. -/
def lastIsInsert (ops : List CatOp) (s : QString) : Bool := ops.reverse.find? (fun o => o.about = s) = some (.insert s)

/-- The category that the operation at position `i` of the history put in its place: it is an insertion, the category was not
    there before it, and it was not removed afterwards. -/
def placedAt (ops : List CatOp) (i : Nat) : Option QString :=
  match ops[i]? with
  | some (.insert s) =>
    if !lastIsInsert (ops.take i) s && (ops.drop (i + 1)).all (fun o => o ≠ .remove s) then some s else none
  | _ => none

theorem catHistory_snoc (u : QString) (ops : List CatOp) (o : CatOp) : catHistory u (ops ++ [o]) = o.apply (catHistory u ops) := by
  simp [catHistory]

theorem lastIsInsert_snoc (ops : List CatOp) (o : CatOp) (s : QString) :
    lastIsInsert (ops ++ [o]) s = if o.about = s then decide (o = .insert s) else lastIsInsert ops s := by
  simp only [lastIsInsert, List.reverse_append, List.reverse_cons, List.reverse_nil, List.nil_append, List.singleton_append,
    List.find?_cons]
  by_cases h : o.about = s <;> simp [h]

theorem filterMap_congr' {α β : Type} {f g : α → Option β} {l : List α} (h : ∀ x ∈ l, f x = g x) :
    l.filterMap f = l.filterMap g := by
  induction l with
  | nil => rfl
  | cons x t ih => simp only [List.filterMap_cons, h x (by simp), ih (fun y hy => h y (List.mem_cons_of_mem _ hy))]

/-- A category is present iff its last operation was an insertion. -/
theorem C30_present_iff (u : QString) (ops : List CatOp) (s : QString) :
    (catHistory u ops).hasCategory s = lastIsInsert ops s := by
  induction ops using rev_induction with
  | h0 => simp [catHistory, Contact.new, Contact.hasCategory, lastIsInsert]
  | hs l o ih =>
    rw [catHistory_snoc, lastIsInsert_snoc, ← ih]
    simp only [Contact.hasCategory]
    cases o with
    | insert t =>
      simp only [CatOp.apply, Contact.insertCategory, CatOp.about]
      by_cases e : t = s
      · subst e; split <;> simp [*]
      · simp only [e, if_false]; split
        · rfl
        · simp [Ne.symm e]
    | remove t =>
      simp only [CatOp.apply, Contact.removeCategory, CatOp.about]
      by_cases e : t = s
      · subst e; split <;> simp [*]
      · simp only [e, if_false]; split
        · simp [Ne.symm e]
        · rfl

/-- No category occurs twice. -/
theorem C30_no_duplicates (u : QString) (ops : List CatOp) : (catHistory u ops).categories.Nodup := by
  induction ops using rev_induction with
  | h0 => simp [catHistory, Contact.new]
  | hs l o ih =>
    rw [catHistory_snoc]
    cases o with
    | insert t =>
      simp only [CatOp.apply, Contact.insertCategory]
      split
      · exact ih
      · rename_i h
        rw [List.nodup_append]
        refine ⟨ih, by simp, ?_⟩
        intro a ha b hb e; simp at hb; subst hb; subst e; exact h ha
    | remove t =>
      simp only [CatOp.apply, Contact.removeCategory]
      split
      · exact ih.filter _
      · exact ih

/-- The listing is in order of insertion: reading the history from its beginning, it consists of the categories put in place. -/
theorem C30_order (u : QString) (ops : List CatOp) :
    (catHistory u ops).categories = (List.range ops.length).filterMap (placedAt ops) := by
  induction ops using rev_induction with
  | h0 => simp [catHistory, Contact.new]
  | hs l o ih =>
    have hp := C30_present_iff u l
    rw [catHistory_snoc, List.length_append, List.length_singleton, List.range_succ, List.filterMap_append]
    have hold : ∀ i ∈ List.range l.length, placedAt (l ++ [o]) i =
        (placedAt l i).filter (fun s => decide (o ≠ .remove s)) := by
      intro i hi
      have hi : i < l.length := List.mem_range.1 hi
      simp only [placedAt, List.getElem?_append_left hi]
      cases l[i]? with
      | none => rfl
      | some x =>
        cases x with
        | remove s => rfl
        | insert s =>
          simp only [List.take_append_of_le_length (by omega : i ≤ l.length),
            List.drop_append_of_le_length (by omega : i + 1 ≤ l.length), List.all_append, List.all_cons, List.all_nil, Bool.and_true]
          by_cases h1 : (!lastIsInsert (List.take i l) s && (List.drop (i + 1) l).all fun o => decide (o ≠ CatOp.remove s)) = true
          · rw [if_pos h1]
            rw [Bool.and_eq_true] at h1
            simp only [h1.1, h1.2, Bool.true_and, Option.filter_some]
          · rw [if_neg h1]
            rw [if_neg (by intro h; apply h1; simp only [Bool.and_eq_true] at h ⊢; exact ⟨h.1, h.2.1⟩)]
            rfl
    have hnew : placedAt (l ++ [o]) l.length = match o with
        | .insert s => if lastIsInsert l s then none else some s
        | .remove _ => none := by
      simp only [placedAt, List.getElem?_append_right (Nat.le_refl _), Nat.sub_self, List.getElem?_cons_zero, List.take_left]
      cases o with
      | remove s => rfl
      | insert s =>
        simp only [List.drop_eq_nil_of_le (show (l ++ [CatOp.insert s]).length ≤ l.length + 1 by simp), List.all_nil, Bool.and_true]
        cases lastIsInsert l s <;> rfl
    cases o with
    | insert t =>
      have e1 : (List.range l.length).filterMap (placedAt (l ++ [.insert t])) = (catHistory u l).categories := by
        rw [ih]; apply filterMap_congr'
        intro i hi; rw [hold i hi]
        cases placedAt l i <;> simp
      rw [e1]
      simp only [List.filterMap_cons, List.filterMap_nil, hnew]
      simp only [CatOp.apply, Contact.insertCategory]
      have := hp t
      simp only [Contact.hasCategory] at this
      rw [← this]
      by_cases h : t ∈ (catHistory u l).categories <;> simp [h]
    | remove t =>
      have e1 : (List.range l.length).filterMap (placedAt (l ++ [.remove t])) = (catHistory u l).categories.filter (· ≠ t) := by
        rw [ih]
        rw [List.filter_filterMap]
        apply filterMap_congr'
        intro i hi; rw [hold i hi]
        cases placedAt l i with
        | none => rfl
        | some s => by_cases e : s = t <;> simp [Option.filter_some, e, Ne.symm]
      rw [e1]
      simp only [List.filterMap_cons, List.filterMap_nil, hnew, List.append_nil]
      simp only [CatOp.apply, Contact.removeCategory]
      split
      · rfl
      · rename_i h
        symm; rw [List.filter_eq_self]
        intro a ha; simp only [decide_eq_true_eq]; intro e; subst e; exact h ha

example :
    let ops : List CatOp := [.insert (q! "a"), .insert (q! "b"), .insert (q! "c"), .insert (q! "a"), .remove (q! "b"), .insert (q! "b")]
    (catHistory [] ops).categories = [q! "a", q! "c", q! "b"] ∧ (List.range 6).map (placedAt ops) =
      [some (q! "a"), none, some (q! "c"), none, none, some (q! "b")] := by decide

end KC
