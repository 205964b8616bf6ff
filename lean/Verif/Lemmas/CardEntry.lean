import Verif.Lemmas.Frame
import Verif.Lemmas.LdifEntry
import Verif.Lemmas.Keyed
import Verif.Spec.CardEntry
import Mathlib.Data.List.Induction
/-
  The reading of the lines of one card, field by field.
-/
namespace KC
open KC.Spec

/-! ### names and kinds of lines -/

theorem tagTable_inj : ∀ p ∈ tagTable, ∀ q ∈ tagTable, (p.1 = q.1 ↔ p.2 = q.2) := by decide +kernel
theorem tagTable_proper : ∀ p ∈ tagTable, p.2 ≠ .fieldGroup ∧ p.2 ≠ .x ∧ p.2 ≠ .other := by decide +kernel
theorem tagTable_adr : (q! "adr", Tag.adr) ∈ tagTable := by decide +kernel

theorem tagOf_named (l : VCardLine) (p : QString × Tag) (hp : p ∈ tagTable) :
    tagOf l = p.2 ↔ nameOf l = p.1 ∧ (l.group = [] ∨ nameOf l = q! "adr") := by
  have hpr := tagTable_proper p hp
  show (if (l.group ≠ [] && nameOf l ≠ q! "adr") = true then Tag.fieldGroup
    else match tagTable.find? fun p => decide (p.1 = nameOf l) with
      | some p => p.2
      | none => if startsWith (q! "x-") (nameOf l) = true then Tag.x else Tag.other) = p.2 ↔ _
  by_cases hg : (l.group ≠ [] && nameOf l ≠ q! "adr") = true
  · rw [if_pos hg]
    constructor
    · intro h; exact absurd h.symm hpr.1
    · rintro ⟨_, h⟩
      simp only [Bool.and_eq_true, decide_eq_true_eq] at hg
      exact absurd h (by rintro (h | h); exact hg.1 h; exact hg.2 h)
  · rw [if_neg hg]
    have hg' : l.group = [] ∨ nameOf l = q! "adr" := by
      simp only [Bool.and_eq_true, decide_eq_true_eq, not_and_or, not_not] at hg
      exact hg
    cases hf : tagTable.find? (fun p => decide (p.1 = nameOf l)) with
    | none =>
      have hn : ∀ q ∈ tagTable, q.1 ≠ nameOf l := by
        intro q hq e
        have := List.find?_eq_none.1 hf q hq
        simp [e] at this
      constructor
      · intro h
        exfalso
        dsimp only at h
        split at h
        · exact hpr.2.1 h.symm
        · exact hpr.2.2 h.symm
      · rintro ⟨h, _⟩
        exact absurd h.symm (hn p hp)
    | some q =>
      have hq := List.mem_of_find?_eq_some hf
      have he : q.1 = nameOf l := by simpa using List.find?_some hf
      have := tagTable_inj q hq p hp
      constructor
      · intro h
        exact ⟨he.symm.trans (this.2 h), hg'⟩
      · rintro ⟨h, _⟩
        exact this.1 (he.trans h)

theorem tagOf_x (l : VCardLine) : tagOf l = .x ↔ IsExtension l := by
  have hx : ∀ p ∈ tagTable, startsWith (q! "x-") p.1 = false := by decide +kernel
  show (if (l.group ≠ [] && nameOf l ≠ q! "adr") = true then Tag.fieldGroup
    else match tagTable.find? fun p => decide (p.1 = nameOf l) with
      | some p => p.2
      | none => if startsWith (q! "x-") (nameOf l) = true then Tag.x else Tag.other) = .x ↔ _
  unfold IsExtension
  by_cases hg : (l.group ≠ [] && nameOf l ≠ q! "adr") = true
  · rw [if_pos hg]
    simp only [Bool.and_eq_true, decide_eq_true_eq] at hg
    constructor
    · intro h; exact absurd h (by simp)
    · rintro ⟨h, _⟩; exact absurd h hg.1
  · rw [if_neg hg]
    have hg' : l.group = [] ∨ nameOf l = q! "adr" := by
      simp only [Bool.and_eq_true, decide_eq_true_eq, not_and_or, not_not] at hg
      exact hg
    cases hf : tagTable.find? (fun p => decide (p.1 = nameOf l)) with
    | none =>
      have ha : nameOf l ≠ q! "adr" := by
        intro e
        have := List.find?_eq_none.1 hf _ tagTable_adr
        simp [e] at this
      dsimp only
      constructor
      · intro h
        split at h
        · rename_i h'; exact ⟨hg'.resolve_right ha, h'⟩
        · exact absurd h (by simp)
      · rintro ⟨_, h⟩; rw [if_pos h]
    | some q =>
      have hq := List.mem_of_find?_eq_some hf
      have he : q.1 = nameOf l := by simpa using List.find?_some hf
      constructor
      · intro h; exact absurd h (tagTable_proper q hq).2.1
      · rintro ⟨_, h⟩
        have := hx q hq
        rw [he, h] at this
        exact absurd this (by simp)

theorem tagOf_group (l : VCardLine) : tagOf l = .fieldGroup ↔ l.group ≠ [] ∧ nameOf l ≠ q! "adr" := by
  show (if (l.group ≠ [] && nameOf l ≠ q! "adr") = true then Tag.fieldGroup
    else match tagTable.find? fun p => decide (p.1 = nameOf l) with
      | some p => p.2
      | none => if startsWith (q! "x-") (nameOf l) = true then Tag.x else Tag.other) = .fieldGroup ↔ _
  by_cases hg : (l.group ≠ [] && nameOf l ≠ q! "adr") = true
  · rw [if_pos hg]
    simp only [Bool.and_eq_true, decide_eq_true_eq] at hg
    simp [hg]
  · rw [if_neg hg]
    simp only [Bool.and_eq_true, decide_eq_true_eq] at hg
    constructor
    · intro h
      exfalso
      cases hf : tagTable.find? (fun p => decide (p.1 = nameOf l)) with
      | none =>
        rw [hf] at h
        dsimp only at h
        split at h <;> exact absurd h (by simp)
      | some q =>
        rw [hf] at h
        exact (tagTable_proper q (List.mem_of_find?_eq_some hf)).1 h
    · intro h; exact absurd h hg

/-- the lines with these names are those of these kinds -/
theorem named_eq_tags (L : List VCardLine) (ps : List (QString × Tag)) (hps : ∀ p ∈ ps, p ∈ tagTable) :
    named L (ps.map (·.1)) = L.filter fun l => decide (tagOf l ∈ ps.map (·.2)) := by
  unfold named
  apply List.filter_congr
  intro l _
  rw [decide_eq_decide]
  simp only [List.mem_map]
  constructor
  · rintro ⟨⟨p, hp, e⟩, hg⟩
    exact ⟨p, hp, ((tagOf_named l p (hps p hp)).2 ⟨e.symm, hg⟩).symm⟩
  · rintro ⟨p, hp, e⟩
    have := (tagOf_named l p (hps p hp)).1 e.symm
    exact ⟨⟨p, hp, this.1.symm⟩, this.2⟩

/-! ### folds -/

section
variable (E : ToolEnv) (ids : IdKind → Nat → QString)

/-- A part of the state that only lines of some kinds change. -/
theorem read_part {α : Type} (π : RState → α) (tags : List Tag) (g : α → VCardLine → α)
    (hf : ∀ t, t ∉ tags → ∀ s s', Frame t s s' → π s' = π s)
    (hg : ∀ s l, tagOf l ∈ tags → π (readLine E ids s l) = g (π s) l) (L : List VCardLine) (s : RState) :
    π (L.foldl (readLine E ids) s) = (L.filter fun l => decide (tagOf l ∈ tags)).foldl g (π s) := by
  induction L generalizing s with
  | nil => rfl
  | cons l L ih =>
    rw [List.foldl_cons, ih]
    by_cases h : tagOf l ∈ tags
    · rw [List.filter_cons_of_pos (by simpa using h), List.foldl_cons, hg s l h]
    · rw [List.filter_cons_of_neg (by simpa using h), hf _ h _ _ (frame E ids s l)]

/-- The same with an invariant. -/
theorem read_part_inv {α : Type} (π : RState → α) (tags : List Tag) (g : α → VCardLine → α) (I : RState → Prop)
    (hf : ∀ t, t ∉ tags → ∀ s s', Frame t s s' → I s → I s' ∧ π s' = π s)
    (hg : ∀ s l, tagOf l ∈ tags → I s → I (readLine E ids s l) ∧ π (readLine E ids s l) = g (π s) l) (L : List VCardLine) (s : RState) (h0 : I s) :
    I (L.foldl (readLine E ids) s) ∧ π (L.foldl (readLine E ids) s) = (L.filter fun l => decide (tagOf l ∈ tags)).foldl g (π s) := by
  induction L generalizing s with
  | nil => exact ⟨h0, rfl⟩
  | cons l L ih =>
    rw [List.foldl_cons]
    by_cases h : tagOf l ∈ tags
    · obtain ⟨h1, h2⟩ := hg s l h h0
      rw [List.filter_cons_of_pos (by simpa using h), List.foldl_cons, ← h2]
      exact ih _ h1
    · obtain ⟨h1, h2⟩ := hf _ h _ _ (frame E ids s l) h0
      rw [List.filter_cons_of_neg (by simpa using h), ← h2]
      exact ih _ h1
end

theorem fold_lastMap {α β : Type} (f : β → α) (l : List β) (x : α) : l.foldl (fun _ b => f b) x = (l.map f).getLast?.getD x := by
  rw [← fold_last, List.foldl_map]

theorem fold_lastSome {α β : Type} (f : β → Option α) (l : List β) (x : α) : l.foldl (fun x b => (f b).getD x) x = (l.filterMap f).getLast?.getD x := by
  induction l generalizing x with
  | nil => rfl
  | cons b l ih =>
    rw [List.foldl_cons, ih]
    cases h : f b with
    | none => rw [List.filterMap_cons_none h]; rfl
    | some a => rw [List.filterMap_cons_some h, List.getLast?_cons]; rfl

theorem fold_flat {α β : Type} (f : β → List α) (l : List β) (x : List α) : l.foldl (fun x b => x ++ f b) x = x ++ l.flatMap f := by
  induction l generalizing x with
  | nil => simp
  | cons b l ih => rw [List.foldl_cons, ih, List.flatMap_cons, List.append_assoc]

theorem flat_filter {α β : Type} (f : β → α) (p : α → Bool) (l : List β) : (l.flatMap fun b => if p (f b) then [f b] else []) = (l.map f).filter p := by
  induction l with
  | nil => rfl
  | cons b l ih => rw [List.flatMap_cons, List.map_cons, List.filter_cons, ih]; split <;> rfl

theorem fold_appendIf {α β : Type} (f : β → α) (p : α → Bool) (l : List β) :
    l.foldl (fun x b => if p (f b) then x ++ [f b] else x) [] = (l.map f).filter p := by
  have : (fun (x : List α) (b : β) => if p (f b) = true then x ++ [f b] else x) = fun x b => x ++ if p (f b) then [f b] else [] := by
    funext x b
    split <;> simp
  rw [this, fold_flat, flat_filter]
  rfl

end KC
