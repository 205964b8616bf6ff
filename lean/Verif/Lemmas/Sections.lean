import Verif.Lemmas.Frame
import Verif.Lemmas.Flags
import Verif.Spec.Carriable
/- Helper lemmas: the lines of one kind among all lines of a contact, and the part of the contact that they make. -/
namespace KC
open Spec

/-- the kind of the line that is read from a line written with this name -/
def nameTag (n : QString) : Tag := tagOf { identifier := (nameRead n).2, group := (nameRead n).1 }

theorem tagOf_readBack {l r : VCardLine} (h : readBack l = some r) : tagOf r = nameTag l.identifier := by
  unfold readBack at h
  split at h
  · cases h
  · cases h; rfl

theorem readBack_id {l r : VCardLine} (h : readBack l = some r) : r.identifier = (nameRead l.identifier).2 := by
  unfold readBack at h
  split at h
  · cases h
  · cases h; rfl

theorem filterMap_tags (L : List VCardLine) (T : List Tag) :
    (L.filterMap readBack).filter (fun r => tagOf r ∈ T) = (L.filter fun l => nameTag l.identifier ∈ T).filterMap readBack := by
  induction L with
  | nil => rfl
  | cons l L ih =>
    cases hr : readBack l with
    | none =>
      rw [List.filterMap_cons_none hr, List.filter_cons]
      split
      · rw [List.filterMap_cons_none hr, ih]
      · exact ih
    | some r =>
      rw [List.filterMap_cons_some hr, List.filter_cons, List.filter_cons, tagOf_readBack hr]
      split
      · rw [List.filterMap_cons_some hr, ih]
      · exact ih

/-- the sections only have lines of the given kinds -/
def SecOK (secs : List (List VCardLine)) (tss : List (List Tag)) : Prop :=
  List.Forall₂ (fun sec ts => ∀ l ∈ sec, nameTag l.identifier ∈ ts) secs tss

theorem filter_section {secs : List (List VCardLine)} {tss : List (List Tag)} (h : SecOK secs tss) (T : List Tag) (i : Nat)
    (hi : tss[i]? = some T) (hd : (tss.eraseIdx i).all (fun ts => ts.all fun t => decide (t ∉ T)) = true) :
    secs.flatten.filter (fun l => nameTag l.identifier ∈ T) = secs.getD i [] := by
  have none : ∀ (secs : List (List VCardLine)) (tss : List (List Tag)), SecOK secs tss → tss.all (fun ts => ts.all fun t => decide (t ∉ T)) = true →
      secs.flatten.filter (fun l => nameTag l.identifier ∈ T) = [] := by
    intro secs tss h hd
    induction h with
    | nil => rfl
    | cons h1 _ ih =>
      simp only [List.all_cons, Bool.and_eq_true] at hd
      rw [List.flatten_cons, List.filter_append, ih hd.2, List.append_nil, List.filter_eq_nil_iff]
      intro l hl
      have := List.all_eq_true.1 hd.1 _ (h1 l hl)
      simpa using this
  induction h generalizing i with
  | nil => simp at hi
  | @cons sec ts secs tss h1 h2 ih =>
    cases i with
    | zero =>
      simp only [List.getElem?_cons_zero, Option.some.injEq] at hi
      simp only [List.eraseIdx_cons_zero] at hd
      rw [List.flatten_cons, List.filter_append, none _ _ h2 hd, List.append_nil, List.filter_eq_self.2]
      · rfl
      · intro l hl
        rw [← hi]
        simpa using h1 l hl
    | succ i =>
      simp only [List.eraseIdx_cons_succ, List.all_cons, Bool.and_eq_true] at hd
      simp only [List.getElem?_cons_succ] at hi
      rw [List.flatten_cons, List.filter_append, List.filter_eq_nil_iff.2, List.nil_append, ih i hi hd.2]
      · rfl
      · intro l hl
        have := List.all_eq_true.1 hd.1 _ (h1 l hl)
        simpa using this

theorem mem_section {secs : List (List VCardLine)} {tss : List (List Tag)} (h : SecOK secs tss) {T : List Tag} {i : Nat}
    (hi : tss[i]? = some T) (hd : (tss.eraseIdx i).all (fun ts => ts.all fun t => decide (t ∉ T)) = true) {l : VCardLine}
    (hl : l ∈ secs.flatten) (ht : nameTag l.identifier ∈ T) : l ∈ secs.getD i [] := by
  rw [← filter_section h T i hi hd, List.mem_filter]
  exact ⟨hl, by simpa using ht⟩

/-- the lines of a section come back in their order, if they all have the same name -/
theorem seen_section {secs : List (List VCardLine)} {tss : List (List Tag)} (h : SecOK secs tss) {T : List Tag} {i : Nat} (n : QString)
    (hi : tss[i]? = some T) (hd : (tss.eraseIdx i).all (fun ts => ts.all fun t => decide (t ∉ T)) = true)
    (hn : ∀ l ∈ secs.getD i [], l.identifier = n) :
    (seen secs.flatten).filter (fun r => tagOf r ∈ T) = (secs.getD i []).filterMap readBack := by
  rw [seen_filter _ _ n (nameRead n).2, filterMap_tags, filter_section h T i hi hd]
  intro l hl r hr ht
  simp only [decide_eq_true_eq] at ht
  rw [tagOf_readBack hr] at ht
  have := hn l (mem_section h hi hd hl ht)
  exact ⟨this, by rw [readBack_id hr, this]⟩

/-- the lines of a section come back in some order -/
theorem seen_section_perm {secs : List (List VCardLine)} {tss : List (List Tag)} (h : SecOK secs tss) {T : List Tag} {i : Nat}
    (hi : tss[i]? = some T) (hd : (tss.eraseIdx i).all (fun ts => ts.all fun t => decide (t ∉ T)) = true) :
    ((seen secs.flatten).filter (fun r => tagOf r ∈ T)).Perm ((secs.getD i []).filterMap readBack) := by
  rw [← filter_section h T i hi hd, ← filterMap_tags]
  exact (seen_perm _).filter _

/-! ### parts of the state -/

theorem component {α : Type} (E : ToolEnv) (ids : IdKind → Nat → QString) (π : RState → α) (step : α → VCardLine → α) (T : List Tag)
    (lines : List VCardLine) (s : RState) (hno : ∀ s, ∀ l ∈ lines, tagOf l ∉ T → π (readLine E ids s l) = π s)
    (hyes : ∀ s, ∀ l ∈ lines, tagOf l ∈ T → π (readLine E ids s l) = step (π s) l) :
    π (lines.foldl (readLine E ids) s) = (lines.filter fun l => tagOf l ∈ T).foldl step (π s) := by
  induction lines generalizing s with
  | nil => rfl
  | cons l lines ih =>
    rw [List.foldl_cons, ih _ (fun s l hl => hno s l (by simp [hl])) (fun s l hl => hyes s l (by simp [hl]))]
    by_cases h : tagOf l ∈ T
    · rw [List.filter_cons_of_pos (by simpa using h), List.foldl_cons, hyes s l (by simp) h]
    · rw [List.filter_cons_of_neg (by simpa using h), hno s l (by simp) h]

/-- solves `tagOf l ∉ T → π (readLine E ids s l) = π s` -/
syntax "frame_tac" ident ident term : tactic
macro_rules
  | `(tactic| frame_tac $E $ids $π) => `(tactic| (
      intro s l _ ht
      have f := frame $E $ids s l
      generalize readLine $E $ids s l = s' at f ⊢
      cases hT : tagOf l <;> rw [hT] at f ht <;> first | exact absurd (by decide) ht | exact (congrArg $π f).trans rfl))

/-- solves `tagOf l ∈ [t] → π (readLine E ids s l) = step (π s) l` up to the setter -/
syntax "line_tac" : tactic
macro_rules
  | `(tactic| line_tac) => `(tactic| (
      intro s l _ ht
      simp only [List.mem_singleton] at ht
      unfold readLine
      rw [ht]))

end KC
