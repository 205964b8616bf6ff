import Verif.Lemmas.SMap
import Verif.Spec.Maps
/-
  C12: parameters behave like an ordered map of value sets.
  C13: a card groups its lines by property name.
-/
namespace KC
open Spec

theorem qlt_iff_less (a b : QString) : qlt a b = true ↔ Less a b := by
  constructor
  · intro h
    induction a generalizing b with
    | nil => cases b with
      | nil => simp [qlt] at h
      | cons y b => exact .nil
    | cons x a ih =>
      cases b with
      | nil => simp [qlt] at h
      | cons y b =>
        simp only [qlt] at h
        split at h
        · rename_i e; subst e; exact .tail (ih b h)
        · exact .head (by simpa using h)
  · intro h
    induction h with
    | nil => rfl
    | head h =>
      simp only [qlt]
      rw [if_neg (by intro e; subst e; exact absurd h (UInt16.lt_irrefl _))]
      simpa using h
    | tail _ ih => simpa [qlt] using ih

/-- The parameter map after a history of additions to a fresh property. -/
def paramsAfter (h : List (QString × QString)) : ParameterMap :=
  (h.foldl (fun l p => VCardLine.addParameter l p.1 p.2) {}).params

theorem paramsAfter_snoc (h : List (QString × QString)) (p : QString × QString) :
    paramsAfter (h ++ [p]) = SMap.upsert (paramsAfter h) p.1 [p.2]
      (fun vs => if p.2 ∈ vs then vs else vs ++ [p.2]) := by
  simp only [paramsAfter, List.foldl_append, List.foldl_cons, List.foldl_nil, VCardLine.addParameter]
  exact ParameterMap.add_eq _ _ _

theorem distinct_snoc {α : Type} [DecidableEq α] (l : List α) (x : α) :
    distinct (l ++ [x]) = if x ∈ distinct l then distinct l else distinct l ++ [x] := by
  unfold distinct; rw [List.foldl_append]; rfl

theorem distinct_cons {α : Type} [DecidableEq α] (v : α) (t : List α) : ∃ r, distinct (v :: t) = v :: r := by
  have key : ∀ (l acc : List α), ∃ r,
      l.foldl (fun acc x => if x ∈ acc then acc else acc ++ [x]) (v :: acc) = v :: r := by
    intro l
    induction l with
    | nil => intro acc; exact ⟨acc, rfl⟩
    | cons x l ih =>
      intro acc
      simp only [List.foldl_cons]
      split
      · exact ih acc
      · exact ih (acc ++ [x])
  simpa [distinct] using key t []

theorem rev_induction {α : Type} {P : List α → Prop} (l : List α) (h0 : P [])
    (hs : ∀ l x, P l → P (l ++ [x])) : P l := by
  have : ∀ l : List α, P l.reverse := by
    intro l
    induction l with
    | nil => exact h0
    | cons x t ih => rw [List.reverse_cons]; exact hs _ _ ih
  have := this l.reverse
  simpa using this

theorem params_find (h : List (QString × QString)) (name : QString) :
    SMap.find (paramsAfter h) name =
      if valuesOf h name = [] then none else some (distinct (valuesOf h name)) := by
  induction h using rev_induction with
  | h0 => simp [paramsAfter, SMap.find, valuesOf]
  | hs h p ih =>
    rw [paramsAfter_snoc, SMap.find_upsert]
    by_cases e : p.1 = name
    · subst e
      have hv : valuesOf (h ++ [p]) p.1 = valuesOf h p.1 ++ [p.2] := by simp [valuesOf]
      rw [if_pos rfl, hv, if_neg (by simp), ih, distinct_snoc]
      by_cases e0 : valuesOf h p.1 = []
      · simp [e0, distinct]
      · simp [e0]
    · have hv : valuesOf (h ++ [p]) name = valuesOf h name := by simp [valuesOf, e]
      rw [if_neg e, hv, ih]

/-- C12, lookup: after any history of additions, looking up a name returns exactly the distinct values added under it, in
    order of first addition (none if the name was never added). -/
theorem C12_lookup (h : List (QString × QString)) (name : QString) :
    VCardLine.parameters { params := paramsAfter h } name = distinct (valuesOf h name) := by
  unfold VCardLine.parameters
  rw [params_find]
  by_cases e : valuesOf h name = []
  · simp [e, distinct]
  · simp [e]

/-- C12, single lookup: `parameter(name)` is the value added first. -/
theorem C12_first_value (h : List (QString × QString)) (name : QString) :
    VCardLine.parameter { params := paramsAfter h } name = (valuesOf h name).head?.getD [] := by
  unfold VCardLine.parameter
  rw [params_find]
  cases e : valuesOf h name with
  | nil => simp
  | cons v t =>
    have : ∃ r, distinct (v :: t) = v :: r := distinct_cons v t
    obtain ⟨r, hr⟩ := this
    simp [hr]

/-- C12, names: they are listed in strictly ascending order (so each once), and are exactly the names added. -/
theorem C12_names (h : List (QString × QString)) :
    Ascending (VCardLine.parameterList { params := paramsAfter h }) ∧
    ∀ name, name ∈ VCardLine.parameterList { params := paramsAfter h } ↔ ∃ v, (name, v) ∈ h := by
  have hs : Sorted (paramsAfter h) := by
    induction h using rev_induction with
    | h0 => simp [paramsAfter, Sorted]
    | hs h p ih => rw [paramsAfter_snoc]; exact SMap.sorted_upsert ih
  constructor
  · have := SMap.sorted_iff_keys.1 hs
    unfold Ascending VCardLine.parameterList
    exact this.imp (fun h => (qlt_iff_less _ _).1 h)
  · intro name
    show name ∈ (paramsAfter h).map (·.1) ↔ _
    rw [← SMap.find_isSome_iff, params_find]
    by_cases e : valuesOf h name = []
    · simp only [e, if_true]
      constructor
      · simp
      · rintro ⟨v, hv⟩
        have : v ∈ valuesOf h name := by
          simp only [valuesOf, List.mem_map, List.mem_filter]; exact ⟨(name, v), ⟨hv, by simp⟩, rfl⟩
        rw [e] at this; simp at this
    · simp only [e, if_false, Option.isSome_some, true_iff]
      cases hv : valuesOf h name with
      | nil => exact absurd hv e
      | cons v t =>
        have : v ∈ valuesOf h name := by rw [hv]; simp
        simp only [valuesOf, List.mem_map, List.mem_filter] at this
        obtain ⟨⟨n, w⟩, ⟨hm, hn⟩, rfl⟩ := this
        simp at hn; subst hn
        exact ⟨w, hm⟩

/-- C12, order independence: two histories that add the same names list the same names, whatever the order. -/
theorem C12_names_order_independent (h h' : List (QString × QString))
    (hsame : ∀ name, (∃ v, (name, v) ∈ h) ↔ ∃ v, (name, v) ∈ h') :
    VCardLine.parameterList { params := paramsAfter h } = VCardLine.parameterList { params := paramsAfter h' } := by
  have a := C12_names h
  have b := C12_names h'
  apply SMap.sorted_ext
  · exact a.1.imp (fun h => (qlt_iff_less _ _).2 h)
  · exact b.1.imp (fun h => (qlt_iff_less _ _).2 h)
  · intro k; rw [a.2, b.2]; exact hsame k

/-- The card after a history of added lines. -/
def cardAfter (ls : List VCardLine) : VCard := ls.foldl VCard.addLine []

theorem cardAfter_snoc (h : List VCardLine) (l : VCardLine) :
    cardAfter (h ++ [l]) = SMap.upsert (cardAfter h) l.identifier [l] (· ++ [l]) := by
  simp only [cardAfter, List.foldl_append, List.foldl_cons, List.foldl_nil]; exact VCard.addLine_eq _ _

theorem card_find (h : List VCardLine) (name : QString) :
    SMap.find (cardAfter h) name =
      if h.filter (fun l => l.identifier = name) = [] then none else some (h.filter fun l => l.identifier = name) := by
  induction h using rev_induction with
  | h0 => simp [cardAfter, SMap.find]
  | hs h l ih =>
    rw [cardAfter_snoc, SMap.find_upsert]
    by_cases e : l.identifier = name
    · subst e
      rw [if_pos rfl, ih]
      by_cases e0 : h.filter (fun x => x.identifier = l.identifier) = []
      · simp [e0]
      · simp [e0]
    · rw [if_neg e, ih]; simp [e]

/-- C13, lines: asking for a name returns exactly the lines added under that name in the order they were added. -/
theorem C13_lines (h : List VCardLine) (name : QString) :
    VCard.lines (cardAfter h) name = h.filter (fun l => l.identifier = name) := by
  unfold VCard.lines
  rw [card_find]
  by_cases e : h.filter (fun l => l.identifier = name) = []
  · simp [e]
  · simp [e]

/-- C13, first line. -/
theorem C13_first_line (h : List VCardLine) (name : QString) :
    VCard.line (cardAfter h) name = ((h.filter (fun l => l.identifier = name)).head?).getD {} := by
  unfold VCard.line
  rw [card_find]
  cases e : h.filter (fun l => decide (l.identifier = name)) with
  | nil => simp
  | cons a t => simp

/-- C13, names: listed once each in ascending order, exactly the names of the added lines. -/
theorem C13_names (h : List VCardLine) :
    Ascending (VCard.identifiers (cardAfter h)) ∧
    ∀ name, name ∈ VCard.identifiers (cardAfter h) ↔ ∃ l ∈ h, l.identifier = name := by
  have hs : Sorted (cardAfter h) := by
    induction h using rev_induction with
    | h0 => simp [cardAfter, Sorted]
    | hs h p ih => rw [cardAfter_snoc]; exact SMap.sorted_upsert ih
  constructor
  · exact (SMap.sorted_iff_keys.1 hs).imp (fun h => (qlt_iff_less _ _).1 h)
  · intro name
    show name ∈ (cardAfter h).map (·.1) ↔ _
    rw [← SMap.find_isSome_iff, card_find]
    by_cases e : h.filter (fun l => l.identifier = name) = []
    · simp only [e, if_true]
      simp only [List.filter_eq_nil_iff, decide_eq_true_eq] at e
      simp only [Option.isSome_none, Bool.false_eq_true, false_iff, not_exists, not_and]
      exact e
    · simp only [e, if_false, Option.isSome_some, true_iff]
      simp only [List.filter_eq_nil_iff, decide_eq_true_eq] at e
      apply Classical.byContradiction
      intro hn
      exact e fun a ha hi => hn ⟨a, ha, hi⟩

-- non-vacuity
example : VCardLine.parameters { params := paramsAfter [(q! "type", q! "home"), (q! "charset", q! "x"),
    (q! "type", q! "work"), (q! "type", q! "home")] } (q! "type") = [q! "home", q! "work"] := by decide
example : VCardLine.parameterList { params := paramsAfter [(q! "type", q! "home"), (q! "charset", q! "x"),
    (q! "type", q! "work")] } = [q! "charset", q! "type"] := by decide
example : VCard.identifiers (cardAfter [{ identifier := q! "TEL" }, { identifier := q! "N" }, { identifier := q! "TEL" }])
    = [q! "N", q! "TEL"] := by decide

end KC
