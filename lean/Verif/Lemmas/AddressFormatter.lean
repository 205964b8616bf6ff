import Verif.Lemmas.AddressFormat
import Verif.Lemmas.LineForm
namespace KC
open Spec

theorem included_eq (A : FormatArgs) (f : AField) : A.included f = printsField A.style f := by
  rw [FormatArgs.included]
  cases A.style <;> cases f <;> rfl

theorem isEmpty_eq_decide (s : QString) : s.isEmpty = decide (s = []) := by cases s <;> rfl

theorem isFieldEmpty_eq (A : FormatArgs) (f : AField) : A.isFieldEmpty f = !present A f := by
  rw [FormatArgs.isFieldEmpty.eq_def, present, included_eq]
  cases printsField A.style f
  · simp
  · cases f <;> simp [filled, isEmpty_eq_decide]

theorem countryName_eq (A : FormatArgs) : A.countryName = countryText A := by
  rw [FormatArgs.countryName, countryText]
  simp [isEmpty_eq_decide]

theorem countryFirst_eq (f : AddressFormat) : countryFirst f = f.isReverseOrder := by
  rw [countryFirst, AddressFormat.isReverseOrder.eq_def]
  cases f.elements with
  | nil => rfl
  | cons a l =>
    cases a with
    | field g => cases g <;> rfl
    | _ => rfl

theorem honorUpper_eq (style : AStyle) : style.data.honorUpper = printsUpper style := by cases style <;> rfl

theorem newline_eq (style : AStyle) : decide (style.data.separator = .newline) = multiLine style := by cases style <;> rfl

theorem fieldValue_eq (A : FormatArgs) (f : AField) : A.fieldValue f = value A f := by
  have h : A.fieldValue f = if A.style.data.honorUpper && hasField A.format.upper f then A.E.upper (content A f) else content A f := by
    cases f <;> simp [FormatArgs.fieldValue, content, isEmpty_eq_decide, countryName_eq]
  rw [h, value, honorUpper_eq]

/-- What stands before a line: nothing, or a separator. -/
def AtLineStart (older : List FormatElem) : Prop := older = [] ∨ ∃ r, older = .sep :: r

theorem hasContent_eq (A : FormatArgs) (e : FormatElem) : A.hasContent e = printed A e := by
  cases e <;> simp [FormatArgs.hasContent, isFieldEmpty_eq, printed]

theorem walkBack_append (A : FormatArgs) {pre older : List FormatElem} (hp : FormatElem.sep ∉ pre) (ho : AtLineStart older) :
    A.walkBack (pre ++ older) = pre.any A.hasContent := by
  induction pre with
  | nil => rcases ho with h | ⟨r, h⟩ <;> subst h <;> rfl
  | cons e r ih =>
    simp only [List.mem_cons, not_or] at hp
    cases e with
    | sep => exact absurd rfl hp.1
    | field f => simp [FormatArgs.walkBack, ih hp.2]
    | lit l => simp [FormatArgs.walkBack, ih hp.2]

theorem extendedLines_cons (A : FormatArgs) (e : FormatElem) (r : List FormatElem) :
    extendedLines A (e :: r) = extendedLines A [e] ++ extendedLines A r := by
  unfold extendedLines
  split
  · by_cases h : e = .field .streetAddress <;> simp [h, List.filter_cons]
  · simp

theorem extendedLines_nil (A : FormatArgs) : extendedLines A [] = [] := by unfold extendedLines; split <;> rfl

theorem extendedLines_lit (A : FormatArgs) (l : QString) : extendedLines A [.lit l] = [] := by unfold extendedLines; split <;> simp

theorem extendedLines_field (A : FormatArgs) (f : AField) :
    extendedLines A [.field f] = if (f = .streetAddress && twoStreetLines A && printsField A.style f) then [A.a.extended] else [] := by
  unfold extendedLines
  by_cases hf : f = .streetAddress
  · subst hf; simp
  · simp [hf]

/-- The state after the elements of a line. -/
def afterSegment (A : FormatArgs) (pre seg : List FormatElem) (s : FormatState) : FormatState :=
  { lines := s.lines ++ (if A.format.isReverseOrder then [] else extendedLines A seg)
    line := s.line ++ lineText A pre seg
    secondaryLine := if A.format.isReverseOrder && !(extendedLines A seg).isEmpty then A.a.extended else s.secondaryLine }

theorem step_eq (A : FormatArgs) {pre older : List FormatElem} (hp : FormatElem.sep ∉ pre) (ho : AtLineStart older) (e : FormatElem) (he : e ≠ .sep)
    (r rest : List FormatElem) (hr : AtLineStart rest) (s : FormatState) :
    A.step (pre.reverse ++ older) e (r ++ rest) s = { lines := s.lines ++ (if A.format.isReverseOrder then [] else extendedLines A [e])
                                                      line := s.line ++ piece A pre e r
                                                      secondaryLine := if A.format.isReverseOrder && !(extendedLines A [e]).isEmpty then A.a.extended
                                                        else s.secondaryLine } := by
  cases e with
  | sep => exact absurd rfl he
  | lit l =>
    have h1 : ((pre.reverse ++ older).isEmpty || afterSeparator (pre.reverse ++ older)
        || A.walkBack (.lit l :: (pre.reverse ++ older)))
        = (decide (pre = []) || pre.any (printed A)) := by
      have hw : A.walkBack (.lit l :: (pre.reverse ++ older)) = pre.any A.hasContent := by
        have := walkBack_append A (pre := .lit l :: pre.reverse) (older := older) (by simpa using hp) ho
        rw [List.cons_append] at this
        rw [this, List.any_cons, List.any_reverse]
        rfl
      have hc : A.hasContent = printed A := funext (hasContent_eq A)
      rw [hw]
      rw [hc]
      cases hpre : pre.reverse with
      | nil =>
        have : pre = [] := by simpa using hpre
        subst this
        rcases ho with h | ⟨r, h⟩ <;> subst h <;> rfl
      | cons x xs =>
        have hne : pre ≠ [] := by intro h; simp [h] at hpre
        have hx : x ∈ pre := by rw [← List.mem_reverse, hpre]; simp
        cases x with
        | sep => exact absurd hx hp
        | field f => simp [hne, afterSeparator]
        | lit l' => simp [hne, afterSeparator]
    have h2 : A.nextEmpty (r ++ rest) = unprintedNext A r := by
      cases r with
      | nil => rcases hr with h | ⟨r', h⟩ <;> subst h <;> rfl
      | cons x xs => cases x <;> simp [isFieldEmpty_eq, FormatArgs.nextEmpty, unprintedNext]
    simp only [FormatArgs.step]
    rw [h1, h2]
    simp only [extendedLines_lit, piece]
    generalize ((decide (pre = []) || pre.any (printed A))
      && !unprintedNext A r) = b
    cases b <;> simp
  | field f =>
    simp only [FormatArgs.step, extendedLines_field, piece]
    rw [included_eq, fieldValue_eq]
    have hextra : (decide (f = .streetAddress) && !A.a.street.isEmpty && !A.a.extended.isEmpty && A.style != .geoUriQuery)
        = (decide (f = .streetAddress) && twoStreetLines A) := by
      simp only [twoStreetLines, isEmpty_eq_decide, bne]
      by_cases hg : A.style = .geoUriQuery <;> by_cases hs : A.a.street = [] <;> by_cases hx : A.a.extended = [] <;> simp [hg, hs, hx]
    rw [hextra]
    cases hpf : printsField A.style f
    · simp
    · cases hf : (decide (f = .streetAddress) && twoStreetLines A)
      · simp
      · cases hrev : A.format.isReverseOrder <;> simp

theorem loop_segment (A : FormatArgs) {pre older : List FormatElem} (hp : FormatElem.sep ∉ pre) (ho : AtLineStart older) (seg : List FormatElem)
    (hs : FormatElem.sep ∉ seg) (rest : List FormatElem) (hr : AtLineStart rest) (s : FormatState) :
    A.loop (pre.reverse ++ older) (seg ++ rest) s = A.loop ((pre ++ seg).reverse ++ older) rest (afterSegment A pre seg s) := by
  induction seg generalizing pre s with
  | nil => simp [afterSegment, lineText, extendedLines_nil]
  | cons e r ih =>
    simp only [List.mem_cons, not_or] at hs
    have he : e ≠ .sep := fun h => hs.1 h.symm
    rw [List.cons_append, FormatArgs.loop, step_eq A hp ho e he r rest hr]
    have := ih (pre := pre ++ [e]) (by simp [hp, hs.1]) hs.2
      { lines := s.lines ++ (if A.format.isReverseOrder then [] else extendedLines A [e])
        line := s.line ++ piece A pre e r
        secondaryLine := if A.format.isReverseOrder && !(extendedLines A [e]).isEmpty then A.a.extended else s.secondaryLine }
    rw [List.reverse_append, List.reverse_singleton, List.cons_append, List.nil_append, List.cons_append] at this
    rw [this]
    have hl : pre ++ [e] ++ r = pre ++ e :: r := by simp
    rw [hl]
    congr 1
    simp only [afterSegment, lineText]
    rw [extendedLines_cons A e r]
    cases A.format.isReverseOrder
    · simp
    · cases h1 : extendedLines A [e] <;> cases h2 : extendedLines A r <;> simp

/-- The end of the loop, addressformatter.cpp:176-181. -/
def finishLines (s : FormatState) : List QString :=
  let lines := if s.line.isEmpty then s.lines else s.lines ++ [s.line]
  if s.secondaryLine.isEmpty then lines else lines ++ [s.secondaryLine]

theorem bodyLines_eq (A : FormatArgs) : A.bodyLines = finishLines (A.loop [] A.format.elements {}) := rfl

theorem extendedLines_mem {A : FormatArgs} {seg : List FormatElem} (h : extendedLines A seg ≠ []) :
    FormatElem.field .streetAddress ∈ seg ∧ twoStreetLines A = true ∧ printsField A.style .streetAddress = true := by
  unfold extendedLines at h
  split at h
  · rename_i hc
    simp only [Bool.and_eq_true] at hc
    refine ⟨?_, hc⟩
    by_contra hn
    apply h
    rw [List.filter_eq_nil_iff.2, List.map_nil]
    intro a ha
    simp only [decide_eq_true_eq]
    intro h'
    exact hn (h' ▸ ha)
  · exact absurd rfl h

theorem piece_field_infix (A : FormatArgs) (pre seg : List FormatElem) {f : AField} (hm : FormatElem.field f ∈ seg) (hf : printsField A.style f = true) :
    value A f <:+: lineText A pre seg := by
  induction seg generalizing pre with
  | nil => simp at hm
  | cons e r ih =>
    rw [lineText]
    rcases List.mem_cons.1 hm with h | h
    · subst h
      have : piece A pre (.field f) r = value A f := by simp [piece, hf]
      rw [this]
      exact (List.prefix_append _ _).isInfix
    · exact (ih (pre ++ [e]) h).trans (List.suffix_append _ _).isInfix


theorem value_ne {A : FormatArgs} (hu : UpperKeeps A) {f : AField} (h : content A f ≠ []) : value A f ≠ [] := by
  unfold value
  split
  · exact fun h' => h ((hu _).1 h')
  · exact h

theorem lineText_ne {A : FormatArgs} (hu : UpperKeeps A) {seg : List FormatElem} (h : extendedLines A seg ≠ []) : lineText A [] seg ≠ [] := by
  obtain ⟨hm, ht, hf⟩ := extendedLines_mem h
  have hv : value A .streetAddress ≠ [] := by
    apply value_ne hu
    simp only [twoStreetLines, Bool.and_eq_true, decide_eq_true_eq] at ht
    simp [content, ht.1.1]
  intro hn
  have := piece_field_infix A [] seg hm hf
  rw [hn] at this
  exact hv (List.eq_nil_of_infix_nil this)

theorem extended_ne {A : FormatArgs} {seg : List FormatElem} (h : extendedLines A seg ≠ []) : A.a.extended ≠ [] := by
  have ht := (extendedLines_mem h).2.1
  simp only [twoStreetLines, Bool.and_eq_true, decide_eq_true_eq] at ht
  exact ht.1.2

theorem extendedLines_take (A : FormatArgs) (seg : List FormatElem) :
    (extendedLines A seg).take 1 = if (extendedLines A seg).isEmpty then [] else [A.a.extended] := by
  unfold extendedLines
  split
  · cases seg.filter (· = .field .streetAddress) <;> simp
  · simp

/-- At the end of a line of the format that is not the last. -/
theorem sep_step (A : FormatArgs) (hu : UpperKeeps A) {older : List FormatElem} (ho : AtLineStart older) (seg : List FormatElem)
    (hs : FormatElem.sep ∉ seg) (rest : List FormatElem) (L : List QString) :
    A.step (seg.reverse ++ older) .sep rest (afterSegment A [] seg ⟨L, [], []⟩)
      = ⟨L ++ segmentLines A (!older.isEmpty && seg = [] && multiLine A.style) seg, [], []⟩ := by
  have hprec : afterSeparator (seg.reverse ++ older) = (!older.isEmpty && decide (seg = [])) := by
    cases hpre : seg.reverse with
    | nil =>
      have : seg = [] := by simpa using hpre
      subst this
      rcases ho with h | ⟨r, h⟩ <;> subst h <;> rfl
    | cons x xs =>
      have hne : seg ≠ [] := by intro h; simp [h] at hpre
      have hx : x ∈ seg := by rw [← List.mem_reverse, hpre]; simp
      cases x with
      | sep => exact absurd hx hs
      | field f => simp [hne, afterSeparator]
      | lit l' => simp [hne, afterSeparator]
  have hnl : decide (A.style.data.separator = .newline) = multiLine A.style := newline_eq A.style
  simp only [FormatArgs.step, hprec, hnl, decide_true, Bool.true_and]
  simp only [afterSegment, List.nil_append, segmentLines, countryFirst_eq, isEmpty_eq_decide, extendedLines_take]
  cases hx : extendedLines A seg with
  | nil =>
    by_cases ht : lineText A [] seg = []
    · cases hb : (!older.isEmpty && decide (seg = []) && multiLine A.style) <;> simp [ht, hb]
    · simp [ht]
  | cons x xs =>
    have hne : extendedLines A seg ≠ [] := by simp [hx]
    have ht := lineText_ne hu hne
    have he := extended_ne hne
    cases hr : A.format.isReverseOrder <;> simp [ht, he]

theorem sep_step_older {older : List FormatElem} : AtLineStart (FormatElem.sep :: older) := .inr ⟨_, rfl⟩

theorem finish_segment (A : FormatArgs) (hu : UpperKeeps A) (seg : List FormatElem) (L : List QString) :
    finishLines (afterSegment A [] seg ⟨L, [], []⟩) = L ++ segmentLines A false seg := by
  simp only [finishLines, afterSegment, List.nil_append, segmentLines, countryFirst_eq, isEmpty_eq_decide, extendedLines_take]
  cases hx : extendedLines A seg with
  | nil => by_cases ht : lineText A [] seg = [] <;> simp [ht]
  | cons x xs =>
    have hne : extendedLines A seg ≠ [] := by simp [hx]
    have ht := lineText_ne hu hne
    have he := extended_ne hne
    cases hr : A.format.isReverseOrder <;> simp [ht, he]

theorem loop_segments (A : FormatArgs) (hu : UpperKeeps A) (segs : List (List FormatElem)) (hs : ∀ seg ∈ segs, FormatElem.sep ∉ seg)
    {older : List FormatElem} (ho : AtLineStart older) (L : List QString) :
    finishLines (A.loop older (join [.sep] segs) ⟨L, [], []⟩) = L ++ linesFrom A older.isEmpty segs := by
  induction segs generalizing older L with
  | nil => simp [join, FormatArgs.loop, finishLines, linesFrom]
  | cons seg r ih =>
    have h1 := hs seg (by simp)
    cases r with
    | nil =>
      have := loop_segment A (pre := []) (by simp) ho seg h1 [] (.inl rfl) ⟨L, [], []⟩
      simp only [List.reverse_nil, List.nil_append, List.append_nil] at this
      rw [join, this, FormatArgs.loop, finish_segment A hu, linesFrom]
    | cons seg' r =>
      have := loop_segment A (pre := []) (by simp) ho seg h1 (.sep :: join [.sep] (seg' :: r)) (.inr ⟨_, rfl⟩) ⟨L, [], []⟩
      simp only [List.reverse_nil, List.nil_append] at this
      have hj : join [FormatElem.sep] (seg :: seg' :: r) = seg ++ FormatElem.sep :: join [.sep] (seg' :: r) := by simp [join]
      rw [hj, this, FormatArgs.loop, sep_step A hu ho seg h1]
      rw [ih (fun x hx => hs x (by simp [hx])) sep_step_older]
      simp [linesFrom]

/-- The lines of the body, line by line of the format. -/
theorem bodyLines_spec (A : FormatArgs) (hu : UpperKeeps A) : A.bodyLines = linesFrom A true (splitOn .sep A.format.elements) := by
  have := loop_segments A hu (splitOn .sep A.format.elements) (fun seg h => sep_not_mem_splitOn _ _ _ h) (older := []) (.inl rfl) []
  rw [join_splitOn] at this
  rw [bodyLines_eq, this]
  rfl

/-! ### Consequences -/

theorem segmentLines_ne {A : FormatArgs} {seg : List FormatElem} {l : QString} (h : l ∈ segmentLines A false seg) : l ≠ [] := by
  simp only [segmentLines, countryFirst_eq] at h
  simp only [List.mem_append] at h
  have hx : ∀ l ∈ extendedLines A seg, l ≠ [] := by
    intro l hl
    have he := extended_ne (A := A) (seg := seg) (by intro h'; rw [h'] at hl; cases hl)
    unfold extendedLines at hl
    split at hl
    · obtain ⟨_, _, h⟩ := List.mem_map.1 hl; rw [← h]; exact he
    · cases hl
  rcases h with (h | h) | h
  · split at h
    · cases h
    · exact hx l h
  · split at h
    · rename_i hn; rw [List.mem_singleton.1 h]; exact hn
    · simp at h
  · split at h
    · exact hx l (List.mem_of_mem_take h)
    · cases h

theorem linesFrom_mem_ne {A : FormatArgs} {segs : List (List FormatElem)} {first : Bool} {l : QString}
    (hb : multiLine A.style = false ∨ ∀ a b, segs = a ++ [[]] ++ b → b = [] ∨ (a = [] ∧ first = true)) (h : l ∈ linesFrom A first segs) : l ≠ [] := by
  induction segs generalizing first with
  | nil => cases h
  | cons seg r ih =>
    cases r with
    | nil => exact segmentLines_ne h
    | cons seg' r =>
      rw [linesFrom, List.mem_append] at h
      rcases h with h | h
      · have : (!first && decide (seg = []) && multiLine A.style) = false := by
          rcases hb with hb | hb
          · simp [hb]
          · by_cases hs : seg = []
            · have := hb [] (seg' :: r) (by simp [hs])
              simp at this
              simp [this]
            · simp [hs]
        rw [this] at h
        exact segmentLines_ne h
      · refine ih (first := false) ?_ h
        rcases hb with hb | hb
        · exact .inl hb
        · refine .inr fun a b hab => ?_
          have := hb (seg :: a) b (by simp [hab])
          rcases this with h | ⟨h, -⟩
          · exact .inl h
          · simp at h

/-- A line of the format without elements, not the first and not the last, is between two separators. -/
theorem adjacent_of_empty_segment {es : List FormatElem} {a b : List (List FormatElem)} (h : splitOn .sep es = a ++ [[]] ++ b) (hb : b ≠ []) (ha : a ≠ []) :
    [FormatElem.sep, .sep] <:+: es := by
  have he := join_splitOn FormatElem.sep es
  rw [h] at he
  have hj : ∀ (x y : List (List FormatElem)), x ≠ [] → y ≠ [] → join [FormatElem.sep] (x ++ y) = join [.sep] x ++ .sep :: join [.sep] y := by
    intro x y hx hy
    induction x with
    | nil => exact absurd rfl hx
    | cons u x ih =>
      cases x with
      | nil =>
        cases y with
        | nil => exact absurd rfl hy
        | cons v y => simp [join]
      | cons w x =>
        have := ih (by simp)
        rw [List.cons_append] at this
        simp only [List.cons_append, join]
        rw [this]
        simp
  rw [List.append_assoc, hj a _ ha (by simp), hj [[]] b (by simp) hb] at he
  rw [← he]
  exact ⟨join [.sep] a, join [.sep] b, by simp [join]⟩

theorem infix_join {sep : QString} {ls : List QString} {l : QString} (h : l ∈ ls) : l <:+: join sep ls := by
  induction ls with
  | nil => cases h
  | cons x r ih =>
    cases r with
    | nil => rw [List.mem_singleton.1 h, join]; exact List.infix_rfl
    | cons y r =>
      rw [join]
      rcases List.mem_cons.1 h with h | h
      · subst h; exact ⟨[], sep ++ join sep (y :: r), by simp⟩
      · exact (ih h).trans (List.suffix_append _ _).isInfix

theorem mem_linesFrom_of_seg {A : FormatArgs} {segs : List (List FormatElem)} {first : Bool} {seg : List FormatElem} (hs : seg ∈ segs) {l : QString}
    (h : l ∈ segmentLines A false seg) : l ∈ linesFrom A first segs := by
  have hmono : ∀ b, l ∈ segmentLines A b seg := by
    intro b
    simp only [segmentLines, countryFirst_eq] at h ⊢
    simp only [List.mem_append] at h ⊢
    rcases h with (h | h) | h
    · exact .inl (.inl h)
    · refine .inl (.inr ?_)
      split at h
      · rename_i hn; rw [if_pos hn]; exact h
      · simp at h
    · exact .inr h
  induction segs generalizing first with
  | nil => cases hs
  | cons x r ih =>
    cases r with
    | nil => rw [List.mem_singleton.1 hs] at h; exact h
    | cons y r =>
      rw [linesFrom, List.mem_append]
      rcases List.mem_cons.1 hs with h' | h'
      · subst h'; exact .inl (hmono _)
      · exact .inr (ih h')

theorem mem_seg_of_mem {e : FormatElem} (he : e ≠ .sep) {es : List FormatElem} (h : e ∈ es) : ∃ seg ∈ splitOn .sep es, e ∈ seg := by
  rw [← join_splitOn FormatElem.sep es] at h
  generalize splitOn FormatElem.sep es = segs at h
  induction segs with
  | nil => simp [join] at h
  | cons x r ih =>
    cases r with
    | nil => exact ⟨x, by simp, by simpa [join] using h⟩
    | cons y r =>
      simp only [join, List.mem_append, List.mem_singleton] at h
      rcases h with (h | h) | h
      · exact ⟨x, by simp, h⟩
      · exact absurd h he
      · obtain ⟨seg, h1, h2⟩ := ih h; exact ⟨seg, by simp [h1], h2⟩

theorem body_mem_all (A : FormatArgs) {l : QString} (h : l ∈ A.bodyLines) : l ∈ A.allLines := by
  unfold FormatArgs.allLines
  simp only
  split
  · split
    · have hne : A.bodyLines.isEmpty = false := by cases hb : A.bodyLines <;> simp_all
      rw [hne]
      cases (A.E.formatForCountry A.E.ownCountry false false).isReverseOrder <;> simp [h]
    · simp [h]
  · exact h

theorem value_infix {A : FormatArgs} (hu : UpperKeeps A) {f : AField} (hm : FormatElem.field f ∈ A.format.elements) (hp : printsField A.style f = true) :
    value A f <:+: A.text := by
  by_cases hv : value A f = []
  · rw [hv]; exact List.nil_infix
  · obtain ⟨seg, hs, hf⟩ := mem_seg_of_mem (by simp) hm
    have hi := piece_field_infix A [] seg hf hp
    have hn : lineText A [] seg ≠ [] := by
      intro h; rw [h] at hi; exact hv (List.eq_nil_of_infix_nil hi)
    have hl : lineText A [] seg ∈ segmentLines A false seg := by
      simp only [segmentLines, countryFirst_eq]; simp only [List.mem_append]; exact .inl (.inr (by rw [if_pos hn]; simp))
    have := body_mem_all A (by rw [bodyLines_spec A hu]; exact mem_linesFrom_of_seg hs hl)
    exact hi.trans (infix_join this)

theorem extended_mem {A : FormatArgs} (hu : UpperKeeps A) (hm : FormatElem.field .streetAddress ∈ A.format.elements)
    (hp : printsField A.style .streetAddress = true) (ht : twoStreetLines A = true) : A.a.extended ∈ A.allLines := by
  obtain ⟨seg, hs, hf⟩ := mem_seg_of_mem (by simp) hm
  have hx : A.a.extended ∈ extendedLines A seg := by
    unfold extendedLines
    rw [if_pos (by simp [ht, hp])]
    exact List.mem_map.2 ⟨_, List.mem_filter.2 ⟨hf, by simp⟩, rfl⟩
  have hl : A.a.extended ∈ segmentLines A false seg := by
    simp only [segmentLines, countryFirst_eq]
    simp only [List.mem_append]
    cases hr : A.format.isReverseOrder
    · exact .inl (.inl (by simpa using hx))
    · refine .inr ?_
      rw [extendedLines_take, if_pos rfl]
      have : (extendedLines A seg).isEmpty = false := by cases h : extendedLines A seg <;> simp_all
      simp [this]
  exact body_mem_all A (by rw [bodyLines_spec A hu]; exact mem_linesFrom_of_seg hs hl)

/-- A line whose fields are all absent, with literals only next to fields, shows nothing. -/
theorem absent_value {A : FormatArgs} (hu : UpperKeeps A) {f : AField} (hg : A.style = .geoUriQuery → A.a.street = [] → A.a.extended = [])
    (hp : printsField A.style f = true) (h : present A f = false) : value A f = [] := by
  have hc : content A f = [] := by
    simp only [present, hp, Bool.true_and] at h
    cases f <;> simp_all [filled, content, countryText]
    by_cases hs : A.style = .geoUriQuery
    · exact hg hs
    · exact h.2 |> fun h' => by_contra fun hx => hs (h' hx)
  unfold value
  rw [hc]
  split
  · exact (hu []).2 rfl
  · rfl

theorem lineText_absent {A : FormatArgs} (hu : UpperKeeps A) (hg : A.style = .geoUriQuery → A.a.street = [] → A.a.extended = []) {pre seg : List FormatElem}
    (hpre : pre ≠ []) (h1 : ∀ e ∈ pre, printed A e = false) (h2 : ∀ e ∈ seg, printed A e = false) : lineText A pre seg = [] := by
  induction seg generalizing pre with
  | nil => rfl
  | cons e r ih =>
    rw [lineText, ih (by simp) (by
      intro x hx
      rcases List.mem_append.1 hx with hx | hx
      · exact h1 x hx
      · exact h2 x (by simp [List.mem_singleton.1 hx])) (fun x hx => h2 x (by simp [hx])), List.append_nil]
    cases e with
    | sep => rfl
    | field f =>
      rw [piece]
      split
      · exact absent_value hu hg ‹_› (h2 (.field f) (by simp))
      · rfl
    | lit l =>
      have : pre.any (printed A) = false := by rw [List.any_eq_false]; intro x hx; simp [h1 x hx]
      simp [piece, hpre, this]

theorem segment_absent {A : FormatArgs} (hu : UpperKeeps A) (hg : A.style = .geoUriQuery → A.a.street = [] → A.a.extended = []) {seg : List FormatElem}
    (hf : ∃ f, FormatElem.field f ∈ seg) (ha : ∀ f, FormatElem.field f ∈ seg → present A f = false)
    (hl : ∀ l r, seg = .lit l :: r → ∃ f r', r = .field f :: r') : segmentLines A false seg = [] := by
  have h2 : ∀ e ∈ seg, printed A e = false := by
    intro e he
    cases e with
    | field f => exact ha f he
    | sep => rfl
    | lit l => rfl
  have ht : lineText A [] seg = [] := by
    cases seg with
    | nil => obtain ⟨f, hf⟩ := hf; cases hf
    | cons e r =>
      rw [lineText, lineText_absent hu hg (by simp) (by
        intro x hx
        rw [List.nil_append, List.mem_singleton] at hx
        exact h2 x (by simp [hx])) (fun x hx => h2 x (by simp [hx])), List.append_nil]
      cases e with
      | sep => rfl
      | field f =>
        rw [piece]
        split
        · exact absent_value hu hg ‹_› (h2 (.field f) (by simp))
        · rfl
      | lit l =>
        obtain ⟨f, r', h⟩ := hl l r rfl
        have := ha f (by simp [h])
        simp [piece, h, unprintedNext, this]
  have hx : extendedLines A seg = [] := by
    by_contra hx
    exact lineText_ne hu hx ht
  simp [segmentLines, ht, hx]

/-! ### The country -/

theorem addCountry_iff (A : FormatArgs) : A.addCountry = true ↔
    A.a.country ≠ [] ∧ (A.style = .postal ∨ (A.style ∈ [AStyle.multiLineInternational, .singleLineInternational, .geoUriQuery]
      ∧ FormatElem.field .country ∉ A.format.elements)) := by
  have hb : ∀ m, hasField m .country = true → (A.format.usedFields &&& AField.country.bit &&& m == 0) = !hasField A.format.usedFields .country := by
    intro m hm
    have h1 : AField.country.bit = 1 := rfl
    simp only [hasField, h1] at hm ⊢
    rw [Nat.and_one_is_mod] at hm
    have h2 : A.format.usedFields &&& 1 &&& m = A.format.usedFields &&& 1 := by
      rw [Nat.and_assoc, Nat.and_comm 1 m, Nat.and_one_is_mod]
      have : m % 2 = 1 := by
        have := Nat.mod_two_eq_zero_or_one m
        simp at hm; exact hm
      rw [this]
    rw [h2]
    simp only [bne, Bool.not_not]
  have hz : (A.format.usedFields &&& AField.country.bit &&& allDomesticFields == 0) = true := by
    have h1 : AField.country.bit &&& allDomesticFields = 0 := by decide
    rw [Nat.and_assoc, h1]; simp
  have hu := used_iff A.format .country
  unfold FormatArgs.addCountry
  rw [isEmpty_eq_decide]
  cases hs : A.style <;> simp only [AStyle.data, hz, Bool.false_and, Bool.true_and]
  · simp
  · simp
  · rw [hb _ (by decide)]; simp [and_comm, ← hu]
  · simp
  · rw [hb _ (by decide)]; simp [and_comm, ← hu]
  · rw [hb _ (by decide)]; simp [and_comm, ← hu]

theorem allLines_eq (A : FormatArgs) (h : A.addCountry = false) : A.allLines = A.bodyLines := by
  simp [FormatArgs.allLines, h]

theorem allLines_country (A : FormatArgs) (h : A.addCountry = true) (hs : A.style ≠ .postal) : A.allLines = A.bodyLines ++ [value A .country] := by
  simp only [FormatArgs.allLines, h, if_true, hs, if_false]
  rw [value, content, ← countryName_eq, honorUpper_eq]

/-- Every character of a line comes from a literal, a field or the extended address. -/
theorem lineText_chars {A : FormatArgs} {pre seg : List FormatElem} {c : UInt16} (h : c ∈ lineText A pre seg) :
    (∃ f, c ∈ value A f) ∨ ∃ l, FormatElem.lit l ∈ seg ∧ c ∈ l := by
  induction seg generalizing pre with
  | nil => cases h
  | cons e r ih =>
    rw [lineText, List.mem_append] at h
    rcases h with h | h
    · cases e with
      | sep => cases h
      | field f =>
        rw [piece] at h
        split at h
        · exact .inl ⟨f, h⟩
        · cases h
      | lit l =>
        rw [piece] at h
        split at h
        · exact .inr ⟨l, by simp, h⟩
        · cases h
    · rcases ih h with h | ⟨l, h1, h2⟩
      · exact .inl h
      · exact .inr ⟨l, by simp [h1], h2⟩

theorem segmentLines_chars {A : FormatArgs} {b : Bool} {seg : List FormatElem} {l : QString} (hl : l ∈ segmentLines A b seg) {c : UInt16} (h : c ∈ l) :
    (∃ f, c ∈ value A f) ∨ (∃ l, FormatElem.lit l ∈ seg ∧ c ∈ l) ∨ c ∈ A.a.extended := by
  have hx : ∀ l ∈ extendedLines A seg, l = A.a.extended := by
    intro l hl
    unfold extendedLines at hl
    split at hl
    · obtain ⟨_, _, h⟩ := List.mem_map.1 hl; exact h.symm
    · cases hl
  simp only [segmentLines, countryFirst_eq] at hl
  simp only [List.mem_append] at hl
  rcases hl with (hl | hl) | hl
  · split at hl
    · cases hl
    · rw [hx l hl] at h; exact .inr (.inr h)
  · split at hl
    · rw [List.mem_singleton.1 hl] at h
      rcases lineText_chars h with h | h
      · exact .inl h
      · exact .inr (.inl h)
    · split at hl
      · rw [List.mem_singleton.1 hl] at h; cases h
      · cases hl
  · split at hl
    · rw [hx l (List.mem_of_mem_take hl)] at h; exact .inr (.inr h)
    · cases hl

theorem linesFrom_seg {A : FormatArgs} {first : Bool} {segs : List (List FormatElem)} {l : QString} (h : l ∈ linesFrom A first segs) :
    ∃ b, ∃ seg ∈ segs, l ∈ segmentLines A b seg := by
  induction segs generalizing first with
  | nil => cases h
  | cons x r ih =>
    cases r with
    | nil => exact ⟨_, x, by simp, h⟩
    | cons y r =>
      rw [linesFrom, List.mem_append] at h
      rcases h with h | h
      · exact ⟨_, x, by simp, h⟩
      · obtain ⟨b, seg, h1, h2⟩ := ih h
        exact ⟨b, seg, by simp [h1], h2⟩

theorem mem_of_mem_seg {e : FormatElem} {es seg : List FormatElem} (hs : seg ∈ splitOn .sep es) (h : e ∈ seg) : e ∈ es := by
  rw [← join_splitOn FormatElem.sep es]
  generalize splitOn FormatElem.sep es = segs at hs
  induction segs with
  | nil => cases hs
  | cons x r ih =>
    cases r with
    | nil => rw [join, ← List.mem_singleton.1 hs]; exact h
    | cons y r =>
      simp only [join, List.mem_append]
      rcases List.mem_cons.1 hs with h' | h'
      · subst h'; exact .inl (.inl h)
      · exact .inr (ih h')

theorem bodyLines_chars {A : FormatArgs} (hu : UpperKeeps A) {l : QString} (hl : l ∈ A.bodyLines) {c : UInt16} (h : c ∈ l) :
    (∃ f, c ∈ value A f) ∨ (∃ l, FormatElem.lit l ∈ A.format.elements ∧ c ∈ l) ∨ c ∈ A.a.extended := by
  rw [bodyLines_spec A hu] at hl
  obtain ⟨b, seg, h1, h2⟩ := linesFrom_seg hl
  rcases segmentLines_chars h2 h with h | ⟨l, h3, h4⟩ | h
  · exact .inl h
  · exact .inr (.inl ⟨l, mem_of_mem_seg h1 h3, h4⟩)
  · exact .inr (.inr h)

theorem bodyLines_ne {A : FormatArgs} (hu : UpperKeeps A) (hs : multiLine A.style = false ∨ ¬ [FormatElem.sep, .sep] <:+: A.format.elements) {l : QString}
    (hl : l ∈ A.bodyLines) : l ≠ [] := by
  rw [bodyLines_spec A hu] at hl
  refine linesFrom_mem_ne ?_ hl
  rcases hs with hs | hs
  · exact .inl hs
  · refine .inr fun a b hab => ?_
    by_cases hb : b = []
    · exact .inl hb
    · by_cases ha : a = []
      · exact .inr ⟨ha, rfl⟩
      · exact absurd (adjacent_of_empty_segment hab hb ha) hs

end KC
