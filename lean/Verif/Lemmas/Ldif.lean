import Verif.Spec.Ldif
import Verif.Lemmas.Utf
import Verif.Lemmas.Reader
import Verif.Props.C10
import Verif.Props.C11
/-
  Lemmas about the LDIF parser: reading character by character, lines and folded lines.
-/
namespace KC
open KC.Spec

/-! ### character by character -/

/-- The item of one step, if there is one. -/
def ldifEmit (r : ParseValue) (s : Ldif) : List LdifEvent := if r = .none then [] else [observe r s]

/-- All items met while reading a text character by character. -/
def ldifFeed (s : Ldif) : QByteArray → List LdifEvent × Ldif
  | [] => ([], s)
  | c :: t => (ldifEmit (s.char c).1 (s.char c).2 ++ (ldifFeed (s.char c).2 t).1, (ldifFeed (s.char c).2 t).2)

theorem ldifFeed_append (s : Ldif) (a b : QByteArray) :
    ldifFeed s (a ++ b) = ((ldifFeed s a).1 ++ (ldifFeed (ldifFeed s a).2 b).1, (ldifFeed (ldifFeed s a).2 b).2) := by
  induction a generalizing s with
  | nil => simp [ldifFeed]
  | cons c t ih => simp only [List.cons_append, ldifFeed, ih, List.append_assoc]

theorem lineOf_ne_more (s : Ldif) : s.lineOf.1 ≠ .moreData := by
  unfold Ldif.lineOf
  cases s.entryType <;> dsimp only
  · unfold Ldif.lineNone
    dsimp only
    repeat' split
    all_goals simp
  · split <;> simp
  · split <;> simp
  · unfold Ldif.lineMod
    dsimp only
    repeat' split
    all_goals simp
  · unfold Ldif.lineModrdn
    dsimp only
    repeat' split
    all_goals simp

theorem processLine_ne_more (s : Ldif) : s.processLine.1 ≠ .moreData := by
  unfold Ldif.processLine
  split
  · simp
  · exact lineOf_ne_more _

theorem char_ne_more (s : Ldif) (c : UInt8) : (s.char c).1 ≠ .moreData := by
  unfold Ldif.char
  split
  · simp
  · split
    · simp
    · dsimp only
      have h := processLine_ne_more { s with isNewLine := false }
      cases s.isNewLine <;> simp only [Bool.false_eq_true, if_false, if_true] <;> split <;> first | exact h | simp

/-! the field `rest` is not used by a step -/

/-- The fields that do not influence what a line means. -/
def Ldif.around (s : Ldif) (r : QByteArray) (n : Nat) (l : ParseValue) : Ldif := { s with rest := r, lineNumber := n, last := l }

theorem lineNone_around (s : Ldif) (r : QByteArray) (n : Nat) (l : ParseValue) :
    (s.around r n l).lineNone = (s.lineNone.1, s.lineNone.2.around r n l) := by
  unfold Ldif.lineNone Ldif.around
  dsimp only
  repeat' split
  all_goals rfl

theorem lineMod_around (s : Ldif) (r : QByteArray) (n : Nat) (l : ParseValue) :
    (s.around r n l).lineMod = (s.lineMod.1, s.lineMod.2.around r n l) := by
  unfold Ldif.lineMod Ldif.around
  dsimp only
  repeat' split
  all_goals rfl

theorem lineModrdn_around (s : Ldif) (r : QByteArray) (n : Nat) (l : ParseValue) :
    (s.around r n l).lineModrdn = (s.lineModrdn.1, s.lineModrdn.2.around r n l) := by
  unfold Ldif.lineModrdn Ldif.around
  dsimp only
  repeat' split
  all_goals rfl

theorem lineOf_around (s : Ldif) (r : QByteArray) (n : Nat) (l : ParseValue) :
    (s.around r n l).lineOf = (s.lineOf.1, s.lineOf.2.around r n l) := by
  have e : (s.around r n l).entryType = s.entryType := rfl
  unfold Ldif.lineOf
  rw [e]
  cases s.entryType
  · exact lineNone_around s r n l
  · rfl
  · rfl
  · exact lineMod_around s r n l
  · exact lineModrdn_around s r n l

theorem processLine_around (s : Ldif) (r : QByteArray) (n : Nat) (l : ParseValue) (h : l = .endEntry ↔ s.last = .endEntry) :
    (s.around r n l).processLine = (s.processLine.1, s.processLine.2.around r n l) := by
  have e1 : (s.around r n l).isComment = s.isComment := rfl
  have e2 : (s.around r n l).last = l := rfl
  have e3 : (s.around r n l).line = s.line := rfl
  unfold Ldif.processLine
  rw [e1]
  by_cases hc : s.isComment = true
  · rw [if_pos hc, if_pos hc]
  · rw [if_neg hc, if_neg hc]
    have e4 : (if (s.around r n l).last = .endEntry then EntryType.none else (s.around r n l).entryType)
        = if s.last = .endEntry then .none else s.entryType := by
      simp only [e2, h]; rfl
    rw [e4, e3]
    exact lineOf_around { s with entryType := if s.last = .endEntry then .none else s.entryType,
                                 attr := (splitLine s.line).1, value := (splitLine s.line).2.1, url := (splitLine s.line).2.2 } r n l

theorem lineOf_lineNumber (s : Ldif) : s.lineOf.2.lineNumber = s.lineNumber := by
  have := lineOf_around s s.rest s.lineNumber s.last
  have e : s.around s.rest s.lineNumber s.last = s := rfl
  rw [e] at this
  have := congrArg (fun p => p.2.lineNumber) this
  exact this

theorem processLine_lineNumber (s : Ldif) : s.processLine.2.lineNumber = s.lineNumber := by
  have := processLine_around s s.rest s.lineNumber s.last Iff.rfl
  have e : s.around s.rest s.lineNumber s.last = s := rfl
  rw [e] at this
  have := congrArg (fun p => p.2.lineNumber) this
  exact this

/-- A step does not depend on the text left, on the line number, nor (but for the end of an entry) on the last item. -/
theorem char_around (s : Ldif) (c : UInt8) (r : QByteArray) (n : Nat) (l : ParseValue) (h : l = .endEntry ↔ s.last = .endEntry) :
    ∃ n' l', (l' = .endEntry ↔ (s.char c).2.last = .endEntry) ∧ (n = s.lineNumber → n' = (s.char c).2.lineNumber) ∧
      (l = s.last → l' = (s.char c).2.last) ∧
      (s.around r n l).char c = ((s.char c).1, (s.char c).2.around r n' l') := by
  have e1 : (s.around r n l).isNewLine = s.isNewLine := rfl
  unfold Ldif.char
  rw [e1]
  split
  · exact ⟨n, l, h, id, id, rfl⟩
  · split
    · exact ⟨n, l, h, id, id, rfl⟩
    · cases hn : s.isNewLine
      · simp only [Bool.false_eq_true, if_false]
        split
        · exact ⟨n + 1, l, h, fun e => by rw [e], id, rfl⟩
        · have e4 : (s.around r n l).isComment = s.isComment := rfl
          simp only [e4]
          split
          · exact ⟨n, l, h, id, id, rfl⟩
          · exact ⟨n, l, h, id, id, rfl⟩
      · simp only [if_true]
        have hp := processLine_around { s with isNewLine := false } r n l h
        have hp' : ({ s.around r n l with isNewLine := false } : Ldif).processLine
          = (({ s with isNewLine := false } : Ldif).processLine.1, ({ s with isNewLine := false } : Ldif).processLine.2.around r n l) := hp
        rw [hp']
        have hl := processLine_lineNumber { s with isNewLine := false }
        dsimp only
        split
        · exact ⟨n + 1, _, Iff.rfl, fun e => by rw [hl, e], fun _ => rfl, rfl⟩
        · split
          · exact ⟨n, _, Iff.rfl, fun e => by rw [hl, e], fun _ => rfl, rfl⟩
          · exact ⟨n, _, Iff.rfl, fun e => by rw [hl, e], fun _ => rfl, rfl⟩

theorem char_rest (s : Ldif) (r : QByteArray) (c : UInt8) :
    ({ s with rest := r } : Ldif).char c = ((s.char c).1, { (s.char c).2 with rest := r }) := by
  obtain ⟨n', l', _, h2, h3, h4⟩ := char_around s c r s.lineNumber s.last Iff.rfl
  rw [h2 rfl, h3 rfl] at h4
  exact h4

theorem observe_rest (k : ParseValue) (s : Ldif) (r : QByteArray) : observe k { s with rest := r } = observe k s := rfl

theorem ldifFeed_rest (s : Ldif) (r t : QByteArray) :
    ldifFeed { s with rest := r } t = ((ldifFeed s t).1, { (ldifFeed s t).2 with rest := r }) := by
  induction t generalizing s with
  | nil => rfl
  | cons c t ih =>
    simp only [ldifFeed, char_rest, ih]
    rfl

/-- `nextItem` called until more data is needed is reading character by character. -/
theorem items_scan (t : QByteArray) (s : Ldif) (es : List LdifEvent) (s' : Ldif) :
    Items { s with rest := t } es s' ↔ es = (ldifFeed s t).1 ∧ s' = { (ldifFeed s t).2 with rest := [] } := by
  induction t generalizing s es s' with
  | nil =>
    have hn : Ldif.nextItem { s with rest := [] } = (.moreData, { s with rest := [] }) := rfl
    constructor
    · intro h
      cases h with
      | done h => rw [hn] at h; cases h; exact ⟨rfl, rfl⟩
      | item h hr => rw [hn] at h; cases h; exact absurd rfl hr
    · rintro ⟨rfl, rfl⟩
      exact .done hn
  | cons c t ih =>
    have hm := char_ne_more s c
    have hc := char_rest s (c :: t) c
    by_cases h0 : (s.char c).1 = .none
    · have key : Ldif.nextItem { s with rest := c :: t } = Ldif.nextItem { (s.char c).2 with rest := t } := by
        have e : ({ s with rest := c :: t } : Ldif).char c = (.none, { (s.char c).2 with rest := c :: t }) := by rw [hc, h0]
        have sc : ∀ (u : Ldif) (l r₁ r₂ : QByteArray), ({ u with rest := r₁ } : Ldif).scan l = ({ u with rest := r₂ } : Ldif).scan l := by
          intro u l
          induction l generalizing u with
          | nil => intros; rfl
          | cons d l ihl =>
            intro r₁ r₂
            have e1 := char_rest u r₁ d
            have e2 := char_rest u r₂ d
            simp only [Ldif.scan, e1, e2]
            cases (u.char d).1 <;> simp only
            exact ihl _ _ _
        show Ldif.scan _ (c :: t) = Ldif.scan _ t
        rw [Ldif.scan, e]
        exact sc _ _ _ _
      have step : ∀ es, Items { s with rest := c :: t } es s' ↔ Items { (s.char c).2 with rest := t } es s' := by
        intro es
        constructor
        · intro h
          cases h with
          | done h => exact .done (key ▸ h)
          | item h hr hi => exact .item (key ▸ h) hr hi
        · intro h
          cases h with
          | done h => exact .done (key.symm ▸ h)
          | item h hr hi => exact .item (key.symm ▸ h) hr hi
      rw [step, ih]
      simp [ldifFeed, ldifEmit, h0]
    · have key : Ldif.nextItem { s with rest := c :: t } = ((s.char c).1, { (s.char c).2 with rest := t }) := by
        show Ldif.scan _ (c :: t) = _
        rw [Ldif.scan, hc]
        revert h0
        cases (s.char c).1 <;> simp
      constructor
      · intro h
        cases h with
        | done h => rw [key] at h; exact absurd (congrArg Prod.fst h) hm
        | item h hr hi =>
          rw [key] at h
          have h1 := congrArg Prod.fst h
          have h2 := congrArg Prod.snd h
          dsimp only at h1 h2
          subst h1 h2
          have := (ih _ _ _).1 hi
          rw [this.1, this.2]
          simp [ldifFeed, ldifEmit, h0, observe_rest]
      · rintro ⟨rfl, rfl⟩
        have hi := (ih (s.char c).2 (ldifFeed (s.char c).2 t).1 { (ldifFeed (s.char c).2 t).2 with rest := [] }).2 ⟨rfl, rfl⟩
        have := Items.item key hm hi
        simpa [ldifFeed, ldifEmit, h0, observe_rest] using this

theorem items_feed (s : Ldif) (t : QByteArray) (es : List LdifEvent) (s' : Ldif) :
    Items (s.setLdif t) es s' ↔ es = (ldifFeed s t).1 ∧ s' = { (ldifFeed s t).2 with rest := [] } := items_scan t s es s'

theorem document_feed (t : QByteArray) (es : List LdifEvent) : DocumentItems t es ↔ es = (ldifFeed {} (t ++ [10, 10, 10])).1 := by
  unfold DocumentItems
  constructor
  · rintro ⟨es₁, s₁, es₂, s₂, h1, h2, rfl⟩
    obtain ⟨rfl, rfl⟩ := (items_feed _ _ _ _).1 h1
    obtain ⟨rfl, rfl⟩ := (items_scan _ _ _ _).1 h2
    rw [ldifFeed_append]
    have e := congrArg Prod.fst (ldifFeed_rest (ldifFeed {} t).2 [] [10, 10, 10])
    first | exact congrArg _ e | exact (congrArg _ e).symm
  · rintro rfl
    refine ⟨_, _, _, _, (items_feed _ _ _ _).2 ⟨rfl, rfl⟩, (items_scan [10, 10, 10] _ _ _).2 ⟨rfl, rfl⟩, ?_⟩
    rw [ldifFeed_append]
    have e := congrArg Prod.fst (ldifFeed_rest (ldifFeed {} t).2 [] [10, 10, 10])
    first | exact congrArg _ e | exact (congrArg _ e).symm

/-! ### equal up to the position in the text -/

/-- The states agree up to the text left, the line number and, but for the end of an entry, the last item. -/
def Alike (s s' : Ldif) : Prop := ∃ r n l, (l = .endEntry ↔ s.last = .endEntry) ∧ s' = s.around r n l

theorem Alike.refl (s : Ldif) : Alike s s := ⟨s.rest, s.lineNumber, s.last, Iff.rfl, rfl⟩

theorem Alike.symm {s s' : Ldif} (h : Alike s s') : Alike s' s := by
  obtain ⟨r, n, l, hl, rfl⟩ := h
  exact ⟨s.rest, s.lineNumber, s.last, hl.symm, rfl⟩

theorem Alike.trans {s s' s'' : Ldif} (h : Alike s s') (h' : Alike s' s'') : Alike s s'' := by
  obtain ⟨r, n, l, hl, rfl⟩ := h
  obtain ⟨r', n', l', hl', rfl⟩ := h'
  exact ⟨r', n', l', hl'.trans hl, rfl⟩

theorem ldifEmit_alike (r : ParseValue) {s s' : Ldif} (h : Alike s s') :
    (ldifEmit r s').map LdifEvent.noLine = (ldifEmit r s).map LdifEvent.noLine := by
  obtain ⟨_, n, l, _, rfl⟩ := h
  unfold ldifEmit
  split <;> rfl

theorem ldifFeed_alike {s s' : Ldif} (h : Alike s s') (t : QByteArray) :
    (ldifFeed s' t).1.map LdifEvent.noLine = (ldifFeed s t).1.map LdifEvent.noLine ∧ Alike (ldifFeed s t).2 (ldifFeed s' t).2 := by
  induction t generalizing s s' with
  | nil => exact ⟨rfl, h⟩
  | cons c t ih =>
    obtain ⟨r, n, l, hl, rfl⟩ := h
    obtain ⟨n', l', h1, _, _, h4⟩ := char_around s c r n l hl
    have ha : Alike (s.char c).2 ((s.char c).2.around r n' l') := ⟨r, n', l', h1, rfl⟩
    have hi := ih ha
    simp only [ldifFeed, h4, List.map_append]
    exact ⟨by rw [hi.1, ldifEmit_alike _ ha], hi.2⟩

/-! ### folded lines -/

/-- `Folded t u`: the text `t` is the line `u` with line folds (newline and white space) put into it. -/
inductive Folded : QByteArray → QByteArray → Prop
  | nil : Folded [] []
  | char {c : UInt8} {t u : QByteArray} : c ≠ 10 → c ≠ 13 → Folded t u → Folded (c :: t) (c :: u)
  | fold {w : UInt8} {t u : QByteArray} : w = 32 ∨ w = 9 → Folded t u → Folded (10 :: w :: t) u

theorem Folded.append {a b c d : QByteArray} (h : Folded a b) (h' : Folded c d) : Folded (a ++ c) (b ++ d) := by
  induction h with
  | nil => exact h'
  | char h1 h2 _ ih => exact .char h1 h2 ih
  | fold hw _ ih => exact .fold hw ih

theorem Folded.plain (u : QByteArray) (h1 : 10 ∉ u) (h2 : 13 ∉ u) : Folded u u := by
  induction u with
  | nil => exact .nil
  | cons c u ih =>
    simp only [List.mem_cons, not_or] at h1 h2
    exact .char (fun e => h1.1 e.symm) (fun e => h2.1 e.symm) (ih h1.2 h2.2)

/-- Reading on within a line. -/
theorem ldifFeed_in_line {t u : QByteArray} (h : Folded t u) (s : Ldif) (h1 : s.isNewLine = false) (h2 : s.isComment = false) :
    ∃ k, ldifFeed s t = ([], { s with line := s.line ++ u, lineNumber := s.lineNumber + k }) := by
  induction h generalizing s with
  | nil => exact ⟨0, by simp [ldifFeed]⟩
  | @char c t u hc1 hc2 _ ih =>
    have e : s.char c = (.none, { s with line := s.line ++ [c] }) := by
      simp [Ldif.char, h1, h2, hc1, hc2]
    obtain ⟨k, hk⟩ := ih { s with line := s.line ++ [c] } h1 h2
    refine ⟨k, ?_⟩
    simp only [ldifFeed, e, hk, ldifEmit, if_true, List.nil_append]
    simp
  | @fold w t u hw _ ih =>
    have e : s.char 10 = (.none, { s with lineNumber := s.lineNumber + 1, isNewLine := true }) := by
      simp [Ldif.char, h1]
    have e' : ({ s with lineNumber := s.lineNumber + 1, isNewLine := true } : Ldif).char w = (.none, { s with lineNumber := s.lineNumber + 1 }) := by
      rcases hw with rfl | rfl <;> simp [Ldif.char, h1]
    obtain ⟨k, hk⟩ := ih { s with lineNumber := s.lineNumber + 1 } h1 h2
    refine ⟨1 + k, ?_⟩
    simp only [ldifFeed, e, e', hk, ldifEmit, if_true, List.nil_append]
    simp [Nat.add_assoc]

/-- Processing of a line that is complete. -/
def Ldif.next (s : Ldif) : ParseValue × Ldif :=
  let p := ({ s with isNewLine := false } : Ldif).processLine
  (p.1, { p.2 with last := p.1, line := [], isComment := false })

theorem lineOf_flags (s : Ldif) : s.lineOf.2.isNewLine = s.isNewLine ∧ s.lineOf.2.isComment = s.isComment ∧ s.lineOf.2.last = s.last := by
  unfold Ldif.lineOf
  cases s.entryType <;> dsimp only
  · unfold Ldif.lineNone
    dsimp only
    repeat' split
    all_goals exact ⟨rfl, rfl, rfl⟩
  · exact ⟨rfl, rfl, rfl⟩
  · exact ⟨rfl, rfl, rfl⟩
  · unfold Ldif.lineMod
    dsimp only
    repeat' split
    all_goals exact ⟨rfl, rfl, rfl⟩
  · unfold Ldif.lineModrdn
    dsimp only
    repeat' split
    all_goals exact ⟨rfl, rfl, rfl⟩

theorem processLine_newLine (s : Ldif) : s.processLine.2.isNewLine = s.isNewLine := by
  unfold Ldif.processLine
  split
  · rfl
  · exact (lineOf_flags _).1

theorem next_newLine (s : Ldif) : s.next.2.isNewLine = false := processLine_newLine _

/-- An ordinary first character of a line: not white space, not `#`. -/
def LineStart (c : UInt8) : Prop := c ≠ 10 ∧ c ≠ 13 ∧ c ≠ 32 ∧ c ≠ 9 ∧ c ≠ c! '#'

theorem char_start (s : Ldif) (c : UInt8) (h : s.isNewLine = true) (hc : LineStart c) :
    s.char c = (s.next.1, { s.next.2 with line := [c] }) := by
  obtain ⟨h1, h2, h3, h4, h5⟩ := hc
  simp [Ldif.char, Ldif.next, h, h1, h2, h3, h4, h5]

theorem char_blank (s : Ldif) (h : s.isNewLine = true) :
    s.char 10 = (s.next.1, { s.next.2 with lineNumber := s.next.2.lineNumber + 1, isNewLine := true }) := by
  simp [Ldif.char, Ldif.next, h]

/-- A line as it stands in a text (without its line end): blank, or starting with an ordinary character. -/
def LineText (t u : QByteArray) : Prop := (t = [] ∧ u = []) ∨ ∃ c t' u', t = c :: t' ∧ u = c :: u' ∧ LineStart c ∧ Folded t' u'

/-- Reading a line processes the one before. -/
theorem ldifFeed_line {t u : QByteArray} (h : LineText t u) (s : Ldif) (hs : s.isNewLine = true) :
    (ldifFeed s (t ++ [10])).1.map LdifEvent.noLine = (ldifEmit s.next.1 s.next.2).map LdifEvent.noLine ∧
    Alike { s.next.2 with line := u, isNewLine := true } (ldifFeed s (t ++ [10])).2 := by
  have hn := next_newLine s
  have hc0 : s.next.2.isComment = false := rfl
  rcases h with ⟨rfl, rfl⟩ | ⟨c, t', u', rfl, rfl, hc, hf⟩
  · have e := char_blank s hs
    simp only [List.nil_append, ldifFeed, e, List.append_nil]
    refine ⟨?_, ?_⟩
    · unfold ldifEmit; split <;> rfl
    · exact ⟨s.next.2.rest, s.next.2.lineNumber + 1, s.next.2.last, Iff.rfl, rfl⟩
  · have e := char_start s c hs hc
    obtain ⟨k, hk⟩ := ldifFeed_in_line hf { s.next.2 with line := [c] } hn hc0
    have e10 : ∀ w : Ldif, w.isNewLine = false → w.char 10 = (.none, { w with lineNumber := w.lineNumber + 1, isNewLine := true }) := by
      intro w hw; simp [Ldif.char, hw]
    have hfeed : ldifFeed s (c :: t' ++ [10]) = (ldifEmit s.next.1 { s.next.2 with line := [c] },
        { s.next.2 with line := c :: u', lineNumber := s.next.2.lineNumber + k + 1, isNewLine := true }) := by
      rw [List.cons_append, ldifFeed, e]
      dsimp only
      rw [ldifFeed_append, hk]
      simp only [ldifFeed, e10 _ (show Ldif.isNewLine { s.next.2 with line := [c] ++ u', lineNumber := s.next.2.lineNumber + k } = false from hn), ldifEmit, if_true]
      simp
    rw [hfeed]
    refine ⟨?_, ?_⟩
    · unfold ldifEmit; split <;> rfl
    · exact ⟨s.next.2.rest, s.next.2.lineNumber + k + 1, s.next.2.last, Iff.rfl, rfl⟩

/-! ### line by line -/

/-- Processing one complete line. -/
def Ldif.proc (s : Ldif) (u : QByteArray) : ParseValue × Ldif := ({ s with line := u, isNewLine := true } : Ldif).next

/-- The items of complete lines. -/
def ldifRun (s : Ldif) : List QByteArray → List LdifEvent × Ldif
  | [] => ([], s)
  | u :: us => (ldifEmit (s.proc u).1 (s.proc u).2 ++ (ldifRun (s.proc u).2 us).1, (ldifRun (s.proc u).2 us).2)

theorem ldifRun_append (s : Ldif) (a b : List QByteArray) :
    ldifRun s (a ++ b) = ((ldifRun s a).1 ++ (ldifRun (ldifRun s a).2 b).1, (ldifRun (ldifRun s a).2 b).2) := by
  induction a generalizing s with
  | nil => simp [ldifRun]
  | cons c t ih => simp only [List.cons_append, ldifRun, ih, List.append_assoc]

theorem next_alike {s s' : Ldif} (h : Alike s s') : s'.next.1 = s.next.1 ∧ Alike s.next.2 s'.next.2 := by
  obtain ⟨r, n, l, hl, rfl⟩ := h
  have hp := processLine_around { s with isNewLine := false } r n l hl
  have hp' : ({ s.around r n l with isNewLine := false } : Ldif).processLine
    = (({ s with isNewLine := false } : Ldif).processLine.1, ({ s with isNewLine := false } : Ldif).processLine.2.around r n l) := hp
  unfold Ldif.next
  rw [hp']
  exact ⟨rfl, r, n, _, Iff.rfl, rfl⟩

theorem proc_alike {s s' : Ldif} (h : Alike s s') (u : QByteArray) : (s'.proc u).1 = (s.proc u).1 ∧ Alike (s.proc u).2 (s'.proc u).2 := by
  obtain ⟨r, n, l, hl, rfl⟩ := h
  exact next_alike (s := { s with line := u, isNewLine := true }) ⟨r, n, l, hl, rfl⟩

theorem ldifRun_alike {s s' : Ldif} (h : Alike s s') (us : List QByteArray) :
    (ldifRun s' us).1.map LdifEvent.noLine = (ldifRun s us).1.map LdifEvent.noLine ∧ Alike (ldifRun s us).2 (ldifRun s' us).2 := by
  induction us generalizing s s' with
  | nil => exact ⟨rfl, h⟩
  | cons u us ih =>
    have hp := proc_alike h u
    have hi := ih hp.2
    simp only [ldifRun, List.map_append]
    exact ⟨by rw [hp.1, ldifEmit_alike _ hp.2, hi.1], hi.2⟩

/-- The text of some lines. -/
def textOf (ts : List QByteArray) : QByteArray := (ts.map (· ++ [10])).flatten

/-- Reading the text of lines, the line `l` being complete already, is processing `l` and the lines but the last. -/
theorem ldifFeed_lines {ls : List (QByteArray × QByteArray)} (h : ∀ p ∈ ls, LineText p.1 p.2) (s : Ldif) (hs : s.isNewLine = true) (x y : QByteArray)
    (hx : LineText x y) :
    (ldifFeed s (textOf (ls.map Prod.fst ++ [x]))).1.map LdifEvent.noLine = (ldifRun s (s.line :: ls.map Prod.snd)).1.map LdifEvent.noLine := by
  induction ls generalizing s with
  | nil =>
    have hl := ldifFeed_line hx s hs
    simp only [textOf, List.nil_append, List.map_cons, List.map_nil, List.flatten_cons, List.flatten_nil, List.append_nil, ldifRun]
    rw [hl.1]
    have : ({ s with line := s.line, isNewLine := true } : Ldif) = s := by rw [← hs]
    rw [Ldif.proc, this]
  | cons p ls ih =>
    have hl := ldifFeed_line (h p (by simp)) s hs
    have e : textOf ((p :: ls).map Prod.fst ++ [x]) = (p.1 ++ [10]) ++ textOf (ls.map Prod.fst ++ [x]) := by simp [textOf]
    rw [e, ldifFeed_append]
    simp only [List.map_append]
    rw [hl.1, (ldifFeed_alike hl.2 _).1, ih (fun q hq => h q (by simp [hq])) { s.next.2 with line := p.2, isNewLine := true } rfl]
    have h0 : ({ s with line := s.line, isNewLine := true } : Ldif) = s := by rw [← hs]
    have hp : s.proc s.line = s.next := by rw [Ldif.proc, h0]
    conv => rhs; rw [ldifRun, hp, List.map_append]
    congr 1

theorem ldifFeed_first (t : QByteArray) (c : UInt8) (hc : c = 10 ∨ LineStart c) : ldifFeed {} (c :: t) = ldifFeed { isNewLine := true } (c :: t) := by
  rcases hc with rfl | hc
  · rfl
  · have e := char_start { isNewLine := true } c rfl hc
    obtain ⟨h1, h2, _, _, _⟩ := hc
    have e' : ({} : Ldif).char c = (.none, { line := [c] }) := by simp [Ldif.char, h1, h2]
    have n : Ldif.next { isNewLine := true } = (.none, {}) := by decide
    rw [n] at e
    rw [ldifFeed, ldifFeed, e, e']

/-- The items of a document of lines. -/
theorem document_lines {ls : List (QByteArray × QByteArray)} (h : ∀ p ∈ ls, LineText p.1 p.2) (es : List LdifEvent)
    (he : DocumentItems (textOf (ls.map Prod.fst)) es) :
    es.map LdifEvent.noLine = (ldifRun {} (ls.map Prod.snd ++ [[], []])).1.map LdifEvent.noLine := by
  rw [document_feed] at he
  subst he
  have hb : LineText [] [] := .inl ⟨rfl, rfl⟩
  have h2 : ∀ p ∈ ls ++ [([], []), ([], [])], LineText p.1 p.2 := by
    intro p hp
    simp only [List.mem_append, List.mem_cons, List.not_mem_nil, or_false, or_self] at hp
    rcases hp with hp | rfl
    · exact h p hp
    · exact hb
  have e : textOf (ls.map Prod.fst) ++ [10, 10, 10] = textOf ((ls ++ [([], []), ([], [])]).map Prod.fst ++ [[]]) := by simp [textOf]
  rw [e]
  have h3 := ldifFeed_lines h2 { isNewLine := true } rfl [] [] hb
  have hf : ldifFeed {} (textOf ((ls ++ [([], []), ([], [])]).map Prod.fst ++ [[]])) = ldifFeed { isNewLine := true } (textOf ((ls ++ [([], []), ([], [])]).map Prod.fst ++ [[]])) := by
    cases ls with
    | nil => exact ldifFeed_first _ _ (.inl rfl)
    | cons p ls =>
      obtain ⟨t, u⟩ := p
      rcases h (t, u) (by simp) with ⟨h1, h2⟩ | ⟨c, t', u', h1, h2, hc, _⟩
      · dsimp only at h1; subst h1; exact ldifFeed_first _ _ (.inl rfl)
      · dsimp only at h1; subst h1; exact ldifFeed_first _ _ (.inr hc)
  rw [hf, h3]
  have hp : Ldif.proc { isNewLine := true } [] = (.none, {}) := by decide
  rw [ldifRun, hp]
  simp [ldifEmit]

/-! ### what a written line says -/

/-- An ASCII byte in the UTF-8 form of a text comes from the same character of the text, or is the `?` for a lone surrogate. -/
theorem ascii_mem_toUtf8 (s : QString) (b : UInt8) (h : b ∈ toUtf8 s) (hb : b.toNat < 128) : (UInt16.ofNat b.toNat ∈ s) ∨ b = 63 := by
  have unit : ∀ u : UInt16, b ∈ utf8Unit u.toNat → UInt16.ofNat b.toNat = u ∨ b = 63 := by
    intro u hu
    have hul := u.toNat_lt
    unfold utf8Unit at hu
    split at hu
    · simp only [List.mem_cons, List.not_mem_nil, or_false] at hu
      left
      apply UInt16.toNat_inj.1
      subst hu
      rw [UInt8.toNat_ofNat', UInt16.toNat_ofNat']
      omega
    · split at hu
      · simp only [List.mem_cons, List.not_mem_nil, or_false] at hu
        rcases hu with rfl | rfl <;> rw [UInt8.toNat_ofNat'] at hb <;> omega
      · split at hu
        · simp only [List.mem_cons, List.not_mem_nil, or_false] at hu
          rcases hu with rfl | rfl | rfl <;> rw [UInt8.toNat_ofNat'] at hb <;> omega
        · simp only [List.mem_cons, List.not_mem_nil, or_false] at hu
          exact .inr hu
  fun_induction toUtf8 s with
  | case1 => simp at h
  | case2 u =>
    rcases unit u h with h | h
    · exact .inl (by simp [h])
    · exact .inr h
  | case3 u v t hc ih =>
    rw [List.mem_append] at h
    rcases h with h | h
    · exfalso
      unfold utf8Pair at h
      simp only [List.mem_cons, List.not_mem_nil, or_false] at h
      have h1 := u.toNat_lt
      have h2 := v.toNat_lt
      rcases h with rfl | rfl | rfl | rfl <;> rw [UInt8.toNat_ofNat'] at hb <;> omega
    · rcases ih h with h | h
      · exact .inl (List.mem_cons_of_mem _ (List.mem_cons_of_mem _ h))
      · exact .inr h
  | case4 u v t hc ih =>
    rw [List.mem_append] at h
    rcases h with h | h
    · rcases unit u h with h | h
      · exact .inl (by simp [h])
      · exact .inr h
    · rcases ih h with h | h
      · exact .inl (by simp only [List.mem_cons] at h ⊢; exact .inr h)
      · exact .inr h


theorem utf8Unit_ne (n : Nat) : utf8Unit n ≠ [] := by
  unfold utf8Unit
  repeat' split
  all_goals simp

theorem toUtf8_ne {s : QString} (h : s ≠ []) : toUtf8 s ≠ [] := by
  cases s with
  | nil => exact absurd rfl h
  | cons u t =>
    cases t with
    | nil => exact utf8Unit_ne _
    | cons v t =>
      rw [toUtf8]
      split
      · simp [utf8Pair]
      · simp [utf8Unit_ne]

/-- What a single unit or a pair gives at the ends. -/
theorem utf8Unit_ascii (u : UInt16) (b : UInt8) (h : b ∈ utf8Unit u.toNat) (hb : b.toNat < 128) : UInt16.ofNat b.toNat = u ∨ b = 63 := by
  have := ascii_mem_toUtf8 [u] b (by simpa [toUtf8] using h) hb
  rcases this with h | h
  · exact .inl (by simpa using h)
  · exact .inr h

theorem utf8Pair_big (u v : Nat) (hu : 0xD800 ≤ u ∧ u < 0xDC00) (hv : 0xDC00 ≤ v ∧ v < 0xE000) (b : UInt8) (h : b ∈ utf8Pair u v) : 128 ≤ b.toNat := by
  unfold utf8Pair at h
  simp only [List.mem_cons, List.not_mem_nil, or_false] at h
  rcases h with rfl | rfl | rfl | rfl <;> rw [UInt8.toNat_ofNat'] <;> omega

theorem toUtf8_head (u : UInt16) (t : QString) (b : UInt8) (h : (toUtf8 (u :: t)).head? = some b) (hb : b.toNat < 128) :
    UInt16.ofNat b.toNat = u ∨ b = 63 := by
  have unit : ∀ r, ((utf8Unit u.toNat) ++ r).head? = some b → UInt16.ofNat b.toNat = u ∨ b = 63 := by
    intro r hr
    apply utf8Unit_ascii u b _ hb
    cases he : utf8Unit u.toNat with
    | nil => exact absurd he (utf8Unit_ne _)
    | cons x xs => rw [he] at hr; simp at hr; simp [hr]
  cases t with
  | nil => exact unit [] (by simpa [toUtf8] using h)
  | cons v t =>
    rw [toUtf8] at h
    split at h
    · rename_i hc
      exfalso
      have := utf8Pair_big u.toNat v.toNat ⟨hc.1, hc.2.1⟩ ⟨hc.2.2.1, hc.2.2.2⟩ b (by
        simp only [utf8Pair, List.cons_append, List.head?_cons, Option.some.injEq] at h
        simp [utf8Pair, ← h])
      omega
    · exact unit _ h

theorem last_append {α : Type} (a b : List α) (h : b ≠ []) : (a ++ b).getLast? = b.getLast? := by
  cases b with
  | nil => exact absurd rfl h
  | cons x xs => simp [List.getLast?_append, List.getLast?_cons]

theorem toUtf8_last (s : QString) (b : UInt8) (h : (toUtf8 s).getLast? = some b) (hb : b.toNat < 128) :
    s.getLast? = some (UInt16.ofNat b.toNat) ∨ b = 63 := by
  fun_induction toUtf8 s with
  | case1 => simp at h
  | case2 u =>
    rcases utf8Unit_ascii u b (List.mem_of_getLast? h) hb with h | h
    · exact .inl (by simp [← h])
    · exact .inr h
  | case3 u v t hc ih =>
    by_cases ht : t = []
    · subst ht
      exfalso
      have := utf8Pair_big u.toNat v.toNat ⟨hc.1, hc.2.1⟩ ⟨hc.2.2.1, hc.2.2.2⟩ b (by
        have := List.mem_of_getLast? h
        simpa [toUtf8] using this)
      omega
    · have hne := toUtf8_ne ht
      rw [last_append _ _ hne] at h
      rcases ih h with h | h
      · left
        cases t with
        | nil => exact absurd rfl ht
        | cons w t => simpa using h
      · exact .inr h
  | case4 u v t hc ih =>
    have hne := toUtf8_ne (s := v :: t) (by simp)
    rw [last_append _ _ hne] at h
    rcases ih h with h | h
    · left; simpa using h
    · exact .inr h

theorem trim_id {α : Type} (sp : α → Bool) (l : List α) (h1 : ∀ c, l.head? = some c → sp c = false) (h2 : ∀ c, l.getLast? = some c → sp c = false) :
    trim sp l = l := by
  unfold trim
  have d : ∀ m : List α, (∀ c, m.head? = some c → sp c = false) → m.dropWhile sp = m := by
    intro m hm
    cases m with
    | nil => rfl
    | cons x xs => simp [hm x rfl]
  rw [d l h1, d l.reverse (by intro c hc; exact h2 c (by simpa using hc))]
  simp

/-- The facts about the bytes of a name. -/
structure NameBytes (n : QByteArray) : Prop where
  nonempty : n ≠ []
  noColon : c! ':' ∉ n
  noLf : 10 ∉ n
  noCr : 13 ∉ n
  start : ∃ c t, n = c :: t ∧ LineStart c
  trimmed : trimmedB n = n

theorem LdifName.bytes {name : QString} (h : LdifName name) : NameBytes (toUtf8 name) := by
  have hne := toUtf8_ne h.nonempty
  have mem : ∀ b : UInt8, b.toNat < 128 → b ≠ 63 → UInt16.ofNat b.toNat ∉ name → b ∉ toUtf8 name := by
    intro b hb h63 hn hm
    rcases ascii_mem_toUtf8 name b hm hb with h | h
    · exact hn h
    · exact h63 h
  have hd : ∀ b : UInt8, b.toNat < 128 → b ≠ 63 → (toUtf8 name).head? = some b → name.head? = some (UInt16.ofNat b.toNat) := by
    intro b hb h63 hh
    cases name with
    | nil => exact absurd rfl h.nonempty
    | cons u t =>
      rcases toUtf8_head u t b hh hb with h | h
      · simp [← h]
      · exact absurd h h63
  have sp : ∀ b : UInt8, isSpaceB b = true → b.toNat < 128 ∧ b ≠ 63 ∧ AsciiSpace (UInt16.ofNat b.toNat) := by
    have key : ∀ n : Fin 256, isSpaceB (UInt8.ofNat n) = true → n.val < 128 ∧ UInt8.ofNat n ≠ 63 ∧
        (UInt16.ofNat n = 32 ∨ (9 ≤ UInt16.ofNat n ∧ UInt16.ofNat n ≤ 13)) := by decide +kernel
    intro b hb
    have := key ⟨b.toNat, b.toNat_lt⟩
    rw [UInt8.ofNat_toNat] at this
    exact this hb
  refine ⟨hne, mem _ (by decide) (by decide) h.noColon, mem _ (by decide) (by decide) h.noLf, mem _ (by decide) (by decide) h.noCr, ?_, ?_⟩
  · cases he : toUtf8 name with
    | nil => exact absurd he hne
    | cons c t =>
      refine ⟨c, t, rfl, ?_⟩
      have hc : (toUtf8 name).head? = some c := by rw [he]; rfl
      have nsp : isSpaceB c = false := by
        cases hs : isSpaceB c
        · rfl
        · obtain ⟨h1, h2, h3⟩ := sp c hs
          exact absurd h3 (h.startTrim _ (hd c h1 h2 hc))
      refine ⟨?_, ?_, ?_, ?_, ?_⟩
      · rintro rfl; exact absurd nsp (by decide)
      · rintro rfl; exact absurd nsp (by decide)
      · rintro rfl; exact absurd nsp (by decide)
      · rintro rfl; exact absurd nsp (by decide)
      · rintro rfl; exact h.noHash (hd _ (by decide) (by decide) hc)
  · apply trim_id
    · intro c hc
      cases hs : isSpaceB c
      · rfl
      · obtain ⟨h1, h2, h3⟩ := sp c hs
        exact absurd h3 (h.startTrim _ (hd c h1 h2 hc))
    · intro c hc
      cases hs : isSpaceB c
      · rfl
      · obtain ⟨h1, h2, h3⟩ := sp c hs
        rcases toUtf8_last name c hc h1 with h' | h'
        · exact absurd h3 (h.endTrim _ h')
        · exact absurd h' h2

/-- The line of an attribute before it is folded. -/
def plainLine (name : QString) (value : QByteArray) : QByteArray :=
  if ldifSafe (toLowerQ name = q! "dn") value then toUtf8 name ++ b! ": " ++ value else toUtf8 name ++ b! ":: " ++ toBase64 value

theorem splitLine_plain {name : QString} (h : LdifName name) (value : QByteArray) : splitLine (plainLine name value) = (name, value, false) := by
  obtain ⟨_, hcol, _, _, _, htr⟩ := LdifName.bytes h
  have hname : fromUtf8 (toUtf8 name) = name := C11_utf8_roundtrip_partial name h.wellFormed h.noBom
  unfold plainLine
  generalize hn : toUtf8 name = n at *
  split
  · rename_i hs
    have e : n ++ b! ": " ++ value = n ++ c! ':' :: (32 :: value) := by simp
    rw [e]
    unfold splitLine
    rw [indexOf?_append _ _ _ hcol]
    simp only [List.take_left, htr, hname]
    simp
  · rename_i hs
    have e : n ++ b! ":: " ++ toBase64 value = n ++ c! ':' :: (c! ':' :: 32 :: toBase64 value) := by simp
    rw [e]
    unfold splitLine
    rw [indexOf?_append _ _ _ hcol]
    simp only [List.take_left, htr, hname]
    simp
    have h10 := C10_base64_roundtrip value
    split
    · rename_i hz
      rw [hz] at h10
      exact h10
    · exact h10

theorem ldifFold_folded (linelen n i : Nat) (result u v : QByteArray) (hi : Folded (result.take i) u) (hr : result.drop i = v) (hv1 : 10 ∉ v) (hv2 : 13 ∉ v) :
    Folded (ldifFold linelen n i result) (u ++ v) := by
  induction n generalizing i result u v with
  | zero =>
    have := hi.append (Folded.plain v hv1 hv2)
    rw [← hr, List.take_append_drop, hr] at this
    exact this
  | succ n ih =>
    rw [ldifFold]
    split
    · rename_i hlt
      have hl : (result.take i).length = i := by simp; omega
      have e1 : (result.take i ++ b! "\n " ++ result.drop i).take (i + linelen + 2) = result.take i ++ (b! "\n " ++ v.take linelen) := by
        rw [hr, List.append_assoc, List.take_append, List.take_of_length_le (by omega), hl]
        congr 1
        rw [show i + linelen + 2 - i = linelen + 2 by omega]
        rfl
      have e2 : (result.take i ++ b! "\n " ++ result.drop i).drop (i + linelen + 2) = v.drop linelen := by
        rw [hr, List.append_assoc, List.drop_append, List.drop_of_length_le (by omega), hl]
        rw [show i + linelen + 2 - i = linelen + 2 by omega]
        rfl
      have h10 : 10 ∉ v.take linelen := fun h => hv1 (List.mem_of_mem_take h)
      have h13 : 13 ∉ v.take linelen := fun h => hv2 (List.mem_of_mem_take h)
      have := ih (i + linelen + 2) _ (u ++ v.take linelen) (v.drop linelen)
        (by rw [e1]; exact hi.append (.fold (.inl rfl) (Folded.plain _ h10 h13))) e2
        (fun h => hv1 (List.mem_of_mem_drop h)) (fun h => hv2 (List.mem_of_mem_drop h))
      rwa [List.append_assoc u, List.take_append_drop] at this
    · have := hi.append (Folded.plain v hv1 hv2)
      rw [← hr, List.take_append_drop, hr] at this
      exact this

theorem enc6_clean (n : Nat) : enc6 n ≠ 10 ∧ enc6 n ≠ 13 := by
  unfold enc6
  repeat' split
  all_goals constructor <;> intro h <;> have h := congrArg UInt8.toNat h <;> simp [UInt8.toNat_ofNat'] at h <;> omega

theorem toBase64_clean (s : QByteArray) : 10 ∉ toBase64 s ∧ 13 ∉ toBase64 s := by
  fun_induction toBase64 s <;> simp_all [enc6_clean, (enc6_clean _).1.symm, (enc6_clean _).2.symm, eq_comm]

theorem ldifSafe_clean (d : Bool) (v : QByteArray) (h : ldifSafe d v = true) : 10 ∉ v ∧ 13 ∉ v := by
  cases v with
  | nil => simp
  | cons c t =>
    simp only [ldifSafe, Bool.and_eq_true, decide_eq_true_eq, List.all_eq_true] at h
    obtain ⟨⟨⟨⟨⟨_, h1⟩, h2⟩, _⟩, _⟩, h5⟩ := h
    refine ⟨?_, ?_⟩
    · simp only [List.mem_cons, not_or]
      refine ⟨fun e => h1 e.symm, fun hm => ?_⟩
      have := h5 10 hm
      simp at this
    · simp only [List.mem_cons, not_or]
      refine ⟨fun e => h2 e.symm, fun hm => ?_⟩
      have := h5 13 hm
      simp at this

theorem ldifFold_head (linelen n i : Nat) (r : QByteArray) (hi : 0 < i) : (ldifFold linelen n i r).head? = r.head? := by
  induction n generalizing i r with
  | zero => rfl
  | succ n ih =>
    rw [ldifFold]
    split
    · rw [ih _ _ (by omega)]
      cases r with
      | nil => simp_all
      | cons x xs =>
        cases i with
        | zero => omega
        | succ i => rfl
    · rfl

theorem plainLine_clean {name : QString} (h : LdifName name) (value : QByteArray) : 10 ∉ plainLine name value ∧ 13 ∉ plainLine name value := by
  obtain ⟨_, _, hlf, hcr, _, _⟩ := LdifName.bytes h
  unfold plainLine
  split
  · rename_i hs
    have := ldifSafe_clean _ _ hs
    constructor <;> simp [hlf, hcr, this]
  · have := toBase64_clean value
    constructor <;> simp [hlf, hcr, this]

/-- A written line is a line, folded. -/
theorem assembleLine_text {name : QString} (h : LdifName name) (value : QByteArray) (linelen : Nat) :
    LineText (assembleLine name value linelen false) (plainLine name value) := by
  obtain ⟨_, _, hlf, hcr, ⟨c, t, hct, hc⟩, _⟩ := LdifName.bytes h
  have hclean := plainLine_clean h value
  have hst : ∃ u, plainLine name value = c :: u := by
    unfold plainLine
    rw [hct]
    split <;> exact ⟨_, rfl⟩
  have e : assembleLine name value linelen false =
      if 0 < linelen then ldifFold linelen (plainLine name value).length (if name.length + 2 > linelen then name.length + 2 else linelen) (plainLine name value)
      else plainLine name value := by
    simp [assembleLine, plainLine]
  obtain ⟨u, hu⟩ := hst
  have hcu : 10 ∉ u ∧ 13 ∉ u := by
    rw [hu] at hclean
    simp only [List.mem_cons, not_or] at hclean
    exact ⟨hclean.1.2, hclean.2.2⟩
  rw [e]
  split
  · rename_i hpos
    generalize hi : (if name.length + 2 > linelen then name.length + 2 else linelen) = i
    have hi0 : 0 < i := by rw [← hi]; split <;> omega
    have hf := ldifFold_folded linelen (plainLine name value).length i (plainLine name value) ((plainLine name value).take i) ((plainLine name value).drop i)
      (Folded.plain _ (fun h => hclean.1 (List.mem_of_mem_take h)) (fun h => hclean.2 (List.mem_of_mem_take h))) rfl
      (fun h => hclean.1 (List.mem_of_mem_drop h)) (fun h => hclean.2 (List.mem_of_mem_drop h))
    rw [List.take_append_drop] at hf
    have hh := ldifFold_head linelen (plainLine name value).length i (plainLine name value) hi0
    generalize ldifFold linelen (plainLine name value).length i (plainLine name value) = r at hf hh ⊢
    rw [hu] at hf hh
    cases hf with
    | char _ _ hf => exact .inr ⟨c, _, u, rfl, hu, hc, hf⟩
    | fold _ hf =>
      simp only [List.head?_cons, Option.some.injEq] at hh
      exact absurd hh.symm hc.1
  · rw [hu]
    exact .inr ⟨c, u, u, rfl, rfl, hc, Folded.plain u hcu.1 hcu.2⟩

/-! ### entries -/

theorem proc_eq (s : Ldif) (u : QByteArray) (a : QString) (v : QByteArray) (b : Bool) (hc : s.isComment = false) (h : splitLine u = (a, v, b)) :
    s.proc u = (let p := ({ s with line := u, isNewLine := false, isComment := false, entryType := if s.last = .endEntry then .none else s.entryType,
                                    attr := a, value := v, url := b } : Ldif).lineOf
                (p.1, { p.2 with last := p.1, line := [], isComment := false })) := by
  unfold Ldif.proc Ldif.next Ldif.processLine
  simp [hc, h]

/-- Within an entry of attributes. -/
def InEntry (s : Ldif) : Prop := s.isComment = false ∧ s.entryType = .add ∧ s.last ≠ .endEntry

/-- Between entries, or directly after the distinguished name. -/
def Ready (s : Ldif) : Prop := s.isComment = false ∧ (if s.last = .endEntry then EntryType.none else s.entryType) = .none

theorem splitLine_nil : splitLine [] = ([], [], false) := by decide

theorem inEntry_item {s : Ldif} (h : InEntry s) {u : QByteArray} {a : QString} {v : QByteArray} {b : Bool} (hu : splitLine u = (a, v, b))
    (hne : ¬ (a = [] ∧ v = [])) :
    (ldifEmit (s.proc u).1 (s.proc u).2).map LdifEvent.short = [⟨.item, a, v, b⟩] ∧ InEntry (s.proc u).2 := by
  obtain ⟨h1, h2, h3⟩ := h
  rw [proc_eq s u a v b h1 hu]
  simp only [h3, if_false, h2, Ldif.lineOf]
  have : (a.isEmpty && v.isEmpty) = false := by
    cases a <;> cases v <;> simp_all
  simp [this, ldifEmit, LdifEvent.short, observe, InEntry]

theorem inEntry_end {s : Ldif} (h : InEntry s) :
    (ldifEmit (s.proc []).1 (s.proc []).2).map LdifEvent.short = [⟨.endEntry, [], [], false⟩] ∧ Ready (s.proc []).2 := by
  obtain ⟨h1, h2, h3⟩ := h
  rw [proc_eq s [] [] [] false h1 splitLine_nil]
  simp [h3, h2, Ldif.lineOf, ldifEmit, LdifEvent.short, observe, Ready]

theorem lineNone_blank (s : Ldif) (h1 : s.attr = []) (h2 : s.value = []) : s.lineNone = (.none, s) := by
  simp [Ldif.lineNone, h1, h2, toLowerQ]

theorem ready_blank {s : Ldif} (h : Ready s) : ldifEmit (s.proc []).1 (s.proc []).2 = [] ∧ Ready (s.proc []).2 := by
  obtain ⟨h1, h2⟩ := h
  rw [proc_eq s [] [] [] false h1 splitLine_nil, h2]
  simp only [Ldif.lineOf]
  rw [lineNone_blank _ rfl rfl]
  simp [ldifEmit, Ready]

theorem ready_dn {s : Ldif} (h : Ready s) {u v : QByteArray} {b : Bool} (hu : splitLine u = (q! "dn", v, b)) :
    (ldifEmit (s.proc u).1 (s.proc u).2).map LdifEvent.short = [⟨.newEntry, q! "dn", v, b⟩] ∧ Ready (s.proc u).2 := by
  obtain ⟨h1, h2⟩ := h
  rw [proc_eq s u _ v b h1 hu, h2]
  have e1 : toLowerQ (q! "dn") ≠ q! "version" := by decide
  have e2 : toLowerQ (q! "dn") = q! "dn" := by decide
  simp only [Ldif.lineOf, Ldif.lineNone, e1, e2, if_false, if_true]
  simp [ldifEmit, LdifEvent.short, observe, Ready]

theorem ready_item {s : Ldif} (h : Ready s) {u v : QByteArray} {a : QString} {b : Bool} (hu : splitLine u = (a, v, b)) (ha : a ≠ []) (hv : v ≠ [])
    (hk : toLowerQ a ∉ ldifKeywords) :
    (ldifEmit (s.proc u).1 (s.proc u).2).map LdifEvent.short = [⟨.item, a, v, b⟩] ∧ InEntry (s.proc u).2 := by
  obtain ⟨h1, h2⟩ := h
  rw [proc_eq s u a v b h1 hu, h2]
  simp only [ldifKeywords, List.mem_cons, List.not_mem_nil, or_false, not_or] at hk
  obtain ⟨k1, k2, k3, k4⟩ := hk
  have hb : (!a.isEmpty && !v.isEmpty) = true := by cases a <;> cases v <;> simp_all
  simp only [Ldif.lineOf, Ldif.lineNone, k1, k2, k3, k4, if_false, hb, if_true]
  simp [ldifEmit, LdifEvent.short, observe, InEntry]

theorem plain_ne {a : QString} (h : LdifName a) (v : QByteArray) : ¬ (a = [] ∧ v = []) := fun e => h.nonempty e.1

/-- Attributes within an entry. -/
theorem ldifRun_attrs (as : List (QString × QByteArray)) (h : ∀ a ∈ as, LdifName a.1) {s : Ldif} (hs : InEntry s) :
    (ldifRun s (as.map fun a => plainLine a.1 a.2)).1.map LdifEvent.short = as.map (fun a => ⟨.item, a.1, a.2, false⟩) ∧
    InEntry (ldifRun s (as.map fun a => plainLine a.1 a.2)).2 := by
  induction as generalizing s with
  | nil => exact ⟨rfl, hs⟩
  | cons a as ih =>
    have h1 := inEntry_item hs (splitLine_plain (h a (by simp)) a.2) (plain_ne (h a (by simp)) a.2)
    have h2 := ih (fun b hb => h b (by simp [hb])) h1.2
    simp only [List.map_cons, ldifRun, List.map_append]
    rw [h1.1, h2.1]
    exact ⟨rfl, h2.2⟩

theorem dn_name : LdifName (q! "dn") := by
  refine ⟨by decide, ⟨['d', 'n'], by decide⟩, by decide, by decide, by decide, by decide, by decide, ?_, ?_⟩ <;>
  · intro c hc; simp at hc; subst hc; unfold AsciiSpace; decide

/-- The lines of a record. -/
def recordLines (r : LdifRecord) : List QByteArray :=
  plainLine (q! "dn") r.dn :: (r.attrs.map fun a => plainLine a.1 a.2) ++ [[]]

theorem ldifRun_record (r : LdifRecord) (h : r.Proper) {s : Ldif} (hs : Ready s) :
    (ldifRun s (recordLines r)).1.map LdifEvent.short = r.items ∧ Ready (ldifRun s (recordLines r)).2 := by
  obtain ⟨a, as, ha, hv, hk⟩ := h.first
  have hn := h.names
  rw [ha] at hn
  have h1 := ready_dn hs (splitLine_plain dn_name r.dn)
  have h2 := ready_item h1.2 (splitLine_plain (hn a (by simp)) a.2) (hn a (by simp)).nonempty hv hk
  have h3 := ldifRun_attrs as (fun b hb => hn b (by simp [hb])) h2.2
  have h4 := inEntry_end h3.2
  unfold recordLines LdifRecord.items
  rw [ha]
  simp only [List.map_cons, List.cons_append, ldifRun, ldifRun_append, List.map_append]
  rw [h1.1, h2.1, h3.1, h4.1]
  exact ⟨by simp, h4.2⟩

theorem ldifRun_records (rs : List LdifRecord) (h : ∀ r ∈ rs, r.Proper) {s : Ldif} (hs : Ready s) :
    (ldifRun s (rs.flatMap recordLines)).1.map LdifEvent.short = rs.flatMap LdifRecord.items ∧ Ready (ldifRun s (rs.flatMap recordLines)).2 := by
  induction rs generalizing s with
  | nil => exact ⟨rfl, hs⟩
  | cons r rs ih =>
    have h1 := ldifRun_record r (h r (by simp)) hs
    have h2 := ih (fun b hb => h b (by simp [hb])) h1.2
    simp only [List.flatMap_cons, ldifRun_append, List.map_append]
    rw [h1.1, h2.1]
    exact ⟨rfl, h2.2⟩

theorem ready_blanks {s : Ldif} (hs : Ready s) (n : Nat) : (ldifRun s (List.replicate n [])).1 = [] ∧ Ready (ldifRun s (List.replicate n [])).2 := by
  induction n generalizing s with
  | zero => exact ⟨rfl, hs⟩
  | succ n ih =>
    have h1 := ready_blank hs
    have h2 := ih h1.2
    simp only [List.replicate_succ, ldifRun, h1.1, List.nil_append]
    exact h2

theorem short_noLine (e : LdifEvent) : e.noLine.short = e.short := rfl

theorem short_of_noLine {es fs : List LdifEvent} (h : es.map LdifEvent.noLine = fs.map LdifEvent.noLine) :
    es.map LdifEvent.short = fs.map LdifEvent.short := by
  have := congrArg (List.map LdifEvent.short) h
  rw [List.map_map, List.map_map] at this
  exact this

theorem ready_new : Ready {} := ⟨rfl, rfl⟩

/-- A line within an entry, in a document. -/
theorem context_line {t u : QByteArray} (ht : LineText t u) {a : QString} {v : QByteArray} {b : Bool} (hu : splitLine u = (a, v, b))
    (hne : ¬ (a = [] ∧ v = [])) {es : List LdifEvent} (he : DocumentItems (b! "dn: a\ncn: b\n" ++ t ++ b! "\n") es) :
    es.map LdifEvent.short = [⟨.newEntry, q! "dn", b! "a", false⟩, ⟨.item, q! "cn", b! "b", false⟩, ⟨.item, a, v, b⟩, ⟨.endEntry, [], [], false⟩] := by
  have l1 : LineText (b! "dn: a") (b! "dn: a") := .inr ⟨c! 'd', _, _, rfl, rfl, by unfold LineStart; decide, Folded.plain _ (by decide) (by decide)⟩
  have l2 : LineText (b! "cn: b") (b! "cn: b") := .inr ⟨c! 'c', _, _, rfl, rfl, by unfold LineStart; decide, Folded.plain _ (by decide) (by decide)⟩
  have e : b! "dn: a\ncn: b\n" ++ t ++ b! "\n" = textOf ([(b! "dn: a", b! "dn: a"), (b! "cn: b", b! "cn: b"), (t, u)].map Prod.fst) := by simp [textOf]
  rw [e] at he
  have h := document_lines (by
    intro p hp
    simp only [List.mem_cons, List.not_mem_nil, or_false] at hp
    rcases hp with rfl | rfl | rfl
    · exact l1
    · exact l2
    · exact ht) es he
  rw [short_of_noLine h]
  have r1 := ready_dn ready_new (u := b! "dn: a") (v := b! "a") (b := false) (by decide)
  have r2 := ready_item r1.2 (u := b! "cn: b") (v := b! "b") (a := q! "cn") (b := false) (by decide) (by decide) (by decide) (by decide)
  have r3 := inEntry_item r2.2 hu hne
  have r4 := inEntry_end r3.2
  have r5 := ready_blank r4.2
  simp only [List.map_cons, List.map_nil, List.cons_append, List.nil_append, ldifRun, List.map_append, r1.1, r2.1, r3.1, r4.1, r5.1]

end KC
