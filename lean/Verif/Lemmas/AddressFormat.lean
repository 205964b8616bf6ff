import Verif.Spec.AddressFormat
import Mathlib.Data.Nat.Bitwise
namespace KC
open Spec

theorem parseField_letter (f : AField) : parseField f.letter = some f := by cases f <;> rfl

theorem letter_ne_n (f : AField) : f.letter ≠ qc! 'n' := by cases f <;> decide

theorem parseField_some {c : UInt16} {f : AField} (h : parseField c = some f) : c = f.letter := by
  have hc : c.toNat = c.toNat / 256 * 256 + c.toNat % 256 := by omega
  unfold parseField at h
  cases hb : fieldLowerBound (c.toNat % 256) fieldMap with
  | none => rw [hb] at h; simp at h
  | some e =>
    rw [hb] at h
    simp only [Bool.or_eq_true, bne_iff_ne, ne_eq] at h
    by_cases h1 : ¬ e.1 = c.toNat % 256 ∨ ¬ c.toNat / 256 = 0
    · rw [if_pos h1] at h; cases h
    · rw [if_neg h1] at h
      have he : e.2 = f := by simpa using h
      have hm : e ∈ fieldMap := by
        clear h h1 he
        generalize fieldMap = m at hb
        induction m with
        | nil => simp [fieldLowerBound] at hb
        | cons x r ih =>
          rw [fieldLowerBound] at hb
          split at hb
          · exact List.mem_cons_of_mem _ (ih hb)
          · simp at hb; simp [hb]
      have h2 : c.toNat = e.1 := by omega
      apply UInt16.toNat.inj
      rw [h2, ← he]
      have : ∀ x ∈ fieldMap, x.1 = x.2.letter.toNat := by decide
      exact this e hm

theorem parseField_eq (c : UInt16) (f : AField) : parseField c = some f ↔ c = f.letter :=
  ⟨parseField_some, fun h => h ▸ parseField_letter f⟩

theorem hasField_iff (n : Nat) (f : AField) : hasField n f = true ↔ n.testBit f.index = true := by
  unfold hasField AField.bit
  rw [Nat.and_two_pow]
  cases n.testBit f.index <;> simp

theorem index_inj {f g : AField} (h : f.index = g.index) : f = g := by cases f <;> cases g <;> first | rfl | (exact absurd h (by decide))

theorem testBit_bit (f g : AField) : f.bit.testBit g.index = decide (f = g) := by
  unfold AField.bit
  rw [Nat.testBit_two_pow]
  by_cases h : f = g
  · simp [h]
  · have : f.index ≠ g.index := fun h' => h (index_inj h')
    simp [h, this]

theorem foldl_or_testBit {α : Type} (g : α → Nat) (l : List α) (n : Nat) (i : Nat) :
    (l.foldl (fun acc e => acc ||| g e) n).testBit i = (n.testBit i || l.any fun e => (g e).testBit i) := by
  induction l generalizing n with
  | nil => simp
  | cons x r ih => rw [List.foldl_cons, ih, Nat.testBit_or, List.any_cons, Bool.or_assoc]

theorem used_iff (F : AddressFormat) (f : AField) : hasField F.usedFields f = true ↔ FormatElem.field f ∈ F.elements := by
  rw [hasField_iff, AddressFormat.usedFields, foldl_or_testBit]
  simp only [Nat.zero_testBit, Bool.false_or, List.any_eq_true]
  constructor
  · rintro ⟨e, he, hb⟩
    cases e with
    | sep => simp [FormatElem.fieldBit] at hb
    | lit s => simp [FormatElem.fieldBit] at hb
    | field g =>
      simp only [FormatElem.fieldBit, testBit_bit, decide_eq_true_eq] at hb
      exact hb ▸ he
  · intro h
    exact ⟨_, h, by simp [FormatElem.fieldBit, testBit_bit]⟩

theorem parseFields_iff (s : QString) (f : AField) : hasField (parseFields s) f = true ↔ f.letter ∈ s := by
  rw [hasField_iff, parseFields, foldl_or_testBit]
  simp only [Nat.zero_testBit, Bool.false_or, List.any_eq_true]
  constructor
  · rintro ⟨c, hc, hb⟩
    cases hp : parseField c with
    | none => rw [hp] at hb; simp at hb
    | some g =>
      rw [hp] at hb
      simp only [testBit_bit, decide_eq_true_eq] at hb
      rw [parseField_some hp, hb] at hc
      exact hc
  · intro h
    exact ⟨_, h, by rw [parseField_letter]; simp [testBit_bit]⟩

/-! ### The parser -/

theorem printFormat_append (a b : List FormatElem) : printFormat (a ++ b) = printFormat a ++ printFormat b := by
  simp [printFormat, List.flatMap_append]

theorem printFormat_flush (l : QString) : printFormat (flushLiteral l) = l := by
  unfold flushLiteral
  cases l <;> simp [printFormat, printElem]

theorem parse_pair (d : UInt16) (r lit : QString) :
    parseElementsLoop (qc! '%' :: d :: r) lit = flushLiteral lit ++ placeholder d ++ parseElementsLoop r [] := by
  rw [parseElementsLoop, if_pos rfl]

theorem parse_char {c : UInt16} (h : c ≠ qc! '%') (r lit : QString) : parseElementsLoop (c :: r) lit = parseElementsLoop r (lit ++ [c]) := by
  cases r with
  | nil => rw [parseElementsLoop, parseElementsLoop]
  | cons d r => rw [parseElementsLoop, if_neg h]

theorem parse_percent (lit : QString) : parseElementsLoop [qc! '%'] lit = flushLiteral (lit ++ [qc! '%']) := by rw [parseElementsLoop]

theorem placeholder_n : placeholder (qc! 'n') = [.sep] := by rfl

theorem placeholder_letter (f : AField) : placeholder f.letter = [.field f] := by
  rw [placeholder, if_neg (letter_ne_n f), parseField_letter]

/-- A placeholder is valid or dropped. -/
theorem placeholder_cases (d : UInt16) : d = qc! 'n' ∨ (∃ f : AField, d = f.letter) ∨ (placeholder d = [] ∧ d ≠ qc! 'n' ∧ ∀ f : AField, d ≠ f.letter) := by
  by_cases h : d = qc! 'n'
  · exact .inl h
  · cases hp : parseField d with
    | some f => exact .inr (.inl ⟨f, parseField_some hp⟩)
    | none =>
      refine .inr (.inr ⟨by rw [placeholder, if_neg h, hp], h, fun f hf => ?_⟩)
      rw [hf, parseField_letter] at hp
      cases hp

/-- Induction along the reading of a format string. -/
theorem formatInd {P : QString → Prop} (h0 : P []) (h1 : P [qc! '%']) (h2 : ∀ d r, P r → P (qc! '%' :: d :: r))
    (h3 : ∀ c r, c ≠ qc! '%' → P r → P (c :: r)) (s : QString) : P s := by
  have : ∀ n, ∀ s : QString, s.length ≤ n → P s := by
    intro n
    induction n with
    | zero => intro s hs; have := List.length_eq_zero_iff.1 (Nat.le_zero.1 hs); rw [this]; exact h0
    | succ n ih =>
      intro s hs
      cases s with
      | nil => exact h0
      | cons c r =>
        by_cases hc : c = qc! '%'
        · subst hc
          cases r with
          | nil => exact h1
          | cons d r => exact h2 d r (ih r (by simp at hs; omega))
        · exact h3 c r hc (ih r (by simp at hs; omega))
  exact this _ s (Nat.le_refl _)

theorem print_length (s : QString) (lit : QString) : (printFormat (parseElementsLoop s lit)).length ≤ lit.length + s.length := by
  induction s using formatInd generalizing lit with
  | h0 => rw [parseElementsLoop, printFormat_flush]; simp
  | h1 => rw [parse_percent, printFormat_flush]; simp
  | h2 d r ih =>
    rw [parse_pair, printFormat_append, printFormat_append, printFormat_flush]
    have := ih []
    rcases placeholder_cases d with h | ⟨f, h⟩ | ⟨h, -, -⟩
    · subst h; rw [placeholder_n]; simp [printFormat, printElem] at this ⊢; omega
    · subst h; rw [placeholder_letter]; simp [printFormat, printElem] at this ⊢; omega
    · rw [h]; simp [printFormat] at this ⊢; omega
  | h3 c r hc ih =>
    rw [parse_char hc]
    have := ih (lit ++ [c])
    simp at this ⊢; omega

theorem print_parse {s : QString} (h : ValidFormat s) (lit : QString) : printFormat (parseElementsLoop s lit) = lit ++ s := by
  induction h generalizing lit with
  | nil => rw [parseElementsLoop, printFormat_flush]; simp
  | percent => rw [parse_percent, printFormat_flush]
  | char c s hc _ ih => rw [parse_char hc, ih]; simp
  | sep s _ ih => rw [parse_pair, printFormat_append, printFormat_append, printFormat_flush, placeholder_n, ih]; simp [printFormat, printElem]
  | field f s _ ih =>
    rw [parse_pair, printFormat_append, printFormat_append, printFormat_flush, placeholder_letter, ih]; simp [printFormat, printElem]

theorem valid_of_print (s : QString) (lit : QString) (h : printFormat (parseElementsLoop s lit) = lit ++ s) : ValidFormat s := by
  induction s using formatInd generalizing lit with
  | h0 => exact .nil
  | h1 => exact .percent
  | h2 d r ih =>
    rw [parse_pair, printFormat_append, printFormat_append, printFormat_flush] at h
    rcases placeholder_cases d with hd | ⟨f, hd⟩ | ⟨hd, -, -⟩
    · subst hd
      rw [placeholder_n] at h
      exact .sep _ (ih [] (by simpa [printFormat, printElem] using h))
    · subst hd
      rw [placeholder_letter] at h
      exact .field f _ (ih [] (by simpa [printFormat, printElem] using h))
    · exfalso
      rw [hd] at h
      have hl := congrArg List.length h
      have := print_length r []
      simp [printFormat] at hl this
      omega
  | h3 c r hc ih =>
    rw [parse_char hc] at h
    exact .char c r hc (ih (lit ++ [c]) (by rw [h]; simp))

theorem parse_noPercent {t : QString} (h : qc! '%' ∉ t) (r lit : QString) : parseElementsLoop (t ++ r) lit = parseElementsLoop r (lit ++ t) := by
  induction t generalizing lit with
  | nil => simp
  | cons c t ih =>
    simp only [List.mem_cons, not_or] at h
    rw [List.cons_append, parse_char (fun hc => h.1 hc.symm), ih h.2]
    simp

/-- What follows a literal in a canonical list flushes it. -/
theorem parse_lit_then {es : List FormatElem} (hl : ∀ t r, es ≠ .lit t :: r) (ih : parseElementsLoop (printFormat es) [] = es) (s : QString) (hs : s ≠ []) :
    parseElementsLoop (printFormat es) s = .lit s :: es := by
  have hf : flushLiteral s = [.lit s] := by unfold flushLiteral; cases s <;> simp_all
  cases es with
  | nil => simp [printFormat, parseElementsLoop, hf]
  | cons e r =>
    cases e with
    | lit t => exact absurd rfl (hl t r)
    | sep =>
      have : printFormat (FormatElem.sep :: r) = qc! '%' :: qc! 'n' :: printFormat r := by simp [printFormat, printElem]
      rw [this, parse_pair] at ih ⊢
      rw [hf, List.cons_append, List.nil_append, List.cons_append]
      simpa [flushLiteral] using ih
    | field f =>
      have : printFormat (FormatElem.field f :: r) = qc! '%' :: f.letter :: printFormat r := by simp [printFormat, printElem]
      rw [this, parse_pair] at ih ⊢
      rw [hf, List.cons_append, List.nil_append, List.cons_append]
      simpa [flushLiteral] using ih

theorem parse_print {es : List FormatElem} (h : Canonical es) : parseElementsLoop (printFormat es) [] = es := by
  induction h with
  | nil => simp [printFormat, parseElementsLoop, flushLiteral]
  | sep es _ ih =>
    have : printFormat (FormatElem.sep :: es) = qc! '%' :: qc! 'n' :: printFormat es := by simp [printFormat, printElem]
    rw [this, parse_pair, placeholder_n, ih]; simp [flushLiteral]
  | field f es _ ih =>
    have : printFormat (FormatElem.field f :: es) = qc! '%' :: f.letter :: printFormat es := by simp [printFormat, printElem]
    rw [this, parse_pair, placeholder_letter, ih]; simp [flushLiteral]
  | lit s es hs hp _ hl ih =>
    have : printFormat (FormatElem.lit s :: es) = s ++ printFormat es := by simp [printFormat, printElem]
    rw [this, parse_noPercent hp, List.nil_append, parse_lit_then hl ih s hs]
  | percent s hp =>
    have : printFormat [FormatElem.lit (s ++ [qc! '%'])] = s ++ [qc! '%'] := by simp [printFormat, printElem]
    rw [this, parse_noPercent hp, List.nil_append, parse_percent]
    simp [flushLiteral]

theorem canonical_flush {l : QString} (hl : qc! '%' ∉ l) {es : List FormatElem} (h : Canonical es) (hn : ∀ t r, es ≠ .lit t :: r) :
    Canonical (flushLiteral l ++ es) := by
  unfold flushLiteral
  cases l with
  | nil => simpa using h
  | cons c r => exact .lit _ _ (by simp) hl h hn

theorem canonical_parse {s : QString} (h : ValidFormat s) (lit : QString) (hl : qc! '%' ∉ lit) : Canonical (parseElementsLoop s lit) := by
  induction h generalizing lit with
  | nil => rw [parseElementsLoop]; simpa using canonical_flush hl .nil (by simp)
  | percent =>
    rw [parse_percent]
    have : flushLiteral (lit ++ [qc! '%']) = [.lit (lit ++ [qc! '%'])] := by simp [flushLiteral]
    rw [this]
    exact .percent lit hl
  | char c s hc _ ih =>
    rw [parse_char hc]
    refine ih _ ?_
    simp only [List.mem_append, List.mem_singleton, not_or]
    exact ⟨hl, fun h => hc h.symm⟩
  | sep s _ ih =>
    rw [parse_pair, placeholder_n, List.append_assoc]
    exact canonical_flush hl (.sep _ (ih [] (by simp))) (by simp)
  | field f s _ ih =>
    rw [parse_pair, placeholder_letter, List.append_assoc]
    exact canonical_flush hl (.field f _ (ih [] (by simp))) (by simp)

theorem not_field_flush (f : AField) (l : QString) : FormatElem.field f ∉ flushLiteral l := by
  unfold flushLiteral; split <;> simp

theorem mentions_parse (s : QString) (f : AField) (lit : QString) : FormatElem.field f ∈ parseElementsLoop s lit ↔ Mentions f s := by
  induction s using formatInd generalizing lit with
  | h0 => rw [parseElementsLoop]; simp only [not_field_flush, false_iff]; intro h; cases h
  | h1 => rw [parse_percent]; simp only [not_field_flush, false_iff]; intro h; cases h with | char _ _ h _ => exact h rfl
  | h2 d r ih =>
    rw [parse_pair]
    simp only [List.mem_append, not_field_flush, false_or, ih]
    constructor
    · rintro (h | h)
      · rcases placeholder_cases d with hd | ⟨g, hd⟩ | ⟨hd, -, -⟩
        · subst hd; rw [placeholder_n] at h; simp at h
        · subst hd; rw [placeholder_letter] at h; simp at h; subst h; exact .here _
        · rw [hd] at h; simp at h
      · exact .pair _ _ h
    · intro h
      cases h with
      | here => exact .inl (by rw [placeholder_letter]; simp)
      | char _ _ h _ => exact absurd rfl h
      | pair _ _ h => exact .inr h
  | h3 c r hc ih =>
    rw [parse_char hc, ih]
    constructor
    · exact .char c r hc
    · intro h
      cases h with
      | here => exact absurd rfl hc
      | char _ _ _ h => exact h
      | pair => exact absurd rfl hc

end KC
