import Verif.Lemmas.Escape
import Verif.Spec.Escape
/-
  C01: escaping a property value and removing the escapes gives the value back.
  The property is false of the code in general; the exact set of values for which it holds is characterised.
-/
namespace KC
open Spec

private theorem damage_run (k : Nat) (b : Bool) (t : List UInt8) :
    damage b (List.replicate k bs ++ t) = List.replicate k bs ++ damage (if k = 0 then b else true) t := by
  induction k generalizing b with
  | zero => simp
  | succ k ih =>
    simp only [List.replicate_succ, List.cons_append, damage, ih]
    by_cases hk : k = 0 <;> simp [hk, bs]

private theorem damage_unblock (bl : List (Nat × UInt8)) (n : Nat) (h : ∀ p ∈ bl, p.2 ≠ bs) :
    damage false (unblock bl n) = unblock (bl.map corruptBlock) n := by
  induction bl with
  | nil => have := damage_run n false []; simpa [unblock, damage] using this
  | cons p t ih =>
    obtain ⟨k, c⟩ := p
    have hc : c ≠ bs := h (k, c) (by simp)
    have hc' : (c == 92) = false := by simpa using hc
    simp only [unblock, damage_run, damage, hc', ih (fun q hq => h q (by simp [hq])), List.map_cons]
    by_cases hk : k = 0
    · simp [hk, corruptBlock, unblock]
    · simp only [hk, if_false, corruptBlock]
      by_cases a1 : c = 110
      · simp [a1, unblock, hk]
      by_cases a2 : c = 78
      · simp [a2, unblock, hk]
      by_cases a3 : c = 114
      · simp [a3, unblock, hk]
      simp [a1, a2, a3, unblock]

/-- C01, exact form. For every byte string and both comma modes: writing a value and reading it back gives the
    value with every n, N, r directly after a backslash replaced by LF, LF, CR - and nothing else changed. -/
theorem C01_escape_exact (s : QByteArray) (excludeComma : Bool) :
    removeEscapes (addEscapes s excludeComma) = damage false s := by
  obtain ⟨bl, n, rfl, h⟩ := exists_blocks s
  rw [removeEscapes_addEscapes_unblock bl n excludeComma h, damage_unblock bl n h]

private theorem damage_fix (s : List UInt8) :
    (damage false s = s ↔ EscapeSafe s) ∧
    (damage true s = s ↔ (∀ c t, s = c :: t → c ≠ 110 ∧ c ≠ 78 ∧ c ≠ 114) ∧ EscapeSafe s) := by
  induction s with
  | nil => constructor <;> simp [damage, EscapeSafe]
  | cons c t ih =>
    obtain ⟨ih1, ih2⟩ := ih
    have tail : (c ≠ 92 → (EscapeSafe (c :: t) ↔ EscapeSafe t)) ∧
        (c = 92 → (EscapeSafe (c :: t) ↔
          (∀ d r, t = d :: r → d ≠ 110 ∧ d ≠ 78 ∧ d ≠ 114) ∧ EscapeSafe t)) := by
      have sub : EscapeSafe (c :: t) → EscapeSafe t := by
        intro h pre post d e
        exact h (c :: pre) post d (by simp [e])
      constructor
      · intro hc
        refine ⟨sub, ?_⟩
        intro h pre post d e
        cases pre with
        | nil => simp only [List.nil_append, List.cons.injEq] at e; exact absurd e.1 hc
        | cons p pre => simp only [List.cons_append, List.cons.injEq] at e; exact h pre post d e.2
      · intro hc
        refine ⟨fun h => ⟨fun d r e => h [] r d (by simp [e, hc]), sub h⟩, ?_⟩
        intro ⟨h1, h⟩ pre post d e
        cases pre with
        | nil => simp only [List.nil_append, List.cons.injEq] at e; exact h1 d post e.2
        | cons p pre => simp only [List.cons_append, List.cons.injEq] at e; exact h pre post d e.2
    have step : damage (c == 92) t = t ↔ EscapeSafe (c :: t) := by
      by_cases hc : c = 92
      · rw [tail.2 hc]; simpa [hc] using ih2
      · rw [tail.1 hc, beq_false_of_ne hc]; exact ih1
    constructor
    · simp [damage, step]
    · have hd : ∀ (x : UInt8), ((∀ d r, c :: t = d :: r → d ≠ 110 ∧ d ≠ 78 ∧ d ≠ 114)
          ↔ (c ≠ 110 ∧ c ≠ 78 ∧ c ≠ 114)) := by
        intro _
        constructor
        · intro h; exact h c t rfl
        · rintro h d r e; cases e; exact h
      rw [hd 0, ← step]
      simp only [damage, List.cons.injEq, Bool.true_and]
      by_cases a1 : c = 110
      · simp [a1]
      by_cases a2 : c = 78
      · simp [a2]
      by_cases a3 : c = 114
      · simp [a3]
      simp [a1, a2, a3]

/-- C01: the value survives exactly when it is escape safe. -/
theorem C01_escape_roundtrip_iff (s : QByteArray) (excludeComma : Bool) :
    removeEscapes (addEscapes s excludeComma) = s ↔ EscapeSafe s := by
  rw [C01_escape_exact]; exact (damage_fix s).1

/-- Part of C01 that holds of the code: escape safe values round trip. Missing: values in which a backslash is
    followed by n, N or r - for those the claim is false (`C01_escape_roundtrip_false`). -/
theorem C01_escape_roundtrip_partial (s : QByteArray) (excludeComma : Bool) (h : EscapeSafe s) :
    removeEscapes (addEscapes s excludeComma) = s := (C01_escape_roundtrip_iff s excludeComma).2 h

/-- C01 as stated is false of the code: the value `C:\new` comes back as `C:\` LF `ew`. -/
theorem C01_escape_roundtrip_false :
    ¬ ∀ s : QByteArray, removeEscapes (addEscapes s false) = s := by
  intro h
  have := h (b! "C:\\new")
  revert this; decide

/-- Sufficient condition users can check: values without any backslash always round trip. -/
theorem C01_escape_roundtrip_no_backslash_partial (s : QByteArray) (excludeComma : Bool) (h : (92 : UInt8) ∉ s) :
    removeEscapes (addEscapes s excludeComma) = s := by
  apply C01_escape_roundtrip_partial
  intro pre post c e
  exact absurd (by simp [e] : (92 : UInt8) ∈ s) h

/-- An escaped value is a single line: it contains neither LF nor CR, so a value can never forge a content line. -/
theorem C01_escaped_is_single_line (s : QByteArray) (excludeComma : Bool) :
    (10 : UInt8) ∉ addEscapes s excludeComma ∧ (13 : UInt8) ∉ addEscapes s excludeComma := by
  rw [addEscapes_eq]
  constructor <;>
  · simp only [List.mem_flatMap, not_exists, not_and]
    intro c _
    by_cases a1 : c = 92
    · subst a1; cases excludeComma <;> decide
    by_cases a2 : c = 10
    · subst a2; cases excludeComma <;> decide
    by_cases a3 : c = 13
    · subst a3; cases excludeComma <;> decide
    by_cases a4 : c = 44
    · subst a4; cases excludeComma <;> decide
    simp [escByte, a1, a2, a3, a4, Ne.symm a2, Ne.symm a3]

-- non-vacuity: a value with every special byte, backslash runs and a trailing backslash is escape safe and round trips
example : EscapeSafe (b! "a,b\\;\\,\n\r\\") := by
  rw [← C01_escape_roundtrip_iff _ false]; decide
example : removeEscapes (addEscapes (b! "a,b\\;\\,\n\r\\") true) = b! "a,b\\;\\,\n\r\\" := by decide

end KC
