import Verif.Model.Values
/-
  C52: normalised phone numbers.
-/
namespace KC

theorem normalizeLoop_eq (E : QtEnv) (s : QString) (a : UInt16) (r : QString) :
    normalizeLoop E (a :: r) s = a :: r ++ s.filter (E.isDigit ·) := by
  induction s generalizing r with
  | nil => simp [normalizeLoop]
  | cons c t ih =>
    simp only [normalizeLoop]
    by_cases hd : E.isDigit c = true
    · rw [List.filter_cons_of_pos hd]
      simp only [hd, Bool.true_or, if_true, List.cons_append]
      rw [ih]; simp
    · rw [List.filter_cons_of_neg hd]
      simp [hd, ih]

/-- Shape of a normalised number: an optional leading plus, then the digits of the text in order. -/
theorem normalized_shape (E : QtEnv) (s : QString) :
    normalizeLoop E [] s = s.filter (E.isDigit ·) ∨ normalizeLoop E [] s = qc! '+' :: s.filter (E.isDigit ·) := by
  induction s with
  | nil => left; rfl
  | cons c t ih =>
    simp only [normalizeLoop]
    by_cases hd : E.isDigit c = true
    · rw [List.filter_cons_of_pos hd]
      simp only [hd, Bool.true_or, if_true, List.nil_append]
      rw [normalizeLoop_eq]; simp
    · rw [List.filter_cons_of_neg hd]
      by_cases hp : c = qc! '+'
      · simp only [hp, beq_self_eq_true, List.isEmpty_nil, Bool.and_self, Bool.or_true, if_true, List.nil_append]
        rw [normalizeLoop_eq]; right; simp
      · have : (c == qc! '+') = false := by simpa using hp
        simp only [hd, this, Bool.false_and, Bool.or_self, Bool.false_eq_true, if_false]
        exact ih

/-- Only digits and at most one plus, which is in front; all digits of the number, in order; and the plus is there exactly if a
    plus stands before the first digit of the number. -/
theorem C52_digits_and_plus (E : QtEnv) (p : PhoneNumber) :
    p.normalizedNumber E =
      (if qc! '+' ∈ p.number.takeWhile (fun c => !E.isDigit c) then [qc! '+'] else []) ++ p.number.filter (E.isDigit ·) := by
  unfold PhoneNumber.normalizedNumber
  generalize p.number = s
  induction s with
  | nil => rfl
  | cons c t ih =>
    simp only [normalizeLoop]
    by_cases hd : E.isDigit c = true
    · rw [List.filter_cons_of_pos hd]
      simp only [hd, Bool.true_or, if_true, List.nil_append]
      rw [normalizeLoop_eq]; simp [hd]
    · rw [List.filter_cons_of_neg hd]
      by_cases hp : c = qc! '+'
      · simp only [hp, beq_self_eq_true, List.isEmpty_nil, Bool.and_self, Bool.or_true, if_true, List.nil_append]
        have hd' : E.isDigit (qc! '+') = false := rfl
        rw [normalizeLoop_eq]; simp [List.takeWhile_cons, hd']
      · have : (c == qc! '+') = false := by simpa using hp
        simp only [hd, this, Bool.false_and, Bool.or_self, Bool.false_eq_true, if_false, ih]
        simp [List.takeWhile_cons, hd, Ne.symm hp]

/-- For numbers in ASCII the digits are 0 to 9, whatever the environment. -/
theorem C52_ascii (E : QtEnv) (p : PhoneNumber) (h : ∀ c ∈ p.number, c.toNat < 128) :
    p.normalizedNumber E =
      (if qc! '+' ∈ p.number.takeWhile (fun c => decide (c ∉ q! "0123456789")) then [qc! '+'] else []) ++ p.number.filter (fun c => decide (c ∈ q! "0123456789")) := by
  have key : ∀ n : Fin 128, decide (48 ≤ n.val ∧ n.val ≤ 57) = decide (UInt16.ofNat n.val ∈ q! "0123456789") := by decide
  have hd : ∀ c ∈ p.number, E.isDigit c = decide (c ∈ q! "0123456789") := by
    intro c hc
    have := key ⟨c.toNat, h c hc⟩
    rw [UInt16.ofNat_toNat] at this
    rw [← this, QtEnv.isDigit, if_pos (h c hc)]
  rw [C52_digits_and_plus, List.filter_congr hd]
  have ht : ∀ l : QString, (∀ c ∈ l, E.isDigit c = decide (c ∈ q! "0123456789")) →
      l.takeWhile (fun c => !E.isDigit c) = l.takeWhile (fun c => decide (c ∉ q! "0123456789")) := by
    intro l
    induction l with
    | nil => intro _; rfl
    | cons a l ih =>
      intro hl
      rw [List.takeWhile_cons, List.takeWhile_cons, ih fun c hc => hl c (by simp [hc]), hl a (by simp), ← decide_not]
  rw [ht _ hd]

example : (PhoneNumber.mk' [] (q! " (+49)  (0)30 12+3") 1).number.all (fun c => decide (c.toNat < 128)) = true := by decide

/-- The normalised form is a fixed point of normalisation. -/
theorem C52_idempotent (E : QtEnv) (p q : PhoneNumber) (h : q.number = p.normalizedNumber E) :
    q.normalizedNumber E = p.normalizedNumber E := by
  have hd' : E.isDigit (qc! '+') = false := rfl
  rw [C52_digits_and_plus, h]
  unfold PhoneNumber.normalizedNumber
  rcases normalized_shape E p.number with e | e <;> rw [e]
  · rw [List.filter_filter]
    have htw : qc! '+' ∉ (List.filter (fun x => E.isDigit x) p.number).takeWhile (fun c => !E.isDigit c) := by
      intro hm
      have := List.mem_filter.1 (List.Sublist.mem hm (List.takeWhile_sublist _))
      rw [hd'] at this; exact absurd this.2 (by simp)
    rw [if_neg htw]; simp
  · simp [List.takeWhile_cons, List.filter_cons, hd', List.filter_filter]

/-- Storing the normalised form as the number of an object keeps it (no white space to clean up), for environments where no white
    space character is a digit. -/
theorem C52_set_normalized (E : QtEnv) (p q : PhoneNumber) (hE : ∀ c, isSpaceQ c = true → E.isDigit c = false) :
    (q.setNumber (p.normalizedNumber E)).normalizedNumber E = p.normalizedNumber E := by
  apply C52_idempotent
  simp only [PhoneNumber.setNumber, cleanupNumber]
  have hns : ∀ c ∈ p.normalizedNumber E, isSpaceQ c = false := by
    intro c hc
    have hfil : ∀ c ∈ p.number.filter (E.isDigit ·), isSpaceQ c = false := by
      intro c hc
      cases hs : isSpaceQ c with
      | false => rfl
      | true => have := (List.mem_filter.1 hc).2; rw [hE c hs] at this; cases this
    rw [C52_digits_and_plus, List.mem_append] at hc
    rcases hc with hc | hc
    · split at hc
      · simp only [List.mem_singleton] at hc; subst hc; rfl
      · simp at hc
    · exact hfil c hc
  revert hns
  generalize p.normalizedNumber E = s
  intro hns
  have hw : ∀ (s : QString) (_ : ∀ c ∈ s, isSpaceQ c = false), words isSpaceQ s = if s = [] then [] else [s] := by
    intro s
    induction s with
    | nil => intro _; rfl
    | cons x t ih =>
      intro h
      have hx := h x (by simp)
      cases t with
      | nil => simp [words, hx]
      | cons y r =>
        have hy := h y (by simp)
        rw [words, ih (fun c hc => h c (List.mem_cons_of_mem _ hc))]
        simp [hx, hy]
  rw [simplified, hw s hns]
  split
  · rename_i e; rw [e]; rfl
  · rfl

/-- Non-vacuity: an environment without further digits; "+49 (0)30 12+3". -/
example :
    let E : QtEnv := ⟨fun _ => true, id, fun _ => false, fun _ => none, fun _ _ _ => 0⟩
    (∀ c, isSpaceQ c = true → c.toNat ≥ 128 → E.isDigit c = false) ∧
    (PhoneNumber.mk' [] (q! " (+49)  (0)30 12+3") 1).normalizedNumber E = q! "+49030123" := by
  refine ⟨?_, by decide⟩
  intro c _ h; simp [QtEnv.isDigit, Nat.not_lt.2 h]

end KC
