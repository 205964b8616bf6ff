import Verif.Model.DateTime
import Verif.Spec.DateTime
import Verif.Lemmas.Reader
/- Lemmas for dates and times. -/
namespace KC

/-- The test for valid dates is the calendar. -/
theorem validDate_iff (y : Int) (m d : Nat) : validDate y m d = true ↔ RealDay (y, m, d) := by
  have hl : ∀ y : Int, y ≠ 0 → (isLeap y = true ↔ LeapYear (if y < 0 then y + 1 else y)) := by
    intro y h0
    have e : (if y < 1 then y + 1 else y) = (if y < 0 then y + 1 else y) := by
      by_cases h : y < 0
      · rw [if_pos h, if_pos (by omega)]
      · rw [if_neg h, if_neg (by omega)]
    unfold isLeap LeapYear
    simp only [e, ne_eq, Bool.and_eq_true, Bool.or_eq_true, decide_eq_true_eq]
    generalize (if y < 0 then y + 1 else y) = z
    omega
  unfold validDate RealDay
  simp only [Bool.and_eq_true, decide_eq_true_eq, ne_eq]
  by_cases h0 : y = 0
  · simp [h0]
  have hl := hl y h0
  generalize (if y < 0 then y + 1 else y) = z at hl ⊢
  have hm : 1 ≤ m → m ≤ 12 → ((d : Int) ≤ daysInMonth y m ↔ d ≤ (monthDays z).getD (m - 1) 0) := by
    intro h1 h2
    unfold daysInMonth monthDays
    have : m = 1 ∨ m = 2 ∨ m = 3 ∨ m = 4 ∨ m = 5 ∨ m = 6 ∨ m = 7 ∨ m = 8 ∨ m = 9 ∨ m = 10 ∨ m = 11 ∨ m = 12 := by omega
    by_cases hz : LeapYear z
    · have hy := hl.2 hz
      rcases this with rfl | rfl | rfl | rfl | rfl | rfl | rfl | rfl | rfl | rfl | rfl | rfl <;> simp [hy, hz] <;> omega
    · have hy : ¬ isLeap y = true := fun h => hz (hl.1 h)
      rcases this with rfl | rfl | rfl | rfl | rfl | rfl | rfl | rfl | rfl | rfl | rfl | rfl <;> simp [hy, hz] <;> omega
  constructor
  · rintro ⟨⟨⟨⟨a, b⟩, c⟩, e⟩, f⟩
    exact ⟨h0, by omega, by omega, by omega, (hm (by omega) (by omega)).1 f⟩
  · rintro ⟨a, b, c, e, f⟩
    exact ⟨⟨⟨⟨a, by omega⟩, by omega⟩, by omega⟩, (hm b c).2 f⟩

theorem RealDay.valid {d : Int × Nat × Nat} (h : RealDay d) : validDate d.1 d.2.1 d.2.2 = true := (validDate_iff _ _ _).2 h
theorem DateOK.valid {d : Int × Nat × Nat} (h : DateOK d) : validDate d.1 d.2.1 d.2.2 = true := h.day.valid


/-- the character of a digit -/
def dig (n : Nat) : UInt16 := UInt16.ofNat (48 + n)

theorem dig_facts (n : Nat) (h : n < 10) :
    dig n ≠ qc! '-' ∧ dig n ≠ qc! '+' ∧ dig n ≠ qc! ':' ∧ dig n ≠ qc! 'T' ∧ dig n ≠ qc! 'Z' ∧ ¬ (dig n < 48 || 57 < dig n) = true ∧
      (dig n).toNat - 48 = n ∧ isSpaceQ (dig n) = false := by
  have : ∀ n : Fin 10, dig n.val ≠ qc! '-' ∧ dig n.val ≠ qc! '+' ∧ dig n.val ≠ qc! ':' ∧ dig n.val ≠ qc! 'T' ∧ dig n.val ≠ qc! 'Z' ∧
      ¬ (dig n.val < 48 || 57 < dig n.val) = true ∧ (dig n.val).toNat - 48 = n.val ∧ isSpaceQ (dig n.val) = false := by decide
  exact this ⟨n, h⟩

theorem dec_lt10 (n : Nat) (h : n < 10) : dec n = [dig n] := by unfold dec decAux; simp [h, dig]
theorem decAux_fuel (n : Nat) : ∀ k k', n < k → n < k' → decAux k n = decAux k' n := by
  induction n using Nat.strongRecOn with
  | _ n ih =>
    intro k k' h h'
    obtain ⟨k, rfl⟩ : ∃ j, k = j + 1 := ⟨k - 1, by omega⟩
    obtain ⟨k', rfl⟩ : ∃ j, k' = j + 1 := ⟨k' - 1, by omega⟩
    simp only [decAux]
    split
    · rfl
    · rw [ih (n / 10) (by omega) k k' (by omega) (by omega)]
theorem dec_step (n : Nat) (h : 10 ≤ n) : dec n = dec (n / 10) ++ [dig (n % 10)] := by
  conv => lhs; unfold dec decAux
  rw [if_neg (by omega), decAux_fuel (n / 10) n (n / 10 + 1) (by omega) (by omega)]
  rfl

theorem padded2 (n : Nat) (h : n < 100) : padded 2 n = [dig (n / 10), dig (n % 10)] := by
  unfold padded
  by_cases h1 : n < 10
  · rw [dec_lt10 n h1]
    simp only [List.length_singleton, Nat.div_eq_of_lt h1, Nat.mod_eq_of_lt h1]
    rfl
  · rw [dec_step n (by omega), dec_lt10 (n / 10) (by omega)]
    rfl

theorem padded4 (n : Nat) (h : n < 10000) : padded 4 n = [dig (n / 1000), dig (n / 100 % 10), dig (n / 10 % 10), dig (n % 10)] := by
  unfold padded
  by_cases h1 : n < 10
  · rw [dec_lt10 n h1]
    simp only [List.length_singleton, Nat.div_eq_of_lt h1, Nat.mod_eq_of_lt h1, Nat.div_eq_of_lt (show n < 1000 by omega),
      Nat.div_eq_of_lt (show n < 100 by omega)]
    rfl
  by_cases h2 : n < 100
  · rw [dec_step n (by omega), dec_lt10 (n / 10) (by omega)]
    have : n / 10 % 10 = n / 10 := by omega
    rw [this, Nat.div_eq_of_lt (show n < 1000 by omega), Nat.div_eq_of_lt (show n < 100 by omega)]
    rfl
  by_cases h3 : n < 1000
  · rw [dec_step n (by omega), dec_step (n / 10) (by omega), dec_lt10 (n / 10 / 10) (by omega)]
    rw [Nat.div_eq_of_lt (show n < 1000 by omega), show n / 10 / 10 = n / 100 % 10 by omega]
    rfl
  · rw [dec_step n (by omega), dec_step (n / 10) (by omega), dec_step (n / 10 / 10) (by omega), dec_lt10 (n / 10 / 10 / 10) (by omega)]
    rw [show n / 10 / 10 / 10 = n / 1000 by omega, show n / 10 / 10 % 10 = n / 100 % 10 by omega]
    rfl

theorem dropWhile_none {α : Type} (p : α → Bool) (l : List α) (h : ∀ x ∈ l, p x = false) : l.dropWhile p = l := by
  cases l with
  | nil => rfl
  | cons a t => simp [List.dropWhile, h a (by simp)]

theorem trim_none {α : Type} (p : α → Bool) (l : List α) (h : ∀ x ∈ l, p x = false) : trim p l = l := by
  unfold trim
  rw [dropWhile_none p l h, dropWhile_none p l.reverse (by simpa using h), List.reverse_reverse]

/-- digits are read as the number they show -/
theorem toIntQ_digits (l : List Nat) (hl : ∀ d ∈ l, d < 10) (hne : l ≠ []) :
    toIntQ (l.map dig) = ((l.foldl (fun n d => 10 * n + d) 0 : Nat) : Int) := by
  unfold toIntQ
  rw [trimmedQ, trim_none isSpaceQ _ (by
    intro x hx; obtain ⟨d, hd, rfl⟩ := List.mem_map.1 hx; exact (dig_facts d (hl d hd)).2.2.2.2.2.2.2)]
  cases l with
  | nil => exact absurd rfl hne
  | cons a t =>
    have ha := dig_facts a (hl a (by simp))
    have hany : ((a :: t).map dig).any (fun c => c < 48 || 57 < c) = false := by
      rw [List.any_eq_false]
      intro x hx; obtain ⟨d, hd, rfl⟩ := List.mem_map.1 hx; exact (dig_facts d (hl d hd)).2.2.2.2.2.1
    have hfold : ∀ (l : List Nat) (n : Nat), (∀ d ∈ l, d < 10) →
        (l.map dig).foldl (fun n c => 10 * n + (c.toNat - 48)) n = l.foldl (fun n d => 10 * n + d) n := by
      intro l
      induction l with
      | nil => intros; rfl
      | cons b r ih =>
        intro n h
        simp only [List.map_cons, List.foldl_cons]
        rw [(dig_facts b (h b (by simp))).2.2.2.2.2.2.1]
        exact ih _ (fun d hd => h d (by simp [hd]))
    simp only [List.map_cons] at hany ⊢
    rw [if_neg ha.1, if_neg ha.2.1]
    simp only [List.isEmpty_cons, Bool.false_or, hany, Bool.false_eq_true, if_false]
    rw [← List.map_cons, hfold _ _ hl]

theorem toIntQ2 (n : Nat) (h : n < 100) : toIntQ [dig (n / 10), dig (n % 10)] = n := by
  have := toIntQ_digits [n / 10, n % 10] (by intro d hd; simp at hd; omega) (by simp)
  simp only [List.map_cons, List.map_nil, List.foldl_cons, List.foldl_nil] at this
  rw [this]; omega

theorem toIntQ4 (n : Nat) (h : n < 10000) : toIntQ [dig (n / 1000), dig (n / 100 % 10), dig (n / 10 % 10), dig (n % 10)] = n := by
  have := toIntQ_digits [n / 1000, n / 100 % 10, n / 10 % 10, n % 10] (by intro d hd; simp at hd; omega) (by simp)
  simp only [List.map_cons, List.map_nil, List.foldl_cons, List.foldl_nil] at this
  rw [this]; omega

end KC
