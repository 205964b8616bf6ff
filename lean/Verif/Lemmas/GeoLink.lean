import Verif.Spec.GeoLink
import Verif.Lemmas.DateTime
import Verif.Lemmas.Fields1
import Verif.Lemmas.LdifFields
import Mathlib.Data.List.TakeWhile
import Mathlib.Tactic.Linarith
import Mathlib.Tactic.FieldSimp
import Mathlib.Tactic.Ring
import Mathlib.Tactic.NormNum
import Mathlib.Tactic.Positivity
/-
  Lemmas about the numbers in the links to an address.
-/
namespace KC
open Spec

/-! ### digits -/

theorem digitsNumber_append (s t : QString) : digitsNumber (s ++ t) = digitsNumber s * 10 ^ t.length + digitsNumber t := by
  induction t using List.reverseRecOn generalizing s with
  | nil => simp [digitsNumber]
  | append_singleton t c ih =>
    have step : ∀ (l : QString), digitsNumber (l ++ [c]) = 10 * digitsNumber l + (c.toNat - 48) := by intro l; simp [digitsNumber]
    rw [← List.append_assoc, step, step, ih, List.length_append, List.length_singleton, Nat.pow_succ]
    ring

private theorem digitsNumber_single (c : UInt16) : digitsNumber [c] = c.toNat - 48 := by simp [digitsNumber]

theorem digitsNumber_dec (n : Nat) : digitsNumber (dec n) = n := by
  induction n using Nat.strongRecOn with
  | _ n ih =>
    by_cases h : n < 10
    · rw [dec_lt10 n h, digitsNumber_single]; exact (dig_facts n h).2.2.2.2.2.2.1
    · rw [dec_step n (by omega), digitsNumber_append, ih (n / 10) (by omega), digitsNumber_single, (dig_facts (n % 10) (by omega)).2.2.2.2.2.2.1]
      simp only [List.length_singleton, Nat.pow_one]
      omega

private theorem dig_digit (n : Nat) (h : n < 10) : 48 ≤ (dig n).toNat ∧ (dig n).toNat ≤ 57 := by
  have : ∀ n : Fin 10, 48 ≤ (dig n.val).toNat ∧ (dig n.val).toNat ≤ 57 := by decide
  exact this ⟨n, h⟩

theorem placesOf_length (k r : Nat) : (placesOf k r).length = k := by
  induction k with
  | zero => rfl
  | succ k ih => simp [placesOf, ih]

theorem placesOf_digits (k r : Nat) : ∀ c ∈ placesOf k r, 48 ≤ c.toNat ∧ c.toNat ≤ 57 := by
  induction k with
  | zero => simp [placesOf]
  | succ k ih =>
    intro c hc
    simp only [placesOf, List.mem_cons] at hc
    rcases hc with rfl | hc
    · exact dig_digit _ (Nat.mod_lt _ (by omega))
    · exact ih c hc

theorem placesOf_number (k r : Nat) : digitsNumber (placesOf k r) = r % 10 ^ k := by
  induction k with
  | zero => simp [placesOf, digitsNumber, Nat.mod_one]
  | succ k ih =>
    have h := (dig_facts (r / 10 ^ k % 10) (Nat.mod_lt _ (by omega))).2.2.2.2.2.2.1
    show digitsNumber ([dig (r / 10 ^ k % 10)] ++ placesOf k r) = _
    rw [digitsNumber_append, placesOf_length, ih, digitsNumber_single, h, Nat.pow_succ, Nat.mod_mul]
    ring

private theorem zeros (j : Nat) : digitsNumber (List.replicate j 48) = 0 := by
  induction j with
  | zero => rfl
  | succ j ih => rw [List.replicate_succ', digitsNumber_append, ih, digitsNumber_single]; rfl

theorem noZerosAtEnd_split (s : QString) : ∃ j, s = noZerosAtEnd s ++ List.replicate j 48 := by
  unfold noZerosAtEnd
  refine ⟨(s.reverse.takeWhile (· = 48)).length, ?_⟩
  have h1 := List.takeWhile_append_dropWhile (p := fun c : UInt16 => decide (c = 48)) (l := s.reverse)
  have h2 : s.reverse.takeWhile (fun c : UInt16 => decide (c = 48)) = List.replicate (s.reverse.takeWhile (fun c : UInt16 => decide (c = 48))).length 48 := by
    refine List.eq_replicate_iff.2 ⟨rfl, fun c hc => ?_⟩
    simpa using List.mem_takeWhile_imp hc
  have h3 := congrArg List.reverse h1
  rw [List.reverse_append, List.reverse_reverse] at h3
  conv => lhs; rw [← h3]
  congr 1
  conv => lhs; rw [h2]
  exact List.reverse_replicate

/-- The text without an exponent stands for `m / 10^k`. -/
theorem plainNumber_writes (negative : Bool) (m k : Nat) :
    WritesNumber ((if negative then [qc! '-'] else []) ++ plainNumber m k) ((if negative then -1 else 1) * ((m : ℚ) / 10 ^ k)) := by
  obtain ⟨j, hj⟩ := noZerosAtEnd_split (placesOf k (m % 10 ^ k))
  refine ⟨negative, dec (m / 10 ^ k), noZerosAtEnd (placesOf k (m % 10 ^ k)), ?_, ?_, ?_, ?_⟩
  · intro h
    have := dec_ne (m / 10 ^ k)
    rw [h] at this
    simp at this
  · intro c hc
    rcases List.mem_append.1 hc with h | h
    · exact dec_chars _ c h
    · refine placesOf_digits k (m % 10 ^ k) c ?_
      rw [hj]
      exact List.mem_append_left _ h
  · unfold plainNumber withPoint
    simp only [List.isEmpty_iff, List.append_assoc]
  · congr 1
    have hlen : k = (noZerosAtEnd (placesOf k (m % 10 ^ k))).length + j := by
      have := congrArg List.length hj
      rwa [placesOf_length, List.length_append, List.length_replicate] at this
    have hnum : m = digitsNumber (dec (m / 10 ^ k) ++ noZerosAtEnd (placesOf k (m % 10 ^ k))) * 10 ^ j := by
      have h1 := digitsNumber_append (dec (m / 10 ^ k)) (placesOf k (m % 10 ^ k))
      rw [placesOf_length, placesOf_number, digitsNumber_dec, Nat.mod_mod, Nat.div_add_mod'] at h1
      rw [hj, ← List.append_assoc, digitsNumber_append, List.length_replicate, zeros, Nat.add_zero] at h1
      exact h1.symm
    generalize digitsNumber _ = N at hnum ⊢
    generalize (noZerosAtEnd _).length = l at hlen ⊢
    rw [hnum, hlen, pow_add]
    push_cast
    field_simp

/-- A text with an exponent is not a number in a link. -/
theorem scientific_not (s : QString) (m k : Nat) (x : ℚ) : ¬ WritesNumber (s ++ scientific m k) x := by
  rintro ⟨negative, whole, places, _, hd, he, _⟩
  have h1 : qc! 'e' ∈ s ++ scientific m k := by unfold scientific; simp
  rw [he] at h1
  have hno : ∀ l : QString, (∀ c ∈ l, 48 ≤ c.toNat ∧ c.toNat ≤ 57) → qc! 'e' ∉ l := by
    intro l hl h
    exact absurd (hl _ h).2 (by decide)
  simp only [List.mem_append] at h1
  rcases h1 with (h | h) | h
  · split at h <;> simp at h
  · exact hno whole (fun c hc => hd c (by simp [hc])) h
  · split at h
    · simp at h
    · rcases List.mem_cons.1 h with h | h
      · exact absurd h (by decide)
      · exact hno places (fun c hc => hd c (by simp [hc])) h

/-! ### rounding -/

theorem sixDigitPlaces_min (a fuel k : Nat) (j : Nat) (h1 : k ≤ j) (h2 : j < sixDigitPlaces a fuel k) : a * 10 ^ j < 10 ^ 5 * 2 ^ 149 := by
  induction fuel generalizing k with
  | zero => simp only [sixDigitPlaces] at h2; omega
  | succ f ih =>
    simp only [sixDigitPlaces] at h2
    split at h2
    · omega
    · rename_i hn
      rcases Nat.eq_or_lt_of_le h1 with rfl | h
      · omega
      · exact ih (k + 1) h h2

theorem sixDigitPlaces_le (a fuel k j : Nat) (h1 : k ≤ j) (h2 : j ≤ k + fuel) (h : 10 ^ 5 * 2 ^ 149 ≤ a * 10 ^ j) :
    sixDigitPlaces a fuel k ≤ j ∧ 10 ^ 5 * 2 ^ 149 ≤ a * 10 ^ sixDigitPlaces a fuel k := by
  induction fuel generalizing k with
  | zero =>
    have : j = k := by omega
    subst this
    exact ⟨Nat.le_refl _, h⟩
  | succ f ih =>
    simp only [sixDigitPlaces]
    split
    · exact ⟨h1, by assumption⟩
    · rename_i hn
      have : k ≠ j := by rintro rfl; exact hn h
      exact ih (k + 1) (by omega) (by omega)

theorem sixDigitPlaces_ok (a : Nat) (h : 0 < a) : 10 ^ 5 * 2 ^ 149 ≤ a * 10 ^ sixDigitPlaces a 50 0 := by
  refine (sixDigitPlaces_le a 50 0 50 (by omega) (by omega) ?_).2
  calc 10 ^ 5 * 2 ^ 149 ≤ 1 * 10 ^ 50 := by decide +kernel
    _ ≤ a * 10 ^ 50 := Nat.mul_le_mul_right _ h

/-- Places behind the point: at least as many as make the number smaller than six digits without them. -/
theorem sixDigitPlaces_ge (a j : Nat) (ha : 0 < a) (h : a * 10 ^ j < 10 ^ 5 * 2 ^ 149) : j < sixDigitPlaces a 50 0 := by
  by_contra hc
  have h1 := sixDigitPlaces_ok a ha
  have h2 : a * 10 ^ sixDigitPlaces a 50 0 ≤ a * 10 ^ j := Nat.mul_le_mul_left _ (Nat.pow_le_pow_right (by omega) (by omega))
  omega

/-- Rounding to a whole number: off by at most one half. -/
theorem rounded (b d : Nat) (hd : 0 < d) :
    2 * ((2 * b + d) / (2 * d) * d) ≤ 2 * b + d ∧ 2 * b ≤ 2 * ((2 * b + d) / (2 * d) * d) + d := by
  have h1 := Nat.div_mul_le_self (2 * b + d) (2 * d)
  have h2 := Nat.lt_div_mul_add (a := 2 * b + d) (b := 2 * d) (by omega)
  have e : (2 * b + d) / (2 * d) * (2 * d) = 2 * ((2 * b + d) / (2 * d) * d) := by ring
  rw [e] at h1 h2
  omega

/-- The rounded number of `numberText`. -/
def sixDigits (a : Nat) : Nat := (2 * (a * 10 ^ sixDigitPlaces a 50 0) + 2 ^ 149) / (2 * 2 ^ 149)

theorem sixDigits_close (a : Nat) :
    |((sixDigits a : ℚ) / 10 ^ sixDigitPlaces a 50 0) - (a : ℚ) / 2 ^ 149| ≤ 1 / (2 * 10 ^ sixDigitPlaces a 50 0) := by
  have hD : 0 < 2 ^ 149 := by decide +kernel
  have h := rounded (a * 10 ^ sixDigitPlaces a 50 0) (2 ^ 149) hD
  change 2 * (sixDigits a * 2 ^ 149) ≤ _ ∧ _ ≤ 2 * (sixDigits a * 2 ^ 149) + _ at h
  have h1 : (2 * (sixDigits a * 2 ^ 149) : ℚ) ≤ 2 * (a * 10 ^ sixDigitPlaces a 50 0) + 2 ^ 149 := by exact_mod_cast h.1
  have h2 : (2 * (a * 10 ^ sixDigitPlaces a 50 0) : ℚ) ≤ 2 * (sixDigits a * 2 ^ 149) + 2 ^ 149 := by exact_mod_cast h.2
  generalize sixDigits a = m at h1 h2 ⊢
  generalize sixDigitPlaces a 50 0 = k at h1 h2 ⊢
  have hk : (0 : ℚ) < 10 ^ k := by positivity
  have hd : (0 : ℚ) < 2 ^ 149 := by positivity
  generalize (10 : ℚ) ^ k = K at h1 h2 hk ⊢
  generalize (2 : ℚ) ^ 149 = D at h1 h2 hd ⊢
  have e : (m : ℚ) / K - a / D = (2 * (m * D) - 2 * (a * K)) / (2 * K * D) := by field_simp
  have e2 : 1 / (2 * K) = D / (2 * K * D) := by field_simp
  rw [e, e2, abs_div, abs_of_pos (show 0 < 2 * K * D by positivity)]
  refine div_le_div_of_nonneg_right ?_ (by positivity)
  rw [abs_le]
  constructor <;> linarith

/-- Which numbers are written without an exponent. -/
theorem plain_iff (a : Nat) (ha : 0 < a) :
    ¬ sixDigits a * 10 ^ 4 < 10 ^ sixDigitPlaces a 50 0 ↔ 1999999 * 2 ^ 149 ≤ 20000000000 * a := by
  have hD : 0 < 2 ^ 149 := by decide +kernel
  have hr := rounded (a * 10 ^ sixDigitPlaces a 50 0) (2 ^ 149) hD
  change 2 * (sixDigits a * 2 ^ 149) ≤ _ ∧ _ ≤ 2 * (sixDigits a * 2 ^ 149) + _ at hr
  have hlow : ∀ x, 2 * (x * 2 ^ 149) ≤ 2 * (a * 10 ^ sixDigitPlaces a 50 0) + 2 ^ 149 → x ≤ sixDigits a := by
    intro x hx
    refine (Nat.le_div_iff_mul_le (by omega)).2 ?_
    rw [show x * (2 * 2 ^ 149) = 2 * (x * 2 ^ 149) by ring]
    exact hx
  have hok := sixDigitPlaces_ok a ha
  have hmin := sixDigitPlaces_min a 50 0
  have hle := fun j hj h => (sixDigitPlaces_le a 50 0 j (Nat.zero_le _) hj h).1
  have hge := sixDigitPlaces_ge a
  generalize sixDigits a = m at *
  generalize sixDigitPlaces a 50 0 = k at *
  generalize hDD : 2 ^ 149 = D at *
  by_cases h9 : 10 ^ 5 * D ≤ a * 10 ^ 9
  · have hk := hle 9 (by omega) h9
    have hm := hlow (10 ^ 5) (by omega)
    have : 10 ^ k ≤ 10 ^ 9 := Nat.pow_le_pow_right (by omega) hk
    constructor <;> intro _ <;> omega
  · have hk : 9 < k := hge 9 ha (by omega)
    by_cases h10 : 10 ^ 5 * D ≤ a * 10 ^ 10
    · have hk2 := hle 10 (by omega) h10
      have : k = 10 := by omega
      subst this
      constructor
      · intro h
        have hm : 10 ^ 6 ≤ m := by omega
        have : 10 ^ 6 * D ≤ m * D := Nat.mul_le_mul_right _ hm
        omega
      · intro h
        have := hlow (10 ^ 6) (by omega)
        omega
    · have hk2 : 10 < k := hge 10 ha (by omega)
      have h3 := hmin (k - 1) (Nat.zero_le _) (by omega)
      have h4 : a * 10 ^ k < 10 ^ 6 * D := by
        have : a * 10 ^ k = a * 10 ^ (k - 1) * 10 := by
          conv => lhs; rw [show k = k - 1 + 1 by omega, pow_succ]
          ring
        omega
      have h5 : m ≤ 10 ^ 6 := by
        by_contra hc
        have : (10 ^ 6 + 1) * D ≤ m * D := Nat.mul_le_mul_right _ (by omega)
        omega
      have h6 : 10 ^ 11 ≤ 10 ^ k := Nat.pow_le_pow_right (by omega) hk2
      constructor <;> intro _ <;> omega

theorem numberText_eq (n : Int) (h : n ≠ 0) : numberText n = (if n < 0 then [qc! '-'] else []) ++
    (if sixDigits n.natAbs * 10 ^ 4 < 10 ^ sixDigitPlaces n.natAbs 50 0 then scientific (sixDigits n.natAbs) (sixDigitPlaces n.natAbs 50 0)
     else plainNumber (sixDigits n.natAbs) (sixDigitPlaces n.natAbs 50 0)) := by
  rw [numberText, if_neg h]
  rfl

theorem sixDigits_CloseTo (a : Nat) (ha : 0 < a) : CloseTo ((sixDigits a : ℚ) / 10 ^ sixDigitPlaces a 50 0) ((a : ℚ) / 2 ^ 149) := by
  have hc := sixDigits_close a
  have hok := sixDigitPlaces_ok a ha
  have hge := sixDigitPlaces_ge a
  have hn : (0 : ℚ) ≤ (a : ℚ) / 2 ^ 149 := by positivity
  have hd : (0 : ℚ) < 2 ^ 149 := by positivity
  have hk : (0 : ℚ) < 10 ^ sixDigitPlaces a 50 0 := by positivity
  unfold CloseTo
  rw [abs_of_nonneg hn]
  refine ⟨hc.trans ?_, fun h => hc.trans ?_, fun h => hc.trans ?_⟩
  · have : (10 ^ 5 * 2 ^ 149 : ℚ) ≤ a * 10 ^ sixDigitPlaces a 50 0 := by exact_mod_cast hok
    rw [div_div, div_le_div_iff₀ (by positivity) (by positivity)]
    linarith
  · rw [div_le_iff₀ hd] at h
    have h' : a ≤ 180 * 2 ^ 149 := by exact_mod_cast h
    have : 2 < sixDigitPlaces a 50 0 := hge 2 ha (by omega)
    have h3 : (10 : ℚ) ^ 3 ≤ 10 ^ sixDigitPlaces a 50 0 := pow_le_pow_right₀ (by norm_num) this
    rw [div_le_div_iff₀ (by positivity) (by positivity)]
    linarith
  · rw [div_lt_iff₀ hd] at h
    have h' : a < 100 * 2 ^ 149 := by exact_mod_cast h
    have : 3 < sixDigitPlaces a 50 0 := hge 3 ha (by omega)
    have h3 : (10 : ℚ) ^ 4 ≤ 10 ^ sixDigitPlaces a 50 0 := pow_le_pow_right₀ (by norm_num) this
    rw [div_le_div_iff₀ (by positivity) (by positivity)]
    linarith

theorem CloseTo_neg (x d : ℚ) (h : CloseTo x d) : CloseTo (-x) (-d) := by
  unfold CloseTo at h ⊢
  rw [abs_neg, show -x - -d = -(x - d) by ring, abs_neg]
  exact h

theorem numberText_writes (n : Int) (h : n = 0 ∨ 1999999 * 2 ^ 149 ≤ 20000000000 * n.natAbs) :
    ∃ x, WritesNumber (numberText n) x ∧ CloseTo x ((n : ℚ) / 2 ^ 149) := by
  by_cases h0 : n = 0
  · subst h0
    refine ⟨0, ⟨false, q! "0", [], by decide, by decide, by decide, ?_⟩, ?_⟩
    · simp [digitsNumber]
    · simp [CloseTo]
  · have ha : 0 < n.natAbs := by omega
    have hp := (plain_iff n.natAbs ha).2 (h.resolve_left h0)
    rw [numberText_eq n h0, if_neg hp]
    have hw := plainNumber_writes (decide (n < 0)) (sixDigits n.natAbs) (sixDigitPlaces n.natAbs 50 0)
    have hc := sixDigits_CloseTo n.natAbs ha
    simp only [decide_eq_true_eq] at hw
    refine ⟨_, hw, ?_⟩
    by_cases hneg : n < 0
    · rw [if_pos hneg, neg_one_mul]
      have : (n : ℚ) / 2 ^ 149 = -((n.natAbs : ℚ) / 2 ^ 149) := by
        rw [Nat.cast_natAbs, abs_of_neg hneg, Int.cast_neg, neg_div, neg_neg]
      rw [this]
      exact CloseTo_neg _ _ hc
    · rw [if_neg hneg, one_mul]
      have : (n : ℚ) = (n.natAbs : ℚ) := by
        rw [Nat.cast_natAbs, abs_of_nonneg (by omega)]
      rw [this]
      exact hc

theorem numberText_exponent (n : Int) (h : ¬ (n = 0 ∨ 1999999 * 2 ^ 149 ≤ 20000000000 * n.natAbs)) (x : ℚ) : ¬ WritesNumber (numberText n) x := by
  have h0 : n ≠ 0 := fun e => h (.inl e)
  have ha : 0 < n.natAbs := by omega
  have hp : sixDigits n.natAbs * 10 ^ 4 < 10 ^ sixDigitPlaces n.natAbs 50 0 := by
    by_contra hc
    exact h (.inr ((plain_iff n.natAbs ha).1 hc))
  rw [numberText_eq n h0, if_pos hp]
  exact scientific_not _ _ _ _

/-! ### the text of the search -/

/-- For a geo query only the parts that say where it is matter. -/
theorem geo_formatted (E : FormatEnv) (a b : Address) (h : samePlace a b) : a.formatted E .geoUriQuery [] [] = b.formatted E .geoUriQuery [] [] := by
  obtain ⟨h1, h2, h3, h4, h5, h6⟩ := h
  let A : FormatArgs := ⟨E, a, [], [], E.formatForAddress a false, .geoUriQuery⟩
  let B : FormatArgs := ⟨E, b, [], [], E.formatForAddress b false, .geoUriQuery⟩
  show A.text = B.text
  have hf : A.format = B.format := by
    show E.formatForAddress a false = E.formatForAddress b false
    unfold FormatEnv.formatForAddress FormatEnv.countryFor FormatEnv.detect
    rw [h1, h3, h6]
  have he : ∀ f, A.isFieldEmpty f = B.isFieldEmpty f := by
    intro f
    unfold FormatArgs.isFieldEmpty
    have hp : hasField AStyle.geoUriQuery.data.includeFields .postOfficeBox = false := by decide
    cases f <;> simp [A, B, h1, h2, h3, h4, h5, h6, FormatArgs.included, hp]
  have hcn : A.countryName = B.countryName := by
    unfold FormatArgs.countryName
    rw [hf]
    simp only [A, B, h6]
  have hv : ∀ f, A.included f = true → A.fieldValue f = B.fieldValue f := by
    intro f hi
    unfold FormatArgs.fieldValue
    rw [hf, hcn]
    have hp : hasField AStyle.geoUriQuery.data.includeFields .postOfficeBox = false := by decide
    cases f <;> first | (simp [A, FormatArgs.included, hp] at hi; done) | simp [A, B, h1, h2, h3, h4, h5]
  have hc : ∀ e, A.hasContent e = B.hasContent e := by
    intro e
    cases e <;> simp only [FormatArgs.hasContent, he]
  have hw : ∀ l, A.walkBack l = B.walkBack l := by
    intro l
    induction l with
    | nil => rfl
    | cons e r ih => cases e <;> simp only [FormatArgs.walkBack, hc, ih]
  have hn : ∀ l, A.nextEmpty l = B.nextEmpty l := by
    intro l
    unfold FormatArgs.nextEmpty
    split <;> simp only [he]
  have hi : ∀ f, A.included f = B.included f := fun _ => rfl
  have hs : ∀ prev e next s, A.step prev e next s = B.step prev e next s := by
    intro prev e next s
    cases e with
    | sep => rfl
    | lit l => simp only [FormatArgs.step, hw, hn]; rfl
    | field f =>
      simp only [FormatArgs.step, ← hi]
      by_cases hin : A.included f = true
      · rw [hv f hin]
        simp [hin, A, B]
      · simp [hin]
  have hl : ∀ es prev s, A.loop prev es s = B.loop prev es s := by
    intro es
    induction es with
    | nil => intro _ _; rfl
    | cons e r ih => intro prev s; simp only [FormatArgs.loop, hs, ih]
  have hb : A.bodyLines = B.bodyLines := by
    unfold FormatArgs.bodyLines
    rw [hl, hf]
  have hac : A.addCountry = B.addCountry := by
    unfold FormatArgs.addCountry
    rw [hf]
    simp only [A, B, h6]
  have hall : A.allLines = B.allLines := by
    unfold FormatArgs.allLines
    rw [hb, hac, hcn, hf]
  unfold FormatArgs.text
  rw [hall]
  rfl

end KC
