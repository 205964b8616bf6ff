import Verif.Lemmas.Compute
/-
  C16: time zone offsets survive. Holds for offsets of less than 100 hours; the text of any other offset is read as another offset.
-/
namespace KC
open Spec

/-! ### Proof -/

theorem trimmedQ_length (s : QString) : (trimmedQ s).length ≤ s.length := by
  unfold trimmedQ trim
  simp only [List.length_reverse]
  exact Nat.le_trans (List.dropWhile_sublist _).length_le (by rw [List.length_reverse]; exact (List.dropWhile_sublist _).length_le)

theorem toIntQ_le (s : QString) (h : s.length ≤ 2) : -99 ≤ toIntQ s ∧ toIntQ s ≤ 99 := by
  have hl := Nat.le_trans (trimmedQ_length s) h
  have digits : ∀ d : QString, d.length ≤ 2 → ∀ n, (if (d.isEmpty || d.any (fun c => c < 48 || 57 < c)) = true then none else
      some (d.foldl (fun n c => 10 * n + (c.toNat - 48)) 0)) = some n → n ≤ 99 := by
    intro d hd n hn
    split at hn
    · cases hn
    rename_i hn'
    have hn := (Option.some.inj hn).symm
    simp only [Bool.or_eq_true, List.isEmpty_iff, List.any_eq_true, not_or, not_exists, not_and, decide_eq_true_eq] at hn'
    have hc : ∀ c ∈ d, c.toNat ≤ 57 := by
      intro c hc
      have := (hn'.2 c hc).2
      simp only [UInt16.lt_iff_toNat_lt, Nat.not_lt] at this
      exact this
    rw [hn]
    rcases d with _ | ⟨a, _ | ⟨b, _ | ⟨e, d⟩⟩⟩
    · simp
    · have := hc a (by simp); simp; omega
    · have := hc a (by simp); have := hc b (by simp); simp; omega
    · simp at hd
  unfold toIntQ
  simp only
  cases ht : trimmedQ s with
  | nil => simp
  | cons c t =>
    rw [ht] at hl
    simp only
    have h1 := digits t (by simp at hl; omega)
    have h2 := digits (c :: t) hl
    split
    · split
      · rename_i n hn; have := h1 n hn; omega
      · omega
    · split
      · split
        · rename_i n hn; have := h1 n hn; omega
        · omega
      · split
        · rename_i n hn; have := h2 n hn; omega
        · omega

/-- C16, exactly: the text written for an offset is read as that offset if and only if the offset is less than 100 hours. -/
theorem C16_value (o : Int) : readTimeZone (timeZoneText o) = some { offset := o, isValid := true } ↔ -6000 < o ∧ o < 6000 := by
  constructor
  · intro h
    by_cases hs : -6040 < o ∧ o < 6040
    · have hd : ∀ k : Nat, k < 40 → readTimeZone (timeZoneText (6000 + (k : Int))) ≠ some { offset := 6000 + (k : Int), isValid := true } ∧
          readTimeZone (timeZoneText (-6000 - (k : Int))) ≠ some { offset := -6000 - (k : Int), isValid := true } := by decide +kernel
      by_cases h1 : 6000 ≤ o
      · have := (hd (o - 6000).toNat (by omega)).1
        rw [show (6000 : Int) + ((o - 6000).toNat : Int) = o by omega] at this
        exact absurd h this
      · by_cases h2 : o ≤ -6000
        · have := (hd (-6000 - o).toNat (by omega)).2
          rw [show (-6000 : Int) - ((-6000 - o).toNat : Int) = o by omega] at this
          exact absurd h this
        · omega
    · unfold timeZoneText readTimeZone at h
      simp only at h
      have h := congrArg TimeZone.offset (Option.some.inj h)
      simp only at h
      have hm : ∀ (s : QString) p, (mid s p 2).length ≤ 2 := fun s p => by unfold mid; rw [List.length_take]; omega
      generalize ((if o ≥ 0 then qc! '+' else qc! '-') :: _ : QString) = t at h
      have h1 := toIntQ_le _ (hm t 1)
      have h2 := toIntQ_le _ (hm t 4)
      repeat' split at h
      all_goals omega
  · exact tz_value o

/-- C16 for the card of a contact: the time zone survives (for a contact the version can carry, whose offset is less than 100 hours). -/
theorem C16_card_partial (E : ToolEnv) (v : Version) (ids : IdKind → Nat → QString) (hinj : ∀ k i j, ids k i = ids k j → i = j) (c : Contact)
    (hR : Readable E v c) (hu : ∀ i, c.uid ≠ ids .contact i) (hz : c.timeZone.isValid = true) :
    ∃ c', WrittenAndRead E v ids c c' ∧ c'.timeZone = c.timeZone := by
  have h := C24_contact E v ids hinj c hR hu
  exact ⟨_, h, if_pos hz⟩

/-- Non-vacuity: the sample contact has the offset -03:30. -/
example (v : Version) : ∃ c', WrittenAndRead Sample.env v Sample.ids Sample.contact c' ∧ c'.timeZone = { offset := -210, isValid := true } :=
  C16_card_partial Sample.env v Sample.ids Sample.ids_inj _ (C24_sample_readable v) C24_sample_uid rfl

/-- C16 is false for 100 hours: the offset is read as 10 hours. -/
theorem C16_false : ∃ c c', WrittenAndRead Sample.env .v3_0 Sample.ids c c' ∧ c.timeZone.isValid = true ∧ c'.timeZone ≠ c.timeZone := by
  obtain ⟨c', h, h2⟩ := oneBack_not (E := Sample.env) (v := .v3_0) (ids := Sample.ids) { uid := q! "u", timeZone := { offset := 6000, isValid := true } }
    (fun c' => c'.timeZone = { offset := 6000, isValid := true }) (by decide +kernel)
  exact ⟨_, c', h, rfl, h2⟩

end KC
