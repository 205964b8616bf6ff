import Verif.Spec.IsoText
import Verif.Lemmas.Fields6
/- Helper lemmas: reading a day in the extended format of ISO 8601. -/
namespace KC
open Spec

/-- ASCII text has the same bytes in UTF-8 and Latin 1 -/
theorem toUtf8_ascii (s : QString) (hs : ∀ c ∈ s, c.toNat < 128) : toUtf8 s = toLatin1 s := by
  fun_induction toUtf8 s with
  | case1 => rfl
  | case2 u =>
    have hu := hs u (by simp)
    simp [utf8Unit, if_pos hu, toLatin1, show u.toNat < 256 by omega]
  | case3 u v t hsur _ => exact absurd (hs u (by simp)) (by omega)
  | case4 u v t _ ih =>
    have hu := hs u (by simp)
    rw [ih fun x hx => hs x (by simp [List.mem_cons.1 hx])]
    simp [utf8Unit, if_pos hu, toLatin1, show u.toNat < 256 by omega]

/-- text of digits and capital letters needs no escapes -/
theorem addEscapes_plain (b : QByteArray) (ex : Bool) (h : ∀ c ∈ b, 48 ≤ c.toNat ∧ c.toNat < 92) : addEscapes b ex = b := by
  rw [addEscapes_eq]
  have : ∀ c ∈ b, escByte ex c = [c] := by
    intro c hc
    have hc := h c hc
    have n1 : c ≠ bs := by rintro rfl; exact absurd hc (by decide)
    have n2 : c ≠ 10 := by rintro rfl; exact absurd hc (by decide)
    have n3 : c ≠ 13 := by rintro rfl; exact absurd hc (by decide)
    have n4 : c ≠ 44 := by rintro rfl; exact absurd hc (by decide)
    simp [escByte, n1, n2, n3, n4]
  induction b with
  | nil => rfl
  | cons c b ih =>
    rw [List.flatMap_cons, this c (by simp), ih (fun x hx => h x (by simp [hx])) fun x hx => this x (by simp [hx])]
    rfl

theorem isPunct_iff (E : ToolEnv) (c : UInt16) : E.isPunct c = true ↔ c ∈ q! "!\"#%&'()*,-./:;?@[\\]_{}" ∨ (128 ≤ c.toNat ∧ E.widePunct c = true) := by
  have h : ∀ c ∈ q! "!\"#%&'()*,-./:;?@[\\]_{}", c.toNat < 128 := by decide
  unfold ToolEnv.isPunct
  by_cases hc : c.toNat < 128
  · rw [if_pos hc, decide_eq_true_iff]
    exact ⟨Or.inl, fun h => h.elim id fun h => absurd hc (by omega)⟩
  · rw [if_neg hc]
    exact ⟨fun h' => Or.inr ⟨by omega, h'⟩, fun h' => h'.elim (fun h' => absurd (h c h') hc) And.right⟩

theorem notDigit_iff (E : ToolEnv) (c : UInt16) : (!E.isDigit c) = true ↔ ¬ (48 ≤ c.toNat ∧ c.toNat ≤ 57) ∧ (128 ≤ c.toNat → E.wideDigit c = false) := by
  unfold QtEnv.isDigit
  by_cases hc : c.toNat < 128
  · rw [if_pos hc, Bool.not_eq_true', decide_eq_false_iff_not]
    exact ⟨fun h => ⟨h, fun h' => absurd hc (by omega)⟩, And.left⟩
  · rw [if_neg hc, Bool.not_eq_true']
    exact ⟨fun h => ⟨by omega, fun _ => h⟩, fun h => h.2 (by omega)⟩

theorem dig_of (c : UInt16) (h : (decide (48 ≤ c) && decide (c ≤ 57)) = true) : ∃ n, n < 10 ∧ c = dig n ∧ c.toNat - 48 = n := by
  simp only [Bool.and_eq_true, decide_eq_true_eq, UInt16.le_iff_toNat_le] at h
  have h1 : (48 : UInt16).toNat = 48 := rfl
  have h2 : (57 : UInt16).toNat = 57 := rfl
  rw [h1, h2] at h
  refine ⟨c.toNat - 48, by omega, ?_, rfl⟩
  unfold dig
  rw [show 48 + (c.toNat - 48) = c.toNat by omega]
  simp

theorem iso_iff (E : ToolEnv) (s : QString) (d : Int × Nat × Nat) : isoDateOf E s = some d ↔ IsoText E s d := by
  have dg : ∀ n, n < 10 → (decide (48 ≤ dig n) && decide (dig n ≤ 57)) = true := by
    intro n hn
    have := (dig_facts n hn).2.2.2.2.2.1
    simp only [Bool.or_eq_true, decide_eq_true_eq, not_or, UInt16.not_lt] at this
    simp [this]
  have dn : ∀ n, n < 10 → (dig n).toNat - 48 = n := fun n hn => (dig_facts n hn).2.2.2.2.2.2.1
  constructor
  · intro h
    unfold isoDateOf at h
    simp only at h
    split at h
    · rename_i hc
      simp only [Bool.and_eq_true, Bool.or_eq_true, decide_eq_true_eq] at hc
      obtain ⟨⟨⟨hl, hp⟩, hp'⟩, hr⟩ := hc
      match s, hl with
      | a :: b :: c :: e :: p :: m1 :: m2 :: p' :: d1 :: d2 :: rest, _ =>
      simp only [mid, List.drop_succ_cons, List.drop_zero, List.take_succ_cons, List.take_zero, List.all_cons, List.all_nil, Bool.and_true, List.foldl_cons, List.foldl_nil] at h
      split at h
      · rename_i y m dd hy hm hd
        split at hy <;> [skip; cases hy]
        split at hm <;> [skip; cases hm]
        split at hd <;> [skip; cases hd]
        rename_i ay am ad
        obtain ⟨ay1, ay⟩ := Bool.and_eq_true_iff.1 ay
        obtain ⟨ay2, ay⟩ := Bool.and_eq_true_iff.1 ay
        obtain ⟨ay3, ay4⟩ := Bool.and_eq_true_iff.1 ay
        obtain ⟨am1, am2⟩ := Bool.and_eq_true_iff.1 am
        obtain ⟨ad1, ad2⟩ := Bool.and_eq_true_iff.1 ad
        obtain ⟨n1, l1, r1, t1⟩ := dig_of a ay1
        obtain ⟨n2, l2, r2, t2⟩ := dig_of b ay2
        obtain ⟨n3, l3, r3, t3⟩ := dig_of c ay3
        obtain ⟨n4, l4, r4, t4⟩ := dig_of e ay4
        obtain ⟨n5, l5, r5, t5⟩ := dig_of m1 am1
        obtain ⟨n6, l6, r6, t6⟩ := dig_of m2 am2
        obtain ⟨n7, l7, r7, t7⟩ := dig_of d1 ad1
        obtain ⟨n8, l8, r8, t8⟩ := dig_of d2 ad2
        rw [t1, t2, t3, t4] at hy
        rw [t5, t6] at hm
        rw [t7, t8] at hd
        have hy := Option.some.inj hy
        have hm := Option.some.inj hm
        have hd := Option.some.inj hd
        split at h
        · rename_i hv
          simp only [Bool.and_eq_true, decide_eq_true_eq] at hv
          cases h
          refine ⟨by simp only; omega, by simp only; omega, (validDate_iff _ _ _).1 hv.2, p, p', rest, ?_, ?_, ?_⟩
          · show _ = four y ++ p :: (two m ++ p' :: (two dd ++ rest))
            unfold four two
            have e1 : y / 100 / 10 = n1 := by omega
            have e2 : y / 100 % 10 = n2 := by omega
            have e3 : y % 100 / 10 = n3 := by omega
            have e4 : y % 100 % 10 = n4 := by omega
            have e5 : m / 10 = n5 := by omega
            have e6 : m % 10 = n6 := by omega
            have e7 : dd / 10 = n7 := by omega
            have e8 : dd % 10 = n8 := by omega
            rw [e1, e2, e3, e4, e5, e6, e7, e8, r1, r2, r3, r4, r5, r6, r7, r8]
            rfl
          · intro c hc
            rw [← isPunct_iff]
            simp only [List.mem_cons, List.not_mem_nil, or_false] at hc
            rcases hc with rfl | rfl
            · exact hp
            · exact hp'
          · intro c hc
            rw [← notDigit_iff]
            cases rest with
            | nil => cases hc
            | cons x rest =>
              cases hc
              rcases hr with hr | hr
              · simp at hr
              · exact hr
        · cases h
      · cases h
    · cases h
  · rintro ⟨hy1, hy2, hR, p, p', rest, rfl, hp, hr⟩
    obtain ⟨y, m, d⟩ := d
    obtain ⟨n, rfl⟩ : ∃ n : Nat, y = n := ⟨y.toNat, by simp only at hy1; omega⟩
    have hb := (DateOK.mk (d := ((n : Int), m, d)) (Or.inr ⟨hy1, hy2⟩) hR).bounds
    have hv := hR.valid
    simp only [Int.toNat_natCast] at hy1 hy2 hv hb ⊢
    have hpp : E.isPunct p = true := (isPunct_iff E p).2 (hp p (by simp))
    have hpp' : E.isPunct p' = true := (isPunct_iff E p').2 (hp p' (by simp))
    have e : four n ++ p :: (two m ++ p' :: (two d ++ rest)) =
        dig (n / 100 / 10) :: dig (n / 100 % 10) :: dig (n % 100 / 10) :: dig (n % 100 % 10) :: p :: dig (m / 10) :: dig (m % 10) :: p' :: dig (d / 10) :: dig (d % 10) :: rest := rfl
    rw [e]
    unfold isoDateOf
    have hrest : (decide ((dig (n / 100 / 10) :: dig (n / 100 % 10) :: dig (n % 100 / 10) :: dig (n % 100 % 10) :: p :: dig (m / 10) :: dig (m % 10) :: p' :: dig (d / 10) :: dig (d % 10) :: rest).length = 10) ||
        !E.isDigit ((dig (n / 100 / 10) :: dig (n / 100 % 10) :: dig (n % 100 / 10) :: dig (n % 100 % 10) :: p :: dig (m / 10) :: dig (m % 10) :: p' :: dig (d / 10) :: dig (d % 10) :: rest).getD 10 0)) = true := by
      cases rest with
      | nil => rfl
      | cons x rest =>
        rw [Bool.or_eq_true]
        exact Or.inr ((notDigit_iff E x).2 (hr x rfl))
    rw [hrest]
    simp only [List.getD_cons_succ, List.getD_cons_zero, hpp, hpp', List.length_cons, mid, List.drop_succ_cons, List.drop_zero,
      List.take_succ_cons, List.take_zero, List.all_cons, List.all_nil, dg _ (show n / 100 / 10 < 10 by omega), dg _ (show n / 100 % 10 < 10 by omega),
      dg _ (show n % 100 / 10 < 10 by omega), dg _ (show n % 100 % 10 < 10 by omega), dg _ (show m / 10 < 10 by omega), dg _ (show m % 10 < 10 by omega),
      dg _ (show d / 10 < 10 by omega), dg _ (show d % 10 < 10 by omega), List.foldl_cons, List.foldl_nil,
      dn _ (show n / 100 / 10 < 10 by omega), dn _ (show n / 100 % 10 < 10 by omega),
      dn _ (show n % 100 / 10 < 10 by omega), dn _ (show n % 100 % 10 < 10 by omega), dn _ (show m / 10 < 10 by omega), dn _ (show m % 10 < 10 by omega),
      dn _ (show d / 10 < 10 by omega), dn _ (show d % 10 < 10 by omega)]
    have e1 : 10 * (10 * (10 * (10 * 0 + n / 100 / 10) + n / 100 % 10) + n % 100 / 10) + n % 100 % 10 = n := by omega
    have e2 : 10 * (10 * 0 + m / 10) + m % 10 = m := by omega
    have e3 : 10 * (10 * 0 + d / 10) + d % 10 = d := by omega
    have h0 : decide (0 < n) = true := by simp; omega
    have h9 : decide (n ≤ 9999) = true := by simp; omega
    have h10 : decide (10 ≤ rest.length + 1 + 1 + 1 + 1 + 1 + 1 + 1 + 1 + 1 + 1) = true := by simp
    simp only [e1, e2, e3, Bool.and_true, if_true, h0, h9, hv, h10]
end KC
