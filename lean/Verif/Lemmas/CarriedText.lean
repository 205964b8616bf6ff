import Verif.Spec.Carried
import Verif.Lemmas.SafeText
import Verif.Props.C01
/- Helper lemmas: texts after the round trip. -/
namespace KC
open Spec

/-- the two halves of a surrogate pair -/
def Pair (u v : UInt16) : Prop := 0xD800 ≤ u.toNat ∧ u.toNat < 0xDC00 ∧ 0xDC00 ≤ v.toNat ∧ v.toNat < 0xE000

instance (u v : UInt16) : Decidable (Pair u v) := by unfold Pair; infer_instance

/-- no pair at the front -/
def NoPair (u : UInt16) (t : QString) : Prop := ∀ v r, t = v :: r → ¬ Pair u v

theorem noPair_of_nonSur {u : UInt16} (h : nonSur u.toNat) (t : QString) : NoPair u t := by
  intro v r _ hp
  unfold Pair at hp; unfold nonSur at h; omega

theorem noPair_ascii {u v : UInt16} (t : QString) (h : v.toNat < 0xDC00) : NoPair u (v :: t) := by
  intro w r e hp
  cases e
  unfold Pair at hp; omega

theorem units_induct {P : QString → Prop} (nil : P []) (one : ∀ u t, NoPair u t → P t → P (u :: t))
    (two : ∀ u v t, Pair u v → P t → P (u :: v :: t)) (s : QString) : P s := by
  suffices ∀ n (s : QString), s.length ≤ n → P s from this s.length s (Nat.le_refl _)
  intro n
  induction n with
  | zero => intro s hs; rw [List.length_eq_zero_iff.1 (Nat.le_zero.1 hs)]; exact nil
  | succ n ih =>
    intro s hs
    cases s with
    | nil => exact nil
    | cons u t =>
      by_cases h : NoPair u t
      · exact one u t h (ih t (by simpa using hs))
      · unfold NoPair at h
        push Not at h
        obtain ⟨v, r, rfl, hp⟩ := h
        exact two u v r hp (ih r (by simp at hs; omega))

theorem carriedFrom_one {p : Bool} {u : UInt16} {t : QString} (h : NoPair u t) :
    carriedFrom p (u :: t) = carriedUnit p u :: carriedFrom (u == qc! '\\') t := by
  cases t with
  | nil => rfl
  | cons v r => rw [carriedFrom, if_neg]; exact h v r rfl

theorem carriedFrom_two {p : Bool} {u v : UInt16} {t : QString} (h : Pair u v) : carriedFrom p (u :: v :: t) = u :: v :: carriedFrom false t := by
  rw [carriedFrom, if_pos]; exact h

theorem carriedFrom_length (p : Bool) (s : QString) : (carriedFrom p s).length = s.length := by
  induction s using units_induct generalizing p with
  | nil => rfl
  | one u t h ih => rw [carriedFrom_one h]; simp [ih]
  | two u v t h ih => rw [carriedFrom_two h]; simp [ih]

@[simp] theorem carried_nil : carried [] = [] := rfl
theorem carried_eq_nil {s : QString} : carried s = [] ↔ s = [] := by
  have := carriedFrom_length false s
  unfold carried
  constructor <;> intro h
  · rw [h] at this; exact List.length_eq_zero_iff.1 this.symm
  · rw [h]; rfl
@[simp] theorem carried_isEmpty (s : QString) : (carried s).isEmpty = s.isEmpty := by
  rw [Bool.eq_iff_iff]; simp [carried_eq_nil]

/-! ### in bytes -/

theorem toUtf8_one {u : UInt16} {t : QString} (h : NoPair u t) : toUtf8 (u :: t) = utf8Unit u.toNat ++ toUtf8 t := by
  cases t with
  | nil => simp [toUtf8]
  | cons v r => rw [toUtf8, if_neg]; exact h v r rfl

theorem toUtf8_two {u v : UInt16} {t : QString} (h : Pair u v) : toUtf8 (u :: v :: t) = utf8Pair u.toNat v.toNat ++ toUtf8 t :=
  toUtf8_cons_pair u v t h.1 h.2.1 h.2.2.1 h.2.2.2

/-- a byte that is not touched and touches nothing -/
def Inert (b : UInt8) : Prop := b ≠ 92 ∧ b ≠ 110 ∧ b ≠ 78 ∧ b ≠ 114

theorem inert_wide {n : Nat} (h1 : 128 ≤ n) (h2 : n < 256) : Inert (UInt8.ofNat n) := by
  have := toNat_ofNat8 n h2
  refine ⟨?_, ?_, ?_, ?_⟩ <;> intro e <;> rw [e] at this <;> simp at this <;> omega

theorem damage_inert (bs : List UInt8) (hne : bs ≠ []) (h : ∀ b ∈ bs, Inert b) (p : Bool) (t : List UInt8) :
    damage p (bs ++ t) = bs ++ damage false t := by
  induction bs generalizing p with
  | nil => exact absurd rfl hne
  | cons b bs ih =>
    obtain ⟨h1, h2, h3, h4⟩ := h b (by simp)
    have e : damage p (b :: (bs ++ t)) = b :: damage false (bs ++ t) := by
      have hb : (b == 92) = false := by simpa using h1
      simp [damage, h2, h3, h4, hb]
    rw [List.cons_append, e]
    by_cases hb : bs = []
    · subst hb; rfl
    · rw [ih hb (fun x hx => h x (by simp [hx]))]; rfl

theorem inert_pair {u v : UInt16} (h : Pair u v) : ∀ b ∈ utf8Pair u.toNat v.toNat, Inert b := by
  unfold Pair at h
  unfold utf8Pair
  intro b hb
  simp only [List.mem_cons, List.not_mem_nil, or_false] at hb
  rcases hb with rfl | rfl | rfl | rfl <;> exact inert_wide (by omega) (by omega)

theorem damage_unit (p : Bool) (u : UInt16) (t : List UInt8) :
    damage p (utf8Unit u.toNat ++ t) = utf8Unit (carriedUnit p u).toNat ++ damage (u == qc! '\\') t := by
  have hlt := u.toNat_lt
  by_cases ha : u.toNat < 128
  · obtain ⟨n, hn⟩ : ∃ n : Fin 128, u = UInt16.ofNat n.val := ⟨⟨u.toNat, ha⟩, by simp⟩
    subst hn
    have key : ∀ n : Fin 128, ∀ p : Bool, (utf8Unit (UInt16.ofNat n.val).toNat = [UInt8.ofNat n.val]) ∧
        (utf8Unit (carriedUnit p (UInt16.ofNat n.val)).toNat =
          [if p && (UInt8.ofNat n.val == 110 || UInt8.ofNat n.val == 78) then 10 else if p && UInt8.ofNat n.val == 114 then 13 else UInt8.ofNat n.val]) ∧
        (UInt16.ofNat n.val == qc! '\\') = (UInt8.ofNat n.val == 92) := by decide
    obtain ⟨k1, k2, k3⟩ := key n p
    rw [k1, k2, k3]
    rfl
  · have hne : u ≠ qc! '\\' := by intro e; rw [e] at ha; exact ha (by decide)
    have hb : (u == qc! '\\') = false := by simpa using hne
    have hn : (u == qc! 'n' || u == qc! 'N') = false := by
      simp only [Bool.or_eq_false_iff, beq_eq_false_iff_ne]
      constructor <;> (intro e; rw [e] at ha; exact ha (by decide))
    have hr : (u == qc! 'r') = false := by
      simp only [beq_eq_false_iff_ne]; intro e; rw [e] at ha; exact ha (by decide)
    have key : (carriedUnit p u = u ∧ nonSur u.toNat) ∨ (carriedUnit p u = qc! '?' ∧ 0xD800 ≤ u.toNat ∧ u.toNat < 0xE000) := by
      unfold carriedUnit
      by_cases hs : 0xD800 ≤ u.toNat ∧ u.toNat < 0xE000
      · right; rw [if_pos hs]; exact ⟨rfl, hs⟩
      · left; rw [if_neg hs, hn, hr]; simp [nonSur]; omega
    rw [hb]
    rcases key with ⟨k, hs⟩ | ⟨k, hs⟩
    · rw [k]
      apply damage_inert
      · unfold utf8Unit; repeat' split
        all_goals simp
      · unfold utf8Unit nonSur at *
        rw [if_neg ha]
        intro b hm
        split at hm
        · simp only [List.mem_cons, List.not_mem_nil, or_false] at hm
          rcases hm with rfl | rfl <;> exact inert_wide (by omega) (by omega)
        · simp only [List.mem_cons, List.not_mem_nil, or_false] at hm
          rcases hm with rfl | rfl | rfl <;> exact inert_wide (by omega) (by omega)
    · rw [k]
      have e : utf8Unit u.toNat = [63] := by
        unfold utf8Unit; rw [if_neg (by omega), if_neg (by omega), if_neg (by omega)]
      rw [e]
      exact damage_inert [63] (by simp) (by intro b hb; simp only [List.mem_singleton] at hb; subst hb; exact ⟨by decide, by decide, by decide, by decide⟩) p t

theorem carriedUnit_nonSur (p : Bool) (u : UInt16) : nonSur (carriedUnit p u).toNat := by
  unfold carriedUnit nonSur
  split
  · left; decide
  · split
    · left; decide
    · split
      · left; decide
      · omega

/-- The damage to the bytes of a text, as damage to the text. -/
theorem toUtf8_carriedFrom (p : Bool) (s : QString) : toUtf8 (carriedFrom p s) = damage p (toUtf8 s) := by
  induction s using units_induct generalizing p with
  | nil => simp [carriedFrom, toUtf8, damage]
  | one u t h ih => rw [carriedFrom_one h, toUtf8_one h, damage_unit, toUtf8_cons_unit _ _ (carriedUnit_nonSur p u), ih]
  | two u v t h ih => rw [carriedFrom_two h, toUtf8_two h, toUtf8_two h, damage_inert _ (by simp [utf8Pair]) (inert_pair h), ih]

/-! ### unchanged texts -/

theorem carried_plain {s : QString} (hwf : WellFormed s) (hch : s.IsChain Esc16) : carried s = s := by
  obtain ⟨cs, hcs⟩ := hwf
  subst hcs
  have key : ∀ (cs : List Char) (p : Bool), (p = true → ∀ u ∈ (utf16 cs).head?, u ≠ 110 ∧ u ≠ 78 ∧ u ≠ 114) → (utf16 cs).IsChain Esc16 →
      carriedFrom p (utf16 cs) = utf16 cs := by
    intro cs
    induction cs with
    | nil => intros; rfl
    | cons c cs ih =>
      intro p hp hc
      have hr := char_range c
      have e : utf16 (c :: cs) = utf16Char c ++ utf16 cs := by simp [utf16]
      rw [e] at hp hc ⊢
      unfold utf16Char at *
      split
      · rename_i hlt
        rw [if_pos hlt] at hp hc
        have hn := toNat_ofNat16 c.toNat (by omega)
        have ns : nonSur (UInt16.ofNat c.toNat).toNat := by rw [hn]; unfold nonSur; omega
        simp only [List.cons_append, List.nil_append] at *
        rw [carriedFrom_one (noPair_of_nonSur ns _), ih]
        · congr 1
          unfold carriedUnit
          rw [if_neg (by unfold nonSur at ns; omega)]
          cases p with
          | false => simp
          | true =>
            obtain ⟨h1, h2, h3⟩ := hp rfl _ rfl
            simp only [Bool.true_and]
            rw [if_neg (by simpa using ⟨h1, h2⟩), if_neg (by simpa using h3)]
        · intro hb u hu
          rw [List.isChain_cons] at hc
          exact hc.1 u hu (by simpa using hb)
        · exact hc.tail
      · rename_i hlt
        rw [if_neg hlt] at hp hc
        have hn := toNat_ofNat16 (0xD800 + (c.toNat - 0x10000) / 0x400) (by omega)
        have hm := toNat_ofNat16 (0xDC00 + (c.toNat - 0x10000) % 0x400) (by omega)
        simp only [List.cons_append, List.nil_append] at *
        rw [carriedFrom_two (by unfold Pair; omega), ih]
        · intro hb; cases hb
        · exact hc.tail.tail
  exact key cs false (by simp) hch

theorem carried_safe {s : QString} (h : SafeText s) : carried s = s := carried_plain h.wf ((safe16_iff s).1 h.safe)

theorem char_of_nat {n : Nat} (h : n < 0xD800 ∨ (0xE000 ≤ n ∧ n < 0x110000)) : (Char.ofNat n).toNat = n := by
  have hv : n.isValidChar := by
    rcases h with h | h
    · exact .inl h
    · exact .inr ⟨by omega, h.2⟩
  unfold Char.ofNat
  rw [dif_pos hv]
  rfl

/-- What is read is well formed. -/
theorem wf_carried (p : Bool) (s : QString) : WellFormed (carriedFrom p s) := by
  induction s using units_induct generalizing p with
  | nil => exact ⟨[], rfl⟩
  | one u t h ih =>
    rw [carriedFrom_one h]
    obtain ⟨cs, hc⟩ := ih (u == qc! '\\')
    have hs := carriedUnit_nonSur p u
    generalize carriedUnit p u = w at hs
    have hw := w.toNat_lt
    refine ⟨Char.ofNat w.toNat :: cs, ?_⟩
    have e := char_of_nat (n := w.toNat) (by unfold nonSur at hs; omega)
    rw [hc]
    show _ = utf16Char _ ++ utf16 cs
    rw [utf16Char, e, if_pos (by omega)]
    simp
  | two u v t h ih =>
    rw [carriedFrom_two h]
    obtain ⟨cs, hc⟩ := ih false
    unfold Pair at h
    have e := char_of_nat (n := 0x10000 + (u.toNat - 0xD800) * 0x400 + (v.toNat - 0xDC00)) (by omega)
    refine ⟨Char.ofNat (0x10000 + (u.toNat - 0xD800) * 0x400 + (v.toNat - 0xDC00)) :: cs, ?_⟩
    rw [hc]
    show _ = utf16Char _ ++ utf16 cs
    rw [utf16Char, e, if_neg (by omega)]
    have e1 := ofNat_toNat16 u (0xD800 + (0x10000 + (u.toNat - 0xD800) * 0x400 + (v.toNat - 0xDC00) - 0x10000) / 0x400) (by omega)
    have e2 := ofNat_toNat16 v (0xDC00 + (0x10000 + (u.toNat - 0xD800) * 0x400 + (v.toNat - 0xDC00) - 0x10000) % 0x400) (by omega)
    rw [e1, e2]
    rfl

/-- In what is read no backslash stands directly before n, N or r. -/
theorem chain_carried (p : Bool) (s : QString) :
    (carriedFrom p s).IsChain Esc16 ∧ (p = true → ∀ x ∈ (carriedFrom p s).head?, x ≠ 110 ∧ x ≠ 78 ∧ x ≠ 114) := by
  induction s using units_induct generalizing p with
  | nil => exact ⟨by simp [carriedFrom], by simp [carriedFrom]⟩
  | one u t h ih =>
    rw [carriedFrom_one h]
    obtain ⟨h1, h2⟩ := ih (u == qc! '\\')
    refine ⟨?_, ?_⟩
    · rw [List.isChain_cons]
      refine ⟨fun y hy he => h2 ?_ y hy, h1⟩
      unfold carriedUnit at he
      split at he
      · exact absurd he (by decide)
      · split at he
        · exact absurd he (by decide)
        · split at he
          · exact absurd he (by decide)
          · simpa using he
    · rintro rfl x hx
      simp only [List.head?_cons, Option.mem_def, Option.some.injEq] at hx
      subst hx
      unfold carriedUnit
      split
      · decide
      · split
        · decide
        · split
          · decide
          · rename_i a b
            simp only [Bool.true_and, Bool.or_eq_true, beq_iff_eq, not_or] at a b
            exact ⟨a.1, a.2, b⟩
  | two u v t h ih =>
    rw [carriedFrom_two h]
    unfold Pair at h
    obtain ⟨h1, -⟩ := ih false
    refine ⟨?_, ?_⟩
    · rw [List.isChain_cons, List.isChain_cons]
      refine ⟨fun y _ he => ?_, fun y _ he => ?_, h1⟩
      · rw [he] at h; exact absurd h.1 (by decide)
      · rw [he] at h; exact absurd h.2.2.1 (by decide)
    · intro _ x hx
      simp only [List.head?_cons, Option.mem_def, Option.some.injEq] at hx
      subst hx
      refine ⟨?_, ?_, ?_⟩ <;> intro he <;> rw [he] at h <;> exact absurd h.1 (by decide)

/-- The round trip only makes line feeds, carriage returns and question marks. -/
theorem carried_fixed {s : QString} (h : ∀ u ∈ carried s, u ≠ 10 ∧ u ≠ 13 ∧ u ≠ 63) : carried s = s := by
  suffices ∀ p, (∀ u ∈ carriedFrom p s, u ≠ 10 ∧ u ≠ 13 ∧ u ≠ 63) → carriedFrom p s = s from this false h
  clear h
  induction s using units_induct with
  | nil => intros; rfl
  | one u t h ih =>
    intro p hp
    rw [carriedFrom_one h] at hp ⊢
    rw [ih _ (fun x hx => hp x (by simp [hx]))]
    have := hp _ List.mem_cons_self
    congr 1
    unfold carriedUnit at *
    split
    · rename_i g; rw [if_pos g] at this; exact absurd rfl this.2.2
    · rename_i g; rw [if_neg g] at this
      split
      · rename_i g; rw [if_pos g] at this; exact absurd rfl this.1
      · rename_i g; rw [if_neg g] at this
        split
        · rename_i g; rw [if_pos g] at this; exact absurd rfl this.2.1
        · rfl
  | two u v t h ih =>
    intro p hp
    rw [carriedFrom_two h] at hp ⊢
    rw [ih _ (fun x hx => hp x (by simp [hx]))]

theorem carried_ascii {s : QString} (h : ∀ u ∈ s, u.toNat < 128 ∧ u ≠ 92) : carried s = s := by
  apply carried_safe
  refine ⟨wf_ascii fun u hu => (h u hu).1, ?_, ?_⟩
  · intro e
    have := (h _ (List.mem_of_mem_head? e)).1
    exact absurd this (by decide)
  · intro pre post c e
    exact absurd rfl (h 92 (by rw [e]; simp)).2

/-! ### joined texts -/

section
variable {sep : UInt16}

theorem carriedUnit_sep (hs : sep.toNat < 128) (h2 : sep ≠ 110 ∧ sep ≠ 78 ∧ sep ≠ 114) (p : Bool) : carriedUnit p sep = sep := by
  unfold carriedUnit
  rw [if_neg (by omega), if_neg (by simp; intro _; exact ⟨h2.1, h2.2.1⟩), if_neg (by simp; intro _; exact h2.2.2)]

theorem carriedUnit_eq_sep (hs : sep.toNat < 128) (h2 : sep ≠ 110 ∧ sep ≠ 78 ∧ sep ≠ 114) (h3 : sep ≠ 10 ∧ sep ≠ 13 ∧ sep ≠ 63) (p : Bool) (u : UInt16) :
    carriedUnit p u = sep ↔ u = sep := by
  constructor
  · intro h
    unfold carriedUnit at h
    split at h
    · exact absurd h.symm h3.2.2
    · split at h
      · exact absurd h.symm h3.1
      · split at h
        · exact absurd h.symm h3.2.1
        · exact h
  · rintro rfl; exact carriedUnit_sep hs h2 p

theorem carriedFrom_escape (hs : sep.toNat < 128) (h1 : sep ≠ 92) (h2 : sep ≠ 110 ∧ sep ≠ 78 ∧ sep ≠ 114) (h3 : sep ≠ 10 ∧ sep ≠ 13 ∧ sep ≠ 63)
    (p : Bool) (a rest : QString) (hr : rest = [] ∨ rest.head? = some sep) :
    carriedFrom p (escapeSep sep a ++ rest) = escapeSep sep (carriedFrom p a) ++ carriedFrom false rest := by
  have hsn : nonSur sep.toNat := by left; omega
  have hrest : ∀ p q, carriedFrom p rest = carriedFrom q rest := by
    intro p q
    rcases hr with rfl | hr
    · rfl
    · cases rest with
      | nil => rfl
      | cons x r =>
        simp only [List.head?_cons, Option.some.injEq] at hr
        subst hr
        rw [carriedFrom_one (noPair_of_nonSur hsn _), carriedFrom_one (noPair_of_nonSur hsn _), carriedUnit_sep hs h2, carriedUnit_sep hs h2]
  have hnp : ∀ (u : UInt16) (t : QString), NoPair u t → NoPair u (escapeSep sep t ++ rest) := by
    intro u t h v r e
    cases t with
    | nil =>
      rw [escapeSep_nil, List.nil_append] at e
      rcases hr with rfl | hr
      · cases e
      · rw [e] at hr
        simp only [List.head?_cons, Option.some.injEq] at hr
        subst hr
        unfold Pair; omega
    | cons x t =>
      rw [escapeSep_cons] at e
      by_cases hx : x = sep
      · rw [if_pos hx] at e
        simp only [List.cons_append, List.cons.injEq] at e
        rw [← e.1]
        unfold Pair
        simp
      · rw [if_neg hx] at e
        simp only [List.cons_append, List.nil_append, List.cons.injEq] at e
        rw [← e.1]
        exact h x t rfl
  induction a using units_induct generalizing p with
  | nil => simpa [escapeSep_nil, carriedFrom] using hrest p false
  | one u t h ih =>
    rw [carriedFrom_one h, escapeSep_cons, escapeSep_cons]
    by_cases hu : u = sep
    · subst hu
      have hb : (u == qc! '\\') = false := by simpa using h1
      rw [if_pos rfl, if_pos (carriedUnit_sep hs h2 p)]
      simp only [List.cons_append, List.nil_append]
      rw [carriedFrom_one (noPair_of_nonSur (by left; decide) _), carriedFrom_one (noPair_of_nonSur hsn _), carriedUnit_sep hs h2, ih]
      have : carriedUnit p (qc! '\\') = qc! '\\' := by cases p <;> decide
      rw [this]
    · rw [if_neg hu, if_neg (fun e => hu ((carriedUnit_eq_sep hs h2 h3 p u).1 e))]
      simp only [List.cons_append, List.nil_append]
      rw [carriedFrom_one (hnp u t h), ih]
  | two u v t h ih =>
    have hu : u ≠ sep := by rintro rfl; unfold Pair at h; omega
    have hv : v ≠ sep := by rintro rfl; unfold Pair at h; omega
    rw [carriedFrom_two h, escapeSep_cons, escapeSep_cons, escapeSep_cons, escapeSep_cons, if_neg hu, if_neg hv]
    simp only [List.cons_append, List.nil_append]
    rw [carriedFrom_two h, ih]

theorem carried_sep (hs : sep.toNat < 128) (h1 : sep ≠ 92) (h2 : sep ≠ 110 ∧ sep ≠ 78 ∧ sep ≠ 114) (t : QString) :
    carriedFrom false (sep :: t) = sep :: carried t := by
  rw [carriedFrom_one (noPair_of_nonSur (by left; omega) _), carriedUnit_sep hs h2]
  have : (sep == qc! '\\') = false := by simpa using h1
  rw [this]; rfl

theorem carried_join (hs : sep.toNat < 128) (h1 : sep ≠ 92) (h2 : sep ≠ 110 ∧ sep ≠ 78 ∧ sep ≠ 114) (h3 : sep ≠ 10 ∧ sep ≠ 13 ∧ sep ≠ 63) (l : List QString) :
    carried (joinEscaped sep l) = joinEscaped sep (l.map carried) := by
  induction l with
  | nil => rfl
  | cons a t ih =>
    cases t with
    | nil =>
      have := carriedFrom_escape hs h1 h2 h3 false a [] (.inl rfl)
      simpa [joinEscaped, join, carried, carriedFrom] using this
    | cons b t =>
      rw [joinEscaped_cons_cons, List.map_cons, List.map_cons, joinEscaped_cons_cons, ← List.map_cons, ← ih]
      unfold carried
      rw [carriedFrom_escape hs h1 h2 h3 false a _ (.inr rfl), carried_sep hs h1 h2]
      rfl

/-- a text, a separator and another text, the separator not being escaped -/
theorem carried_mid (hs : sep.toNat < 128) (h1 : sep ≠ 92) (h2 : sep ≠ 110 ∧ sep ≠ 78 ∧ sep ≠ 114) (a b : QString) :
    carried (a ++ sep :: b) = carried a ++ sep :: carried b := by
  have hsn : nonSur sep.toNat := by left; omega
  suffices ∀ p, carriedFrom p (a ++ sep :: b) = carriedFrom p a ++ sep :: carried b from this false
  induction a using units_induct with
  | nil =>
    intro p
    have : (sep == qc! '\\') = false := by simpa using h1
    rw [List.nil_append, carriedFrom_one (noPair_of_nonSur hsn _), carriedUnit_sep hs h2, this]
    rfl
  | one u t h ih =>
    intro p
    have hn : NoPair u (t ++ sep :: b) := by
      cases t with
      | nil => exact noPair_ascii _ (by omega)
      | cons x t => intro v r e; simp only [List.cons_append, List.cons.injEq] at e; rw [← e.1]; exact h x t rfl
    rw [List.cons_append, carriedFrom_one hn, carriedFrom_one h, ih]
    rfl
  | two u v t h ih =>
    intro p
    rw [List.cons_append, List.cons_append, carriedFrom_two h, carriedFrom_two h, ih]
    rfl

end

end KC
