import Verif.Lemmas.Fold
import Verif.Lemmas.Utf
import Verif.Props.C03
import Mathlib.Tactic.SplitIfs
/-
  C05: folding never tears a character apart.
-/
namespace KC
open Spec

theorem forall_uint8 {P : UInt8 → Prop} (h : ∀ n : Fin 256, P (UInt8.ofNat n.val)) : ∀ b, P b := by
  intro b
  have := h ⟨b.toNat, b.toNat_lt⟩
  simpa using this

theorem and_C0 : ∀ b : UInt8, (b &&& 0xC0 = 0xC0) ↔ 0xC0 ≤ b.toNat := by
  apply forall_uint8; decide +kernel
theorem and_E0 : ∀ b : UInt8, (b &&& 0xE0 = 0xE0) ↔ 0xE0 ≤ b.toNat := by
  apply forall_uint8; decide +kernel
theorem and_F0 : ∀ b : UInt8, (b &&& 0xF0 = 0xF0) ↔ 0xF0 ≤ b.toNat := by
  apply forall_uint8; decide +kernel

/-- put several bytes in front of the first piece -/
private def addHeads (bs : List UInt8) (l : List (List UInt8)) : List (List UInt8) := bs.foldr addHead l

private theorem piecesMb_two (len : Nat) (c d : UInt8) (t : QByteArray) :
    piecesMb len 2 (c :: d :: t) = addHead c (piecesMb len 1 (d :: t)) := by
  simp [piecesMb]

private theorem piecesMb_one (len : Nat) (d : UInt8) (t : QByteArray) :
    piecesMb len 1 (d :: t) =
      if len = FOLD_WIDTH ∧ t ≠ [] then addHead d ([] :: piecesMb 1 0 t) else addHead d (piecesMb len 0 t) := by
  simp [piecesMb]

private theorem piecesMb_lead (len : Nat) (c : UInt8) (t : QByteArray) (n : Nat) (h : c &&& 0xC0 = 0xC0)
    (hn : sequenceLength c = n) : piecesMb len 0 (c :: t) =
      if len + n > FOLD_WIDTH then [] :: addHead c (piecesMb (1 + n) (n - 1) t)
      else addHead c (piecesMb (len + n) (n - 1) t) := by
  subst hn
  simp [piecesMb, h]

private theorem step_char (c : Char) (hc : c.toNat < 0x10000) (len : Nat) (s : QByteArray) :
    ∃ pre rest, piecesMb len 0 (String.utf8EncodeChar c ++ s) = pre ++ addHeads (String.utf8EncodeChar c) rest ∧
      (pre = [] ∨ pre = [[]]) ∧ ∃ len', (rest = piecesMb len' 0 s ∨ rest = [] :: piecesMb len' 0 s) := by
  have hv : c.val.toNat = c.toNat := rfl
  have hr := char_range c
  unfold String.utf8EncodeChar
  simp only [hv]
  generalize c.toNat = n at *
  split
  · have e := toNat_ofNat8 n (by omega)
    have h1 : ¬ (UInt8.ofNat n &&& 0xC0 = 0xC0) := by rw [and_C0, e]; omega
    simp only [List.cons_append, List.nil_append, piecesMb, h1, if_false]
    split
    · exact ⟨[], _, rfl, Or.inl rfl, 1, Or.inr rfl⟩
    · exact ⟨[], _, rfl, Or.inl rfl, _, Or.inl rfl⟩
  · split
    · have e := toNat_ofNat8 (n / 64 % 32 + 192) (by omega)
      have h1 : (UInt8.ofNat (n / 64 % 32 + 192) &&& 0xC0 = 0xC0) := by rw [and_C0, e]; omega
      have h2 : sequenceLength (UInt8.ofNat (n / 64 % 32 + 192)) = 2 := by
        unfold sequenceLength
        rw [if_neg (by rw [and_E0, e]; omega), if_neg (by rw [and_F0, e]; omega)]
      simp only [List.cons_append, List.nil_append, piecesMb_lead _ _ _ _ h1 h2, Nat.reduceSub, piecesMb_two, piecesMb_one]
      split
      · split
        · exact ⟨[[]], _, rfl, Or.inr rfl, 1, Or.inr rfl⟩
        · exact ⟨[[]], _, rfl, Or.inr rfl, _, Or.inl rfl⟩
      · split
        · exact ⟨[], _, rfl, Or.inl rfl, 1, Or.inr rfl⟩
        · exact ⟨[], _, rfl, Or.inl rfl, _, Or.inl rfl⟩
    · have hle : n ≤ 65535 := by omega
      simp only [hle, if_true]
      have e := toNat_ofNat8 (n / 4096 % 16 + 224) (by omega)
      have h1 : (UInt8.ofNat (n / 4096 % 16 + 224) &&& 0xC0 = 0xC0) := by rw [and_C0, e]; omega
      have h2 : sequenceLength (UInt8.ofNat (n / 4096 % 16 + 224)) = 3 := by
        unfold sequenceLength
        rw [if_pos (by rw [and_E0, e]; omega)]
      simp only [List.cons_append, List.nil_append, piecesMb_lead _ _ _ _ h1 h2, Nat.reduceSub, piecesMb_two, piecesMb_one]
      split
      · split
        · exact ⟨[[]], _, rfl, Or.inr rfl, 1, Or.inr rfl⟩
        · exact ⟨[[]], _, rfl, Or.inr rfl, _, Or.inl rfl⟩
      · split
        · exact ⟨[], _, rfl, Or.inl rfl, 1, Or.inr rfl⟩
        · exact ⟨[], _, rfl, Or.inl rfl, _, Or.inl rfl⟩

private theorem addHeads_cons (b : List UInt8) (h : List UInt8) (t : List (List UInt8)) :
    addHeads b (h :: t) = (b ++ h) :: t := by
  induction b with
  | nil => rfl
  | cons x b ih => simp only [addHeads, List.foldr_cons] at *; rw [ih]; rfl

private theorem pieces_chars (cs : List Char) (hc : ∀ c ∈ cs, c.toNat < 0x10000) (len : Nat) :
    ∃ css : List (List Char), css ≠ [] ∧ css.flatten = cs ∧ piecesMb len 0 (utf8 cs) = css.map utf8 := by
  induction cs generalizing len with
  | nil => exact ⟨[[]], by simp, by simp, by simp [utf8, piecesMb]⟩
  | cons c cs ih =>
    obtain ⟨pre, rest, he, hpre, len', hrest⟩ := step_char c (hc c (by simp)) len (utf8 cs)
    have hu : utf8 (c :: cs) = String.utf8EncodeChar c ++ utf8 cs := by simp [utf8]
    rw [hu, he]
    obtain ⟨css, hne, hfl, hp⟩ := ih (fun d hd => hc d (by simp [hd])) len'
    obtain ⟨rs, hrne, hrfl, hrp⟩ : ∃ rs : List (List Char), rs ≠ [] ∧ rs.flatten = cs ∧ rest = rs.map utf8 := by
      rcases hrest with h | h
      · exact ⟨css, hne, hfl, by rw [h, hp]⟩
      · exact ⟨[] :: css, by simp, by simpa using hfl, by rw [h, hp]; simp [utf8]⟩
    cases rs with
    | nil => exact absurd rfl hrne
    | cons r rs =>
      rw [hrp, List.map_cons, addHeads_cons]
      simp only [List.flatten_cons] at hrfl
      rcases hpre with rfl | rfl
      · exact ⟨(c :: r) :: rs, by simp, by simp [hrfl], by simp [utf8]⟩
      · exact ⟨[] :: (c :: r) :: rs, by simp, by simp [hrfl], by simp [utf8]⟩

/-- Part of C05 that holds: for every text of characters below U+10000 (1-, 2- and 3-byte characters), in any position, each
    physical line carries a whole number of characters: the text can be cut into sub-texts whose UTF-8 forms are the pieces of
    the physical lines. Missing: 4-byte characters (`C05_no_torn_char_false`). -/
theorem C05_no_torn_char_partial (cs : List Char) (hc : ∀ c ∈ cs, c.toNat < 0x10000) :
    ∃ (first : List Char) (rest : List (List Char)),
      first ++ rest.flatten = cs ∧ fixLineSize (utf8 cs) true = physical (utf8 first) (rest.map utf8) := by
  obtain ⟨h, t, hp, hf⟩ := fixLineSize_eq (utf8 cs) true
  have key : ∃ css : List (List Char), css ≠ [] ∧ css.flatten = cs ∧ h :: t = css.map utf8 := by
    rw [← hp]
    unfold pieces
    split
    · simpa using pieces_chars cs hc 0
    · exact ⟨[cs], by simp, by simp, by simp⟩
  obtain ⟨css, hne, hfl, he⟩ := key
  cases css with
  | nil => exact absurd rfl hne
  | cons a b =>
    simp only [List.map_cons, List.cons.injEq] at he
    obtain ⟨rfl, rfl⟩ := he
    exact ⟨a, b, by simpa using hfl, hf⟩

/-- C05 as stated is false: a 4-byte character at column 72 is split after its third byte. -/
theorem C05_no_torn_char_false :
    ¬ ∀ cs : List Char, ∃ (first : List Char) (rest : List (List Char)),
      first ++ rest.flatten = cs ∧ fixLineSize (utf8 cs) true = physical (utf8 first) (rest.map utf8) := by
  intro h
  obtain ⟨first, rest, hfl, hf⟩ := h (List.replicate 72 'a' ++ ['😀', 'b'])
  have hlhs : fixLineSize (utf8 (List.replicate 72 'a' ++ ['😀', 'b'])) true
      = List.replicate 72 97 ++ [0xF0, 0x9F, 0x98, 13, 10, 32, 0x80, 98, 13, 10] := by decide
  -- the first 75 bytes would have to be the UTF-8 form of `first`
  have hphys : physical (utf8 first) (rest.map utf8)
      = utf8 first ++ [13, 10] ++ ((rest.map utf8).map (32 :: ·)).flatMap (· ++ [13, 10]) := by simp [physical]
  rw [hlhs, hphys] at hf
  obtain ⟨k, hk⟩ : ∃ k, first = (List.replicate 72 'a' ++ ['😀', 'b']).take k := by
    refine ⟨first.length, ?_⟩
    rw [← hfl]; simp
  have hk74 : ∀ k, k ≤ 74 → utf8 ((List.replicate 72 'a' ++ ['😀', 'b']).take k) ++ [13, 10]
      ≠ (List.replicate 72 (97 : UInt8) ++ [0xF0, 0x9F, 0x98, 13, 10, 32, 0x80, 98, 13, 10]).take
          ((utf8 ((List.replicate 72 'a' ++ ['😀', 'b']).take k) ++ [13, 10]).length) := by
    decide +kernel
  have hk' : ∃ k', k' ≤ 74 ∧ first = (List.replicate 72 'a' ++ ['😀', 'b']).take k' := by
    by_cases hle : k ≤ 74
    · exact ⟨k, hle, hk⟩
    · refine ⟨74, by omega, ?_⟩
      rw [hk, List.take_of_length_le (by simp; omega), List.take_of_length_le (by simp)]
  obtain ⟨k', hk'le, hk'e⟩ := hk'
  apply hk74 k' hk'le
  rw [← hk'e, hf, List.append_assoc, ← List.append_assoc, List.take_left]

-- non-vacuity: a long text with 2- and 3-byte characters at the fold column
example : ∀ c ∈ (List.replicate 74 'a' ++ ['ü', '€'] ++ List.replicate 73 'b' ++ ['€']), c.toNat < 0x10000 := by decide +kernel
example : fixLineSize (utf8 (List.replicate 74 'a' ++ ['ü'])) true
    = physical (List.replicate 74 97) [utf8 ['ü']] := by decide

/-! ### Exactly when a character is torn -/

namespace Spec

/-- The number of bytes of a character in UTF-8. -/
def byteWidth (c : Char) : Nat :=
  if c.toNat < 0x80 then 1 else if c.toNat < 0x800 then 2 else if c.toNat < 0x10000 then 3 else 4

/-- Layout in lines of 75 bytes, continuation lines beginning with one space: a character of several bytes whose first three
    bytes do not fit goes to the next line, and a full line ends. `k` is the number of bytes in the current line before the character; the result is
    the number of bytes in the current line after it. -/
def nextColumn (k : Nat) (c : Char) : Nat :=
  let start := if 2 ≤ byteWidth c ∧ 75 < k + min (byteWidth c) 3 then 1 else k
  if start + byteWidth c = 75 then 1 else start + byteWidth c

/-- The number of bytes in the current line after the text `cs`. -/
def column (cs : List Char) : Nat := cs.foldl nextColumn 0

end Spec

private def wrapCol (a : Nat) : Nat := if a = 75 then 1 else a

private theorem after_wrap (a : Nat) (s : QByteArray) (bs : List UInt8) :
    ∃ rest, (if a = FOLD_WIDTH ∧ s ≠ [] then addHeads bs ([] :: piecesMb 1 0 s) else addHeads bs (piecesMb a 0 s)) = addHeads bs rest ∧
      (rest = piecesMb (wrapCol a) 0 s ∨ rest = [] :: piecesMb (wrapCol a) 0 s) := by
  unfold wrapCol FOLD_WIDTH
  by_cases h : a = 75
  · by_cases hs : s = []
    · subst hs; exact ⟨_, if_neg (by simp), Or.inl (by simp [piecesMb])⟩
    · exact ⟨_, if_pos ⟨h, hs⟩, Or.inr (by rw [if_pos h])⟩
  · exact ⟨_, if_neg (fun x => h x.1), Or.inl (by rw [if_neg h])⟩

private theorem byteWidth_1 {c : Char} (h : c.toNat < 0x80) : byteWidth c = 1 := by unfold byteWidth; rw [if_pos h]
private theorem byteWidth_2 {c : Char} (h : ¬ c.toNat < 0x80) (h2 : c.toNat < 0x800) : byteWidth c = 2 := by
  unfold byteWidth; rw [if_neg h, if_pos h2]
private theorem byteWidth_3 {c : Char} (h : ¬ c.toNat < 0x800) (h2 : c.toNat < 0x10000) : byteWidth c = 3 := by
  unfold byteWidth; rw [if_neg (by omega), if_neg h, if_pos h2]
private theorem byteWidth_4 {c : Char} (h : ¬ c.toNat < 0x10000) : byteWidth c = 4 := by
  unfold byteWidth; rw [if_neg (by omega), if_neg (by omega), if_neg h]

private theorem nextColumn_stay {c : Char} {k : Nat} (h : byteWidth c = 1 ∨ k + min (byteWidth c) 3 ≤ 75) : nextColumn k c = wrapCol (k + byteWidth c) := by
  unfold nextColumn wrapCol
  have e : (if 2 ≤ byteWidth c ∧ 75 < k + min (byteWidth c) 3 then 1 else k) = k := if_neg (by omega)
  simp only [e]
private theorem nextColumn_move {c : Char} {k : Nat} (h : 2 ≤ byteWidth c) (h' : 75 < k + min (byteWidth c) 3) : nextColumn k c = wrapCol (1 + byteWidth c) := by
  unfold nextColumn wrapCol
  have e : (if 2 ≤ byteWidth c ∧ 75 < k + min (byteWidth c) 3 then 1 else k) = 1 := if_pos ⟨h, h'⟩
  simp only [e]

/-- One character at column `k`, not a 4-byte character at column 72. -/
private theorem step_col (c : Char) (k : Nat) (hk : k ≤ 74) (hc : c.toNat < 0x10000 ∨ k ≠ 72) (s : QByteArray) :
    ∃ pre rest, piecesMb k 0 (String.utf8EncodeChar c ++ s) = pre ++ addHeads (String.utf8EncodeChar c) rest ∧
      (pre = [] ∨ pre = [[]]) ∧ (rest = piecesMb (nextColumn k c) 0 s ∨ rest = [] :: piecesMb (nextColumn k c) 0 s) := by
  have hv : c.val.toNat = c.toNat := rfl
  have hr := char_range c
  unfold String.utf8EncodeChar
  simp only [hv]
  by_cases w1 : c.toNat < 0x80
  · rw [nextColumn_stay (Or.inl (byteWidth_1 w1)), byteWidth_1 w1]
    generalize c.toNat = n at *
    have e := toNat_ofNat8 n (by omega)
    have h1 : ¬ (UInt8.ofNat n &&& 0xC0 = 0xC0) := by rw [and_C0, e]; omega
    rw [if_pos (by omega : n ≤ 127)]
    simp only [List.cons_append, List.nil_append, piecesMb, h1, if_false]
    obtain ⟨rest, r1, r2⟩ := after_wrap (k + 1) s [UInt8.ofNat n]
    exact ⟨[], rest, r1, Or.inl rfl, r2⟩
  rw [if_neg (by omega : ¬ c.toNat ≤ 127)]
  by_cases w2 : c.toNat < 0x800
  · have hw := byteWidth_2 w1 w2
    rw [if_pos (by omega : c.toNat ≤ 0x7ff)]
    have e := toNat_ofNat8 (c.toNat / 64 % 32 + 192) (by omega)
    have h1 : (UInt8.ofNat (c.toNat / 64 % 32 + 192) &&& 0xC0 = 0xC0) := by rw [and_C0, e]; omega
    have h2 : sequenceLength (UInt8.ofNat (c.toNat / 64 % 32 + 192)) = 2 := by
      unfold sequenceLength
      rw [if_neg (by rw [and_E0, e]; omega), if_neg (by rw [and_F0, e]; omega)]
    simp only [List.cons_append, List.nil_append, piecesMb_lead _ _ _ _ h1 h2, Nat.reduceSub, piecesMb_one]
    by_cases hf : k + 2 > FOLD_WIDTH
    · have hf' : 75 < k + 2 := hf
      rw [if_pos hf, nextColumn_move (by omega) (by rw [hw]; omega), hw]
      obtain ⟨rest, r1, r2⟩ := after_wrap (1 + 2) s [UInt8.ofNat (c.toNat / 64 % 32 + 192), UInt8.ofNat (c.toNat % 64 + 128)]
      refine ⟨[[]], rest, ?_, Or.inr rfl, r2⟩
      rw [← r1, List.singleton_append]; congr 1
    · have hf' : ¬ 75 < k + _ := hf
      rw [if_neg hf, nextColumn_stay (by rw [hw]; omega), hw]
      obtain ⟨rest, r1, r2⟩ := after_wrap (k + 2) s [UInt8.ofNat (c.toNat / 64 % 32 + 192), UInt8.ofNat (c.toNat % 64 + 128)]
      refine ⟨[], rest, ?_, Or.inl rfl, r2⟩
      rw [← r1, List.nil_append]; split_ifs <;> rfl
  rw [if_neg (by omega : ¬ c.toNat ≤ 0x7ff)]
  by_cases w3 : c.toNat < 0x10000
  · have hw := byteWidth_3 w2 w3
    rw [if_pos (by omega : c.toNat ≤ 0xffff)]
    have e := toNat_ofNat8 (c.toNat / 4096 % 16 + 224) (by omega)
    have h1 : (UInt8.ofNat (c.toNat / 4096 % 16 + 224) &&& 0xC0 = 0xC0) := by rw [and_C0, e]; omega
    have h2 : sequenceLength (UInt8.ofNat (c.toNat / 4096 % 16 + 224)) = 3 := by
      unfold sequenceLength
      rw [if_pos (by rw [and_E0, e]; omega)]
    simp only [List.cons_append, List.nil_append, piecesMb_lead _ _ _ _ h1 h2, Nat.reduceSub, piecesMb_two, piecesMb_one]
    by_cases hf : k + 3 > FOLD_WIDTH
    · have hf' : 75 < k + 3 := hf
      rw [if_pos hf, nextColumn_move (by omega) (by rw [hw]; omega), hw]
      obtain ⟨rest, r1, r2⟩ := after_wrap (1 + 3) s [UInt8.ofNat (c.toNat / 4096 % 16 + 224), UInt8.ofNat (c.toNat / 64 % 64 + 128), UInt8.ofNat (c.toNat % 64 + 128)]
      refine ⟨[[]], rest, ?_, Or.inr rfl, r2⟩
      rw [← r1, List.singleton_append]; congr 1
    · have hf' : ¬ 75 < k + _ := hf
      rw [if_neg hf, nextColumn_stay (by rw [hw]; omega), hw]
      obtain ⟨rest, r1, r2⟩ := after_wrap (k + 3) s [UInt8.ofNat (c.toNat / 4096 % 16 + 224), UInt8.ofNat (c.toNat / 64 % 64 + 128), UInt8.ofNat (c.toNat % 64 + 128)]
      refine ⟨[], rest, ?_, Or.inl rfl, r2⟩
      rw [← r1, List.nil_append]; split_ifs <;> rfl
  · have hk2 : k ≠ 72 := hc.resolve_left w3
    have hw := byteWidth_4 w3
    rw [if_neg (by omega : ¬ c.toNat ≤ 0xffff)]
    have e := toNat_ofNat8 (c.toNat / 262144 % 8 + 240) (by omega)
    have e4 := toNat_ofNat8 (c.toNat % 64 + 128) (by omega)
    have h1 : (UInt8.ofNat (c.toNat / 262144 % 8 + 240) &&& 0xC0 = 0xC0) := by rw [and_C0, e]; omega
    have h2 : sequenceLength (UInt8.ofNat (c.toNat / 262144 % 8 + 240)) = 3 := by
      unfold sequenceLength
      rw [if_pos (by rw [and_E0, e]; omega)]
    have h4 : ¬ (UInt8.ofNat (c.toNat % 64 + 128) &&& 0xC0 = 0xC0) := by rw [and_C0, e4]; omega
    simp only [List.cons_append, List.nil_append, piecesMb_lead _ _ _ _ h1 h2, Nat.reduceSub, piecesMb_two, piecesMb_one]
    by_cases hf : k + 3 > FOLD_WIDTH
    · have hf' : 75 < k + 3 := hf
      rw [if_pos hf, nextColumn_move (by omega) (by rw [hw]; omega), hw, if_neg (by simp [FOLD_WIDTH])]
      obtain ⟨rest, r1, r2⟩ := after_wrap (1 + 4) s [UInt8.ofNat (c.toNat / 262144 % 8 + 240), UInt8.ofNat (c.toNat / 4096 % 64 + 128),
        UInt8.ofNat (c.toNat / 64 % 64 + 128), UInt8.ofNat (c.toNat % 64 + 128)]
      refine ⟨[[]], rest, ?_, Or.inr rfl, r2⟩
      rw [← r1, List.singleton_append]; congr 1
      simp only [piecesMb, h4, if_false]; split_ifs <;> rfl
    · have hf' : ¬ 75 < k + _ := hf
      rw [if_neg hf, nextColumn_stay (by rw [hw]; omega), hw, if_neg (by rintro ⟨h, -⟩; unfold FOLD_WIDTH at h; omega)]
      obtain ⟨rest, r1, r2⟩ := after_wrap (k + 4) s [UInt8.ofNat (c.toNat / 262144 % 8 + 240), UInt8.ofNat (c.toNat / 4096 % 64 + 128),
        UInt8.ofNat (c.toNat / 64 % 64 + 128), UInt8.ofNat (c.toNat % 64 + 128)]
      refine ⟨[], rest, ?_, Or.inl rfl, r2⟩
      rw [← r1, List.nil_append]
      simp only [piecesMb, h4, if_false]; split_ifs <;> rfl

/-- A 4-byte character at column 72 is cut after its third byte. -/
private theorem step_torn (c : Char) (hc : 0x10000 ≤ c.toNat) (s : QByteArray) :
    ∃ a b d rest, piecesMb 72 0 (String.utf8EncodeChar c ++ s) = [a, b, d] :: rest := by
  have hv : c.val.toNat = c.toNat := rfl
  have hr := char_range c
  unfold String.utf8EncodeChar
  simp only [hv]
  generalize c.toNat = n at *
  have e := toNat_ofNat8 (n / 262144 % 8 + 240) (by omega)
  have h1 : (UInt8.ofNat (n / 262144 % 8 + 240) &&& 0xC0 = 0xC0) := by rw [and_C0, e]; omega
  have h2 : sequenceLength (UInt8.ofNat (n / 262144 % 8 + 240)) = 3 := by
    unfold sequenceLength
    rw [if_pos (by rw [and_E0, e]; omega)]
  rw [if_neg (by omega), if_neg (by omega), if_neg (by omega)]
  simp only [List.cons_append, List.nil_append, piecesMb_lead _ _ _ _ h1 h2, Nat.reduceSub, piecesMb_two, piecesMb_one]
  rw [if_neg (by decide), if_pos (by simp [FOLD_WIDTH])]
  exact ⟨_, _, _, _, rfl⟩

/-- The pieces carry whole characters. -/
private def Whole (ps : List (List UInt8)) (cs : List Char) : Prop := ∃ css : List (List Char), css.flatten = cs ∧ ps = css.map utf8

private theorem utf8_cons (c : Char) (cs : List Char) : utf8 (c :: cs) = String.utf8EncodeChar c ++ utf8 cs := by simp [utf8]

private theorem whole_head {c : Char} {cs : List Char} {h : List UInt8} {t : List (List UInt8)} (hh : h ≠ []) (w : Whole (h :: t) (c :: cs)) :
    ∃ x, h = String.utf8EncodeChar c ++ utf8 x ∧ Whole (utf8 x :: t) cs := by
  obtain ⟨css, hf, hm⟩ := w
  cases css with
  | nil => simp at hf
  | cons a css =>
    simp only [List.map_cons, List.cons.injEq] at hm
    obtain ⟨rfl, rfl⟩ := hm
    cases a with
    | nil => simp [utf8] at hh
    | cons y x =>
      simp only [List.flatten_cons, List.cons_append, List.cons.injEq] at hf
      obtain ⟨rfl, hf⟩ := hf
      exact ⟨x, utf8_cons _ _, x :: css, by simpa using hf, by simp⟩

private theorem whole_nil_iff (ps : List (List UInt8)) (cs : List Char) : Whole ([] :: ps) cs ↔ Whole ps cs := by
  constructor
  · rintro ⟨css, hf, hm⟩
    cases css with
    | nil => simp at hm
    | cons a css =>
      simp only [List.map_cons, List.cons.injEq] at hm
      obtain ⟨h1, rfl⟩ := hm
      cases a with
      | nil => exact ⟨css, by simpa using hf, rfl⟩
      | cons y x =>
        rw [utf8_cons] at h1
        have := String.length_utf8EncodeChar y
        rw [eq_comm, List.append_eq_nil_iff] at h1
        rw [h1.1] at this
        have h3 := Char.utf8Size_pos y
        simp at this; omega
  · rintro ⟨css, hf, rfl⟩
    exact ⟨[] :: css, by simpa using hf, by simp [utf8]⟩

private theorem enc_ne (c : Char) : String.utf8EncodeChar c ≠ [] := by
  intro h
  have := String.length_utf8EncodeChar c
  rw [h] at this
  have h3 := Char.utf8Size_pos c
  simp at this; omega

private theorem whole_addHeads (c : Char) (cs : List Char) (rest : List (List UInt8)) (hr : rest ≠ []) :
    Whole (addHeads (String.utf8EncodeChar c) rest) (c :: cs) ↔ Whole rest cs := by
  cases rest with
  | nil => exact absurd rfl hr
  | cons r rs =>
    rw [addHeads_cons]
    constructor
    · intro w
      obtain ⟨x, h1, h2⟩ := whole_head (by simp [enc_ne]) w
      rwa [← List.append_cancel_left h1] at h2
    · rintro ⟨css, hf, hm⟩
      cases css with
      | nil => simp at hm
      | cons a css =>
        simp only [List.map_cons, List.cons.injEq] at hm
        obtain ⟨rfl, rfl⟩ := hm
        exact ⟨(c :: a) :: css, by simpa using hf, by simp [utf8_cons]⟩

private theorem nextColumn_le (k : Nat) (c : Char) (hk : k ≤ 74) (hc : c.toNat < 0x10000 ∨ k ≠ 72) : nextColumn k c ≤ 74 := by
  unfold nextColumn byteWidth
  simp only
  repeat' split
  all_goals omega

private theorem whole_iff (cs : List Char) (k : Nat) (hk : k ≤ 74) :
    Whole (piecesMb k 0 (utf8 cs)) cs ↔ ∀ pre c post, cs = pre ++ c :: post → 0x10000 ≤ c.toNat → pre.foldl nextColumn k ≠ 72 := by
  induction cs generalizing k with
  | nil => exact ⟨fun _ pre c post h => by simp at h, fun _ => ⟨[[]], by simp, by simp [utf8, piecesMb]⟩⟩
  | cons c cs ih =>
    rw [utf8_cons]
    by_cases hc : c.toNat < 0x10000 ∨ k ≠ 72
    · obtain ⟨pre, rest, h1, h2, h3⟩ := step_col c k hk hc (utf8 cs)
      have hrne : rest ≠ [] := by rcases h3 with rfl | rfl; exact piecesMb_ne _ _ _; simp
      have e1 : Whole (piecesMb k 0 (String.utf8EncodeChar c ++ utf8 cs)) (c :: cs) ↔ Whole rest cs := by
        rw [h1]
        rcases h2 with rfl | rfl
        · rw [List.nil_append, whole_addHeads _ _ _ hrne]
        · rw [List.singleton_append, whole_nil_iff, whole_addHeads _ _ _ hrne]
      have e2 : Whole rest cs ↔ Whole (piecesMb (nextColumn k c) 0 (utf8 cs)) cs := by
        rcases h3 with rfl | rfl
        · rfl
        · rw [whole_nil_iff]
      rw [e1, e2, ih _ (nextColumn_le k c hk hc)]
      constructor
      · intro h pre d post he hd
        cases pre with
        | nil =>
          simp only [List.nil_append, List.cons.injEq] at he
          obtain ⟨rfl, rfl⟩ := he
          exact hc.resolve_left (by omega)
        | cons x pre =>
          simp only [List.cons_append, List.cons.injEq] at he
          obtain ⟨rfl, rfl⟩ := he
          exact h pre d post rfl hd
      · intro h pre d post he hd
        exact h (c :: pre) d post (by rw [he]; rfl) hd
    · have hc1 : 0x10000 ≤ c.toNat := by omega
      have hc2 : k = 72 := by omega
      subst hc2
      constructor
      · intro w
        obtain ⟨a, b, d, rest, h1⟩ := step_torn c hc1 (utf8 cs)
        rw [h1] at w
        obtain ⟨x, h2, -⟩ := whole_head (by simp) w
        have := congrArg List.length h2
        rw [List.length_append, String.length_utf8EncodeChar] at this
        have h4 : c.utf8Size = 4 := by
          have hv : c.val.toNat = c.toNat := rfl
          unfold Char.utf8Size
          simp only [UInt32.le_iff_toNat_le]
          rw [if_neg, if_neg, if_neg] <;> simp [hv] <;> omega
        simp only [List.length_cons, List.length_nil] at this; omega
      · intro h
        exact absurd rfl (h [] c cs rfl hc1)

private theorem enc_length (c : Char) : (String.utf8EncodeChar c).length = byteWidth c := by
  have hv : c.val.toNat = c.toNat := rfl
  unfold String.utf8EncodeChar byteWidth
  simp only [hv]
  generalize c.toNat = n
  by_cases w1 : n < 0x80
  · rw [if_pos (by omega), if_pos w1]; rfl
  · rw [if_neg (by omega), if_neg w1]
    by_cases w2 : n < 0x800
    · rw [if_pos (by omega), if_pos w2]; rfl
    · rw [if_neg (by omega), if_neg w2]
      by_cases w3 : n < 0x10000
      · rw [if_pos (by omega), if_pos w3]; rfl
      · rw [if_neg (by omega), if_neg w3]; rfl

private theorem column_short (cs : List Char) (k : Nat) (h : k + (utf8 cs).length ≤ 75) :
    ∀ pre c post, cs = pre ++ c :: post → 0x10000 ≤ c.toNat → pre.foldl nextColumn k ≠ 72 := by
  induction cs generalizing k with
  | nil => intro pre c post he; simp at he
  | cons x cs ih =>
    intro pre c post he hc
    rw [utf8_cons, List.length_append, enc_length] at h
    cases pre with
    | nil =>
      simp only [List.nil_append, List.cons.injEq] at he
      obtain ⟨rfl, rfl⟩ := he
      rw [byteWidth_4 (by omega)] at h
      simp only [List.foldl_nil]; omega
    | cons y pre =>
      simp only [List.cons_append, List.cons.injEq] at he
      obtain ⟨rfl, rfl⟩ := he
      have hl : 4 ≤ (utf8 (pre ++ c :: post)).length := by
        have : utf8 (pre ++ c :: post) = utf8 pre ++ (String.utf8EncodeChar c ++ utf8 post) := by simp [utf8]
        rw [this, List.length_append, List.length_append, enc_length, byteWidth_4 (by omega)]
        omega
      have hn : nextColumn k x = k + byteWidth x := by
        rw [nextColumn_stay (by omega)]; unfold wrapCol; rw [if_neg (by omega)]
      rw [List.foldl_cons, hn]
      exact ih _ (by omega) pre c post rfl hc

/-- Exactly when folding keeps characters whole: for every text without line breaks, each physical line carries a whole number of
    characters if and only if no character above U+FFFF begins when 72 bytes are in its line. -/
theorem C05_torn_iff (cs : List Char) (hn : '\n' ∉ cs) :
    (∃ (first : List Char) (rest : List (List Char)),
      first ++ rest.flatten = cs ∧ fixLineSize (utf8 cs) true = physical (utf8 first) (rest.map utf8)) ↔
    ∀ pre c post, cs = pre ++ c :: post → 0x10000 ≤ c.toNat → column pre ≠ 72 := by
  have hb : ∀ l : List Char, '\n' ∉ l → (10 : UInt8) ∉ utf8 l := by
    intro l hl hm
    simp only [utf8, List.mem_flatMap] at hm
    obtain ⟨c, hc, hm⟩ := hm
    have hv : c.val.toNat = c.toNat := rfl
    have hr := char_range c
    have : c.toNat = 10 := by
      have h0 : (UInt8.toNat 10) = 10 := rfl
      unfold String.utf8EncodeChar at hm
      simp only [hv] at hm
      generalize c.toNat = n at *
      split at hm
      · simp only [List.mem_singleton] at hm
        have := congrArg UInt8.toNat hm
        rw [toNat_ofNat8 _ (by omega), h0] at this; exact this.symm
      · split at hm
        · simp only [List.mem_cons, List.not_mem_nil, or_false] at hm
          rcases hm with hm | hm <;>
            (have := congrArg UInt8.toNat hm; rw [toNat_ofNat8 _ (by omega), h0] at this; omega)
        · split at hm
          · simp only [List.mem_cons, List.not_mem_nil, or_false] at hm
            rcases hm with hm | hm | hm <;>
              (have := congrArg UInt8.toNat hm; rw [toNat_ofNat8 _ (by omega), h0] at this; omega)
          · simp only [List.mem_cons, List.not_mem_nil, or_false] at hm
            rcases hm with hm | hm | hm | hm <;>
              (have := congrArg UInt8.toNat hm; rw [toNat_ofNat8 _ (by omega), h0] at this; omega)
    apply hl
    have : c = '\n' := by
      apply Char.ext; apply UInt32.toNat.inj; exact this
    rw [← this]; exact hc
  obtain ⟨h, t, hp, hf⟩ := fixLineSize_eq (utf8 cs) true
  have key : (∃ (first : List Char) (rest : List (List Char)),
      first ++ rest.flatten = cs ∧ fixLineSize (utf8 cs) true = physical (utf8 first) (rest.map utf8)) ↔ Whole (h :: t) cs := by
    constructor
    · rintro ⟨first, rest, h1, h2⟩
      refine ⟨first :: rest, by simpa using h1, ?_⟩
      rw [hf] at h2
      have hfl := flatten_pieces (utf8 cs) true
      rw [hp] at hfl
      simp only [List.flatten_cons] at hfl
      have a1 : (10 : UInt8) ∉ h := fun e => hb cs hn (by rw [← hfl]; simp [e])
      have a2 : ∀ r ∈ t, (10 : UInt8) ∉ r := fun r hr e => hb cs hn (by
        rw [← hfl]; simp only [List.mem_append, List.mem_flatten]; exact Or.inr ⟨r, hr, e⟩)
      have b1 : (10 : UInt8) ∉ utf8 first := hb _ (fun e => hn (by rw [← h1]; simp [e]))
      have b2 : ∀ r ∈ rest.map utf8, (10 : UInt8) ∉ r := by
        intro r hr
        obtain ⟨x, hx, rfl⟩ := List.mem_map.1 hr
        exact hb _ (fun e => hn (by rw [← h1, List.mem_append, List.mem_flatten]; exact Or.inr ⟨x, hx, e⟩))
      have := congrArg linesOf h2
      rw [linesOf_physical h t a1 a2, linesOf_physical _ _ b1 b2] at this
      have := List.cons.inj (List.append_cancel_right this)
      have e1 := List.append_cancel_right this.1
      have e2 := congrArg (List.map fun l => l.tail.dropLast) this.2
      simp only [List.map_map, Function.comp_def, List.cons_append, List.tail_cons, List.dropLast_concat, List.map_id'] at e2
      rw [List.map_cons, e1, e2]
    · rintro ⟨css, h1, h2⟩
      cases css with
      | nil => simp at h2
      | cons a b =>
        simp only [List.map_cons, List.cons.injEq] at h2
        obtain ⟨rfl, rfl⟩ := h2
        exact ⟨a, b, by simpa using h1, hf⟩
  rw [key, ← hp]
  unfold pieces
  by_cases hl : (utf8 cs).length > FOLD_WIDTH
  · rw [if_pos hl, if_pos rfl]
    exact whole_iff cs 0 (by omega)
  · rw [if_neg hl]
    exact ⟨fun _ => column_short cs 0 (by unfold FOLD_WIDTH at hl; omega), fun _ => ⟨[cs], by simp, by simp⟩⟩

/-- Non-vacuity: in the first text the character begins at column 72, in the second at column 71 of the second line. -/
example : column (List.replicate 72 'a') = 72 ∧ column (List.replicate 74 'a' ++ ['ü'] ++ List.replicate 68 'b') = 71 := by decide +kernel

end KC