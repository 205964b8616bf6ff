import Verif.Props.C03
/-
  C04: folded lines respect the width limit (RFC 6350: at most 75 bytes, line break not counted).
-/
namespace KC
open Spec

private theorem seqLen_bounds (c : UInt8) : 2 ≤ sequenceLength c ∧ sequenceLength c ≤ 4 := by
  unfold sequenceLength; (repeat' split) <;> omega

private theorem addHead_eq (c : UInt8) (l : List (List UInt8)) (h : List UInt8) (t : List (List UInt8)) :
    addHead c l = h :: t → l = [] ∧ h = [c] ∧ t = [] ∨ ∃ h', l = h' :: t ∧ h = c :: h' := by
  cases l with
  | nil => intro e; simp only [addHead, List.cons.injEq] at e; left; exact ⟨rfl, e.1.symm, e.2.symm⟩
  | cons a b => intro e; simp only [addHead, List.cons.injEq] at e; right; exact ⟨a, by rw [e.2], e.1.symm⟩

private theorem width_piecesMb (len k : Nat) (s : QByteArray) (h : List UInt8) (t : List (List UInt8))
    (hp : piecesMb len k s = h :: t) (hlen : len ≤ 75) (hk : k = 0 → len < 75 ∨ s = []) :
    h.length + len ≤ 75 + k ∧ ∀ r ∈ t, r.length ≤ 74 := by
  induction s generalizing len k h t with
  | nil => simp only [piecesMb, List.cons.injEq] at hp; obtain ⟨rfl, rfl⟩ := hp; simp; omega
  | cons c s ih =>
    have add : ∀ len' k', addHead c (piecesMb len' k' s) = h :: t → len' ≤ 75 → (k' = 0 → len' < 75 ∨ s = []) →
        h.length + len' ≤ 75 + k' + 1 ∧ ∀ r ∈ t, r.length ≤ 74 := by
      intro len' k' e h1 h2
      rcases addHead_eq _ _ _ _ e with ⟨a, _⟩ | ⟨h', a, rfl⟩
      · exact absurd a (piecesMb_ne _ _ _)
      · have := ih len' k' h' t a h1 h2
        simp only [List.length_cons]; exact ⟨by omega, this.2⟩
    have brk : addHead c ([] :: piecesMb 1 0 s) = h :: t → h.length = 1 ∧ ∀ r ∈ t, r.length ≤ 74 := by
      intro e
      simp only [addHead, List.cons.injEq] at e
      obtain ⟨rfl, rfl⟩ := e
      refine ⟨rfl, ?_⟩
      cases hq : piecesMb 1 0 s with
      | nil => simp
      | cons a b =>
        have := ih 1 0 a b hq (by omega) (by intro; left; omega)
        intro r hr
        simp only [List.mem_cons] at hr
        rcases hr with rfl | hr
        · omega
        · exact this.2 r hr
    cases k with
    | zero =>
      have hl : len < 75 := by
        rcases hk rfl with h | h
        · exact h
        · simp at h
      have hb := seqLen_bounds c
      simp only [piecesMb] at hp
      split at hp
      · split at hp
        · rename_i _ hbig
          simp only [List.cons.injEq] at hp
          obtain ⟨rfl, ht⟩ := hp
          refine ⟨by simp; omega, ?_⟩
          cases t with
          | nil => simp
          | cons a b =>
            rcases addHead_eq _ _ _ _ ht with ⟨e, _⟩ | ⟨h', e, rfl⟩
            · exact absurd e (piecesMb_ne _ _ _)
            · have := ih _ _ h' b e (by omega) (by intro; omega)
              intro r hr
              simp only [List.mem_cons] at hr
              rcases hr with rfl | hr
              · simp only [List.length_cons]; omega
              · exact this.2 r hr
        · rename_i _ hbig
          unfold FOLD_WIDTH at hbig
          have := add _ _ hp (by omega) (by intro; omega)
          exact ⟨by omega, this.2⟩
      · split at hp
        · have := brk hp; exact ⟨by omega, this.2⟩
        · rename_i hn
          unfold FOLD_WIDTH at hn
          have := add _ _ hp (by omega) (by
            intro _
            by_cases hs : s = []
            · right; exact hs
            · left; by_cases he : len + 1 = 75
              · exact absurd ⟨he, hs⟩ hn
              · omega)
          exact ⟨by omega, this.2⟩
    | succ k =>
      simp only [piecesMb] at hp
      split at hp
      · rename_i hk0
        split at hp
        · have := brk hp; exact ⟨by omega, this.2⟩
        · rename_i hn
          unfold FOLD_WIDTH at hn
          have := add _ _ hp (by omega) (by
            intro _
            by_cases hs : s = []
            · right; exact hs
            · left; by_cases he : len = 75
              · exact absurd ⟨he, hs⟩ hn
              · omega)
          exact ⟨by omega, this.2⟩
      · rename_i hk0
        have := add _ _ hp (by omega) (by intro h0; omega)
        exact ⟨by omega, this.2⟩

private theorem width_lines (line : QByteArray) (mb : Bool) (hn : (10 : UInt8) ∉ line) (w : Nat)
    (H : ∀ h t, pieces line mb = h :: t → h.length ≤ w ∧ ∀ r ∈ t, r.length + 1 ≤ w) :
    ∀ l ∈ linesOf (fixLineSize line mb), (dropCR l).length ≤ w := by
  obtain ⟨h, t, hp, hf⟩ := fixLineSize_eq line mb
  have hfl := flatten_pieces line mb
  rw [hp] at hfl
  simp only [List.flatten_cons] at hfl
  have hh : (10 : UInt8) ∉ h := fun e => hn (by rw [← hfl]; simp [e])
  have ht : ∀ r ∈ t, (10 : UInt8) ∉ r := fun r hr e => hn (by
    rw [← hfl]; simp only [List.mem_append, List.mem_flatten]; exact Or.inr ⟨r, hr, e⟩)
  obtain ⟨H1, H2⟩ := H h t hp
  rw [hf, linesOf_physical h t hh ht]
  intro l hl
  simp only [List.mem_append, List.mem_cons, List.mem_map, List.not_mem_nil, or_false] at hl
  rcases hl with (rfl | ⟨r, hr, rfl⟩) | rfl
  · rw [dropCR_append]; exact H1
  · have := dropCR_append (32 :: r)
    rw [this]; exact H2 r hr
  · simp [dropCR]

/-- C04, text mode (the mode used for every text value): no physical line is longer than 75 bytes. -/
theorem C04_width_text (line : QByteArray) (hn : (10 : UInt8) ∉ line) :
    ∀ l ∈ linesOf (fixLineSize line true), (dropCR l).length ≤ 75 := by
  apply width_lines line true hn
  intro h t hp
  unfold pieces at hp
  split at hp
  · simp only [if_true] at hp
    have := width_piecesMb 0 0 line h t hp (by omega) (by intro; left; omega)
    refine ⟨by omega, fun r hr => ?_⟩
    have := this.2 r hr; omega
  · rename_i hl
    simp only [List.cons.injEq] at hp
    obtain ⟨rfl, rfl⟩ := hp
    unfold FOLD_WIDTH at hl
    exact ⟨by omega, by simp⟩

/-- Part of C04 for the byte mode (base64, quoted-printable, foreign charsets): no physical line is longer than 76 bytes.
    Missing: the limit of 75 bytes, which continuation lines exceed by one (`C04_width_bytes_false`). -/
theorem C04_width_bytes_partial (line : QByteArray) (hn : (10 : UInt8) ∉ line) :
    ∀ l ∈ linesOf (fixLineSize line false), (dropCR l).length ≤ 76 := by
  apply width_lines line false hn
  intro h t hp
  unfold pieces at hp
  split at hp
  · simp only [Bool.false_eq_true, if_false] at hp
    have H : ∀ r ∈ h :: t, r.length ≤ 75 := by
      rw [← hp]
      intro r hr
      simp only [piecesFixed, List.mem_map] at hr
      obtain ⟨i, _, rfl⟩ := hr
      simp [mid, FOLD_WIDTH]; omega
    exact ⟨by have := H h (by simp); omega, fun r hr => by have := H r (by simp [hr]); omega⟩
  · rename_i hl
    simp only [List.cons.injEq] at hp
    obtain ⟨rfl, rfl⟩ := hp
    unfold FOLD_WIDTH at hl
    exact ⟨by omega, by simp⟩

/-- C04 as stated is false in byte mode: a line of 150 bytes yields a physical line of 76 bytes. -/
theorem C04_width_bytes_false : ¬ ∀ line : QByteArray, (10 : UInt8) ∉ line →
    ∀ l ∈ linesOf (fixLineSize line false), (dropCR l).length ≤ 75 := by
  intro h
  have := h (List.replicate 150 65) (by decide +kernel) (32 :: List.replicate 75 65 ++ [13]) (by decide +kernel)
  revert this; decide +kernel

/-- Every physical line, including the last, is terminated by CR LF: what follows the last LF is empty, and every line before it
    ends in CR. -/
theorem C04_lines_terminated (line : QByteArray) (mb : Bool) (hn : (10 : UInt8) ∉ line) :
    ∃ ls, linesOf (fixLineSize line mb) = ls ++ [[]] ∧ ∀ l ∈ ls, l.getLast? = some 13 := by
  obtain ⟨h, t, hp, hf⟩ := fixLineSize_eq line mb
  have hfl := flatten_pieces line mb
  rw [hp] at hfl
  simp only [List.flatten_cons] at hfl
  have hh : (10 : UInt8) ∉ h := fun e => hn (by rw [← hfl]; simp [e])
  have ht : ∀ r ∈ t, (10 : UInt8) ∉ r := fun r hr e => hn (by
    rw [← hfl]; simp only [List.mem_append, List.mem_flatten]; exact Or.inr ⟨r, hr, e⟩)
  rw [hf, linesOf_physical h t hh ht]
  refine ⟨_, rfl, ?_⟩
  intro l hl
  simp only [List.mem_cons, List.mem_map] at hl
  rcases hl with rfl | ⟨r, _, rfl⟩
  · simp
  · show (32 :: r ++ [13]).getLast? = some 13
    rw [List.getLast?_append]; rfl

example : (10 : UInt8) ∉ (List.replicate 150 65 : QByteArray) := by decide +kernel
-- the bound of text mode is reached
example : ∃ l ∈ linesOf (fixLineSize (List.replicate 150 65) true), (dropCR l).length = 75 :=
  ⟨List.replicate 75 65 ++ [13], by decide +kernel, by decide +kernel⟩

end KC
