import Verif.Lemmas.ReadLines
import Verif.Spec.Lines
/-
  C07: reading a vCard terminates. False in general (the loop restarts from the beginning of the text when a quoted-printable soft
  line break runs into the end); proved for every text whose last lines are not soft line breaks.
-/
namespace KC
open Spec

/-! ### The value ends in '=' only if the line does -/

theorem getLast?_cons_ne {α} (x : α) (l : List α) (h : l ≠ []) : (x :: l).getLast? = l.getLast? := by
  cases l with
  | nil => exact absurd rfl h
  | cons y t => simp [List.getLast?_cons_cons]

theorem replace2_ne_nil (a b r : UInt8) (s : QByteArray) (h : s ≠ []) : replace2 a b [r] s ≠ [] := by
  cases s with
  | nil => exact absurd rfl h
  | cons x t => cases t with
    | nil => simp [replace2]
    | cons y t => simp only [replace2]; split <;> simp

theorem replace2_last (a b r e : UInt8) (hr : r ≠ e) (n : Nat) (s : QByteArray) (hn : s.length ≤ n)
    (h : (replace2 a b [r] s).getLast? = some e) : s.getLast? = some e := by
  induction n generalizing s with
  | zero =>
    have : s = [] := List.eq_nil_of_length_eq_zero (by omega)
    subst this; simp [replace2] at h
  | succ n ih =>
    cases s with
    | nil => simp [replace2] at h
    | cons x t => cases t with
      | nil => simpa [replace2] using h
      | cons y t =>
        simp only [replace2] at h
        simp only [List.length_cons] at hn
        split at h
        · by_cases ht : t = []
          · subst ht; simp [replace2] at h; exact absurd h hr
          · have hne := replace2_ne_nil a b r t ht
            have h' : (r :: replace2 a b [r] t).getLast? = some e := h
            rw [getLast?_cons_ne _ _ hne] at h'
            rw [getLast?_cons_ne _ _ (by simp), getLast?_cons_ne _ _ ht]
            exact ih t (by omega) h'
        · have hne := replace2_ne_nil a b r (y :: t) (by simp)
          rw [getLast?_cons_ne _ _ hne] at h
          rw [getLast?_cons_ne _ _ (by simp)]
          exact ih (y :: t) (by simp; omega) h

theorem removeEscapes_last (s : QByteArray) (h : endsWithChar (c! '=') (removeEscapes s) = true) :
    endsWithChar (c! '=') s = true := by
  unfold endsWithChar at *
  simp only [beq_iff_eq] at *
  unfold removeEscapes at h
  split at h
  · exact h
  · simp only at h
    have h5 := replace2_last _ _ _ _ (by decide) _ _ (Nat.le_refl _) h
    have h4 := replace2_last _ _ _ _ (by decide) _ _ (Nat.le_refl _) h5
    have h3 := replace2_last _ _ _ _ (by decide) _ _ (Nat.le_refl _) h4
    have h2 := replace2_last _ _ _ _ (by decide) _ _ (Nat.le_refl _) h3
    exact replace2_last _ _ _ _ (by decide) _ _ (Nat.le_refl _) h2

theorem scan_rest_suffix (p : PL) (s : QByteArray) : ∀ q rest, PL.scan p s = (q, some rest) → ∃ pre, s = pre ++ rest := by
  induction s generalizing p with
  | nil => intro q rest h; simp [PL.scan] at h
  | cons c t ih =>
    intro q rest h
    simp only [PL.scan] at h
    split at h
    · simp at h; exact ⟨[c], by simp [h.2]⟩
    · obtain ⟨pre, hp⟩ := ih _ q rest h
      exact ⟨c :: pre, by simp [hp]⟩

theorem endsWith_suffix {pre rest : QByteArray} (h : endsWithChar (c! '=') rest = true) :
    endsWithChar (c! '=') (pre ++ rest) = true := by
  unfold endsWithChar at *
  simp only [beq_iff_eq] at *
  rw [List.getLast?_append, h]; rfl

theorem endsWith_append_ne {pre rest : QByteArray} (hr : rest ≠ []) (h : endsWithChar (c! '=') (pre ++ rest) = true) :
    endsWithChar (c! '=') rest = true := by
  unfold endsWithChar at *
  simp only [beq_iff_eq] at *
  rw [List.getLast?_append] at h
  cases hh : rest.getLast? with
  | none => simp at hh; exact absurd hh hr
  | some x => rw [hh] at h; simpa using h

/-! ### Texts whose last two terminated lines are no soft breaks -/

/-- the join loop stops at the first non-empty line that does not end in '=' -/
theorem ajoinQP_stops (lines : List QByteArray) (k : Nat) (hk : lines.length = k + 3)
    (hA : lines.getD k [] ≠ []) (hA' : endsWithChar (c! '=') (lines.getD k []) = false)
    (n : Nat) (v : QByteArray) (i : Nat) (hi : i ≤ k) (hn : k + 2 - i ≤ n) :
    ∃ v' j, ajoinQP lines n v ⟨i, false, lines.getD i []⟩ = some (v', ⟨j, false, lines.getD j []⟩) ∧ i ≤ j ∧ j ≤ k + 1 := by
  induction n generalizing v i with
  | zero => omega
  | succ n ih =>
    simp only [ajoinQP]
    by_cases he : endsWithChar (c! '=') v = true
    · rw [if_pos he]
      have hf : afetch lines ⟨i, false, lines.getD i []⟩ = (lines.getD i [], ⟨i + 1, false, lines.getD (i + 1) []⟩) := by
        simp only [afetch, Bool.false_eq_true, if_false]
        rw [if_pos (by omega)]
      rw [hf]
      simp only
      by_cases hik : i = k
      · subst hik
        have : endsWithChar (c! '=') (chop1 v ++ lines.getD i []) = false := by
          cases hx : endsWithChar (c! '=') (chop1 v ++ lines.getD i []) with
          | false => rfl
          | true => rw [endsWith_append_ne hA hx] at hA'; exact absurd hA' (by simp)
        obtain ⟨m, rfl⟩ : ∃ m, n = m + 1 := ⟨n - 1, by omega⟩
        simp only [ajoinQP]
        rw [this]
        exact ⟨_, _, rfl, by omega, by omega⟩
      · obtain ⟨v', j, h1, h2, h3⟩ := ih (chop1 v ++ lines.getD i []) (i + 1) (by omega) (by omega)
        exact ⟨v', j, h1, by omega, h3⟩
    · rw [if_neg he]
      exact ⟨v, i, rfl, by omega, by omega⟩

/-- what the accumulated line looks like when line `i` is about to be read -/
def LastOK (k : Nat) (r : AReader) : Prop := k + 1 ≤ r.idx → endsWithChar (c! '=') r.currentLine = false

theorem aparseLine_stops (E : Codecs) (lines : List QByteArray) (k : Nat) (hk : lines.length = k + 3)
    (hA : lines.getD k [] ≠ []) (hA' : endsWithChar (c! '=') (lines.getD k []) = false)
    (n : Nat) (cl : QByteArray) (i : Nat) (hi : i < k + 3) (hn : k + 3 - i ≤ n)
    (hcl : k + 1 ≤ i → endsWithChar (c! '=') cl = false) :
    ∃ l j, aparseLine E lines n cl ⟨i, false, lines.getD i []⟩ = some (l, ⟨j, false, lines.getD j []⟩) ∧ i ≤ j ∧ j < k + 3 := by
  unfold aparseLine
  cases hsc : PL.scan {} cl with
  | mk p o =>
    cases o with
    | none => exact ⟨_, i, rfl, by omega, hi⟩
    | some rest =>
      simp only
      split
      · by_cases hik : i ≤ k
        · obtain ⟨v', j, h1, h2, h3⟩ := ajoinQP_stops lines k hk hA hA' n (removeEscapes rest) i hik (by omega)
          rw [h1]
          exact ⟨_, j, rfl, h2, by omega⟩
        · have hc := hcl (by omega)
          have hv : endsWithChar (c! '=') (removeEscapes rest) = false := by
            cases hx : endsWithChar (c! '=') (removeEscapes rest) with
            | false => rfl
            | true =>
              obtain ⟨pre, hp⟩ := scan_rest_suffix _ _ _ _ hsc
              rw [hp, endsWith_suffix (removeEscapes_last _ hx)] at hc
              exact absurd hc (by simp)
          obtain ⟨m, rfl⟩ : ∃ m, n = m + 1 := ⟨n - 1, by omega⟩
          simp only [ajoinQP, hv]
          exact ⟨_, i, rfl, by omega, hi⟩
      · exact ⟨_, i, rfl, by omega, hi⟩

theorem amarkers_fields (cur : QByteArray) (r : AReader) :
    (amarkers cur r).idx = r.idx ∧ (amarkers cur r).ended = r.ended ∧
    ((amarkers cur r).currentLine = [] ∨ (amarkers cur r).currentLine = cur) := by
  unfold amarkers
  split
  · exact ⟨rfl, rfl, .inl rfl⟩
  · split
    · exact ⟨rfl, rfl, .inl rfl⟩
    · exact ⟨rfl, rfl, .inr rfl⟩

theorem areadLoop_stops (E : Codecs) (lines : List QByteArray) (k : Nat) (hk : lines.length = k + 3)
    (hA : isBlank (lines.getD k []) = false) (hA' : endsWithChar (c! '=') (lines.getD k []) = false)
    (hB' : endsWithChar (c! '=') (lines.getD (k + 1) []) = false)
    (m : Nat) (r : AReader) (hi : r.idx ≤ k + 3) (he : r.ended = false) (hm : k + 3 - r.idx + 1 ≤ m) (hl : LastOK k r) :
    ∃ cards, areadLoop E lines m r = some cards := by
  have hAne : lines.getD k [] ≠ [] := by
    intro e; rw [e] at hA; exact absurd hA (by decide)
  have hcont : ∀ l : QByteArray, isBlank l = false → isFolded l = true → l.drop 1 ≠ [] := by
    intro l h1 h2 h3
    cases l with
    | nil => simp [isFolded] at h2
    | cons x t =>
      simp at h3; subst h3
      simp [isFolded] at h2
      rcases h2 with rfl | rfl <;> exact absurd h1 (by decide)
  have hdrop : ∀ l : QByteArray, endsWithChar (c! '=') l = false → endsWithChar (c! '=') (l.drop 1) = false := by
    intro l h
    cases l with
    | nil => exact h
    | cons x t =>
      cases hx : endsWithChar (c! '=') ((x :: t).drop 1) with
      | false => rfl
      | true =>
        have := endsWith_suffix (pre := [x]) hx
        simp only [List.drop_succ_cons, List.drop_zero, List.singleton_append] at this
        rw [this] at h; exact absurd h (by simp)
  have happ : ∀ a b : QByteArray, endsWithChar (c! '=') b = false → (b ≠ [] ∨ endsWithChar (c! '=') a = false) →
      endsWithChar (c! '=') (a ++ b) = false := by
    intro a b hb h
    cases hx : endsWithChar (c! '=') (a ++ b) with
    | false => rfl
    | true =>
      by_cases hbe : b = []
      · subst hbe
        rcases h with h | h
        · exact absurd rfl h
        · rw [List.append_nil] at hx; rw [hx] at h; exact h
      · rw [endsWith_append_ne hbe hx] at hb; exact hb
  induction m generalizing r with
  | zero => omega
  | succ m ih =>
    simp only [areadLoop]
    by_cases hend : r.idx = lines.length
    · rw [if_pos hend]; exact ⟨_, rfl⟩
    · rw [if_neg hend]
      have hlt : r.idx < k + 3 := by omega
      -- the body succeeds, moves forward and keeps the invariant
      suffices hb : ∃ r', areadBody E lines m r = some r' ∧ r'.ended = false ∧ r.idx ≤ r'.idx ∧ r'.idx < k + 3 ∧
          (k ≤ r'.idx → endsWithChar (c! '=') r'.currentLine = false ∨ r'.idx = k + 2) by
        obtain ⟨r', h1, h2, h3, h4, h5⟩ := hb
        rw [h1]
        have e1 : (areadNext r').idx = r'.idx + 1 := by simp [areadNext, h2]
        have e2 : (areadNext r').currentLine = r'.currentLine := rfl
        by_cases hlast : r'.idx = k + 2
        · obtain ⟨m', rfl⟩ : ∃ m', m = m' + 1 := ⟨m - 1, by omega⟩
          simp only [areadLoop]
          rw [if_pos (by rw [e1, hk, hlast])]
          exact ⟨_, rfl⟩
        · refine ih (areadNext r') (by omega) rfl (by omega) ?_
          intro hge
          rw [e1] at hge
          rw [e2]
          rcases h5 (by omega) with h | h
          · exact h
          · exact absurd h hlast
      have hne : endsWithChar (c! '=') ([] : QByteArray) = false := rfl
      have hmark : ∀ j (q : AReader), q.idx = j → q.ended = false → r.idx ≤ j → j < k + 3 →
          (amarkers (lines.getD j []) q).ended = false ∧ r.idx ≤ (amarkers (lines.getD j []) q).idx ∧
          (amarkers (lines.getD j []) q).idx < k + 3 ∧
          (k ≤ (amarkers (lines.getD j []) q).idx → endsWithChar (c! '=') (amarkers (lines.getD j []) q).currentLine = false ∨
            (amarkers (lines.getD j []) q).idx = k + 2) := by
        intro j q hq hqe hle hltj
        obtain ⟨f1, f2, f3⟩ := amarkers_fields (lines.getD j []) q
        rw [f1, f2, hq]
        refine ⟨hqe, hle, hltj, ?_⟩
        intro hge
        rcases f3 with h | h
        · rw [h]; exact .inl hne
        · rw [h]
          have : j = k ∨ j = k + 1 ∨ j = k + 2 := by omega
          rcases this with rfl | rfl | rfl
          · exact .inl hA'
          · exact .inl hB'
          · exact .inr rfl
      unfold areadBody
      simp only
      by_cases h1 : isFolded (lines.getD r.idx []) = true
      · rw [if_pos h1]
        refine ⟨_, rfl, he, Nat.le_refl _, hlt, ?_⟩
        intro hge
        simp only at hge
        have : r.idx = k ∨ r.idx = k + 1 ∨ r.idx = k + 2 := by omega
        rcases this with h | h | h
        · left; rw [h] at h1 ⊢
          exact happ _ _ (hdrop _ hA') (.inl (hcont _ hA h1))
        · left
          have := hl (by omega)
          rw [h]
          exact happ _ _ (hdrop _ hB') (.inr this)
        · right; exact h
      · rw [if_neg h1]
        by_cases h2 : isBlank (lines.getD r.idx []) = true
        · rw [if_pos h2]
          refine ⟨_, rfl, he, Nat.le_refl _, hlt, ?_⟩
          intro hge
          have : r.idx ≠ k := by
            intro e; rw [e, hA] at h2; exact absurd h2 (by simp)
          exact .inl (hl (by omega))
        · rw [if_neg h2]
          by_cases h3 : r.inVCard = true ∧ r.currentLine ≠ []
          · rw [if_pos h3, he]
            obtain ⟨l, j, g1, g2, g3⟩ := aparseLine_stops E lines k hk hAne hA' m r.currentLine r.idx hlt (by omega) hl
            rw [g1]
            exact ⟨_, rfl, hmark j _ rfl rfl g2 g3⟩
          · rw [if_neg h3]
            exact ⟨_, rfl, hmark r.idx r rfl he (Nat.le_refl _) hlt⟩

theorem isBlank_iff (l : QByteArray) : isBlank l = true ↔ Blank l := by
  have hsp : ∀ c : UInt8, isSpaceB c = true ↔ (c = 32 ∨ (9 ≤ c ∧ c ≤ 13)) := by
    intro c; simp [isSpaceB]
  have hdw : ∀ l : List UInt8, l.dropWhile isSpaceB = [] ↔ ∀ c ∈ l, isSpaceB c = true := by
    intro l
    induction l with
    | nil => simp
    | cons x t ih =>
      rw [List.dropWhile_cons]
      split
      · rename_i h; simp [ih, h]
      · rename_i h; simp [h]
  unfold isBlank trimmedB trim Blank
  rw [List.isEmpty_iff, List.reverse_eq_nil_iff, hdw]
  constructor
  · intro h c hc
    have : l.dropWhile isSpaceB = [] := by
      cases hx : l.dropWhile isSpaceB with
      | nil => rfl
      | cons y t =>
        have hy := h y (by rw [hx]; simp)
        have := List.head?_dropWhile_not isSpaceB l
        rw [hx] at this
        simp [hy] at this
    exact (hsp c).1 ((hdw l).1 this c hc)
  · intro h c hc
    have : l.dropWhile isSpaceB = [] := (hdw l).2 fun c hc => (hsp c).2 (h c hc)
    rw [this] at hc
    simp at hc

theorem chopCR_blank (l : QByteArray) (h : ¬ Blank l) : ¬ Blank (chopCR l) := by
  intro hb
  apply h
  unfold chopCR at hb
  split at hb
  · rename_i he
    unfold endsWithChar at he
    simp only [beq_iff_eq] at he
    intro c hc
    have hne : l ≠ [] := by intro e; subst e; simp at he
    rw [← List.dropLast_concat_getLast hne] at hc
    rw [List.getLast?_eq_some_getLast hne] at he
    simp only [Option.some.injEq] at he
    rw [he] at hc
    simp only [List.mem_append, List.mem_singleton] at hc
    rcases hc with hc | hc
    · exact hb c hc
    · subst hc; right; decide
  · exact hb

theorem chopCR_equals (l : QByteArray) (h : ¬ EndsInEquals l) : endsWithChar (c! '=') (chopCR l) = false := by
  cases hx : endsWithChar (c! '=') (chopCR l) with
  | false => rfl
  | true =>
    exfalso
    apply h
    have hlast : ∀ s : QByteArray, endsWithChar (c! '=') s = true → ∃ pre, s = pre ++ [61] := by
      intro s hs
      unfold endsWithChar at hs
      simp only [beq_iff_eq] at hs
      have hne : s ≠ [] := by intro e; subst e; simp at hs
      rw [List.getLast?_eq_some_getLast hne] at hs
      simp only [Option.some.injEq] at hs
      exact ⟨s.dropLast, by rw [← hs]; exact (List.dropLast_concat_getLast hne).symm⟩
    unfold chopCR at hx
    split at hx
    · rename_i he
      obtain ⟨pre, hp⟩ := hlast _ hx
      have hne : l ≠ [] := by intro e; subst e; simp [endsWithChar] at he
      unfold endsWithChar at he
      simp only [beq_iff_eq] at he
      rw [List.getLast?_eq_some_getLast hne] at he
      simp only [Option.some.injEq] at he
      refine ⟨pre, .inr ?_⟩
      rw [← List.dropLast_concat_getLast hne, he]
      unfold chop1 at hp
      rw [hp]; simp
    · obtain ⟨pre, hp⟩ := hlast _ hx
      exact ⟨pre, .inl hp⟩

theorem physLines_append (a b : QByteArray) (ha : (10 : UInt8) ∉ a) :
    physLines (a ++ 10 :: b) = chopCR a :: physLines b := by
  simp [physLines, rawLines, splitOn_append _ _ _ ha]

theorem physLines_three (pre A B C : QByteArray) (hA : (10 : UInt8) ∉ A) (hB : (10 : UInt8) ∉ B) (hC : (10 : UInt8) ∉ C) :
    (∃ ls, physLines (pre ++ [10] ++ A ++ [10] ++ B ++ [10] ++ C) = ls ++ [chopCR A, chopCR B, chopCR C]) := by
  have key : ∀ pre : QByteArray, physLines (pre ++ [10] ++ A ++ [10] ++ B ++ [10] ++ C) =
      physLines pre ++ [chopCR A, chopCR B, chopCR C] := by
    intro pre
    have hbase : splitOn (10 : UInt8) (A ++ 10 :: (B ++ 10 :: C)) = [A, B, C] := by
      rw [splitOn_append _ _ _ hA, splitOn_append _ _ _ hB, splitOn_of_not_mem _ _ hC]
    have e : pre ++ [10] ++ A ++ [10] ++ B ++ [10] ++ C = pre ++ 10 :: (A ++ 10 :: (B ++ 10 :: C)) := by simp
    rw [e]
    unfold physLines rawLines
    rw [splitOn_append_sep, hbase, List.map_append]; rfl
  exact ⟨_, key pre⟩

/-- C07, part: reading finishes for **every** text whose last two line-feed terminated lines `A`, `B` do not end in '=' and of which
    `A` is not blank; whatever precedes (`pre`) and follows (`C`), for any charset and quoted-printable codecs. The number of
    rounds of the reading loops is at most the number of lines plus one. In particular every text ending in
    `END:VCARD` CR LF CR LF - what the library itself writes - is read to its end. -/
theorem C07_terminates_partial (E : Codecs) (pre A B C : List UInt8)
    (hA : (10 : UInt8) ∉ A) (hB : (10 : UInt8) ∉ B) (hC : (10 : UInt8) ∉ C)
    (hAb : ¬ Blank A) (hAe : ¬ EndsInEquals A) (hBe : ¬ EndsInEquals B) :
    ∃ cards, ∀ fuel ≥ (linesOf (pre ++ [10] ++ A ++ [10] ++ B ++ [10] ++ C)).length + 1,
      parseVCards E fuel (pre ++ [10] ++ A ++ [10] ++ B ++ [10] ++ C) = some cards := by
  obtain ⟨ls, hls⟩ := physLines_three pre A B C hA hB hC
  generalize pre ++ [10] ++ A ++ [10] ++ B ++ [10] ++ C = text at *
  have hlen : (linesOf text).length = ls.length + 3 := by
    have : (linesOf text).length = (physLines text).length := by rw [linesOf_eq]; simp [physLines]
    rw [this, hls]; simp
  have h0 : (physLines text).getD ls.length [] = chopCR A := by rw [hls]; simp
  have h1 : (physLines text).getD (ls.length + 1) [] = chopCR B := by
    rw [hls]; simp
  have hk : (physLines text).length = ls.length + 3 := by rw [hls]; simp
  have hbl : isBlank (chopCR A) = false := by
    cases hx : isBlank (chopCR A) with
    | false => rfl
    | true => exact absurd ((isBlank_iff _).1 hx) (chopCR_blank A hAb)
  obtain ⟨cards, hc⟩ := areadLoop_stops E (physLines text) ls.length hk (by rw [h0]; exact hbl) (by rw [h0]; exact chopCR_equals A hAe)
    (by rw [h1]; exact chopCR_equals B hBe) (ls.length + 4)
    { idx := 0, ended := (physLines text).length ≤ 1, currentLine := [], inVCard := false, card := [], out := [] }
    (by simp) (by simp [hk]) (by simp) (by intro h; simp at h)
  refine ⟨cards, fun fuel hf => ?_⟩
  rw [parseVCards_eq]
  exact areadLoop_mono E _ _ _ _ fuel (by omega) hc

/-- The hypotheses hold for the end of every text the library writes. -/
example : ¬ Blank (b! "END:VCARD\r") ∧ ¬ EndsInEquals (b! "END:VCARD\r") ∧ ¬ EndsInEquals (b! "\r") := by
  refine ⟨?_, ?_, ?_⟩
  · intro h; have := h 69 (by decide); revert this; decide
  · rintro ⟨pre, h | h⟩ <;> have := congrArg List.reverse h <;> simp at this
  · rintro ⟨pre, h | h⟩ <;> have := congrArg List.reverse h <;> simp at this

/-! ### Texts without soft breaks -/

theorem lowerB_eq (c : UInt8) : lowerB c = lowerByte c := by
  simp only [lowerB, lowerByte]

theorem mentions_of_tok {a t : QByteArray} (h : toLowerB t = b! "quoted-printable") (r : QByteArray) : MentionsQP (a ++ t ++ r) := by
  refine ⟨a.map lowerByte, r.map lowerByte, ?_⟩
  have : t.map lowerByte =
      ['q', 'u', 'o', 't', 'e', 'd', '-', 'p', 'r', 'i', 'n', 't', 'a', 'b', 'l', 'e'].map fun c => UInt8.ofNat c.toNat := by
    have e : t.map lowerByte = toLowerB t := by
      unfold toLowerB; congr 1
    rw [e, h]; decide
  rw [List.map_append, List.map_append, this]

theorem mentions_append {a b : QByteArray} (h : MentionsQP b) : MentionsQP (a ++ b) := by
  obtain ⟨pre, post, e⟩ := h
  exact ⟨a.map lowerByte ++ pre, post, by rw [List.map_append, e]; simp⟩

theorem mentions_append_right {a b : QByteArray} (h : MentionsQP a) : MentionsQP (a ++ b) := by
  obtain ⟨pre, post, e⟩ := h
  exact ⟨pre, post ++ b.map lowerByte, by rw [List.map_append, e]; simp⟩

/-- invariant of the scan: the current token is the end of what was read, and the encoding is quoted-printable only if mentioned -/
def ScanInv (read : QByteArray) (p : PL) : Prop :=
  (p.st ≠ .value → ∃ a, read = a ++ p.tok) ∧ (p.enc = b! "quoted-printable" → MentionsQP read)

theorem addParameter_inv {read : QByteArray} {p : PL} (h : ScanInv read p) (hv : p.st ≠ .value) (k : QByteArray) (ch : UInt8) :
    (p.addParameter k p.tok).enc = b! "quoted-printable" → MentionsQP (read ++ [ch]) := by
  intro he
  obtain ⟨h1, hq⟩ := h
  obtain ⟨a, ha⟩ := h1 hv
  simp only [PL.addParameter] at he
  split at he
  · rw [ha]; exact mentions_of_tok he [ch]
  · exact mentions_append_right (hq he)

theorem step_inv {read : QByteArray} {p : PL} (h : ScanInv read p) (hv : p.st ≠ .value) (ch : UInt8) :
    ScanInv (read ++ [ch]) (p.step ch) := by
  have hq : p.enc = b! "quoted-printable" → MentionsQP (read ++ [ch]) := fun e => mentions_append_right (h.2 e)
  have hnil : ∃ a, read ++ [ch] = a ++ ([] : QByteArray) := ⟨read ++ [ch], by simp⟩
  have happ : ∃ a, read ++ [ch] = a ++ (p.tok ++ [ch]) := by
    obtain ⟨h1, _⟩ := h
    obtain ⟨a, ha⟩ := h1 hv
    exact ⟨a, by rw [ha]; simp⟩
  have hadd := fun k => addParameter_inv h hv k ch
  unfold PL.step
  cases hst : p.st with
  | initial =>
    simp only
    split
    · exact ⟨fun _ => hnil, hq⟩
    · split
      · exact ⟨fun _ => hnil, hq⟩
      · split
        · exact ⟨fun _ => hnil, hq⟩
        · exact ⟨fun _ => happ, hq⟩
  | paramKey =>
    simp only
    split
    · exact ⟨fun _ => hnil, hadd _⟩
    · split
      · exact ⟨fun _ => hnil, hq⟩
      · exact ⟨fun _ => happ, hq⟩
  | quotedValue =>
    simp only
    split
    · exact ⟨fun _ => hnil, hadd _⟩
    · exact ⟨fun _ => happ, hq⟩
  | paramValue =>
    simp only
    split
    · exact ⟨fun _ => hnil, hadd _⟩
    · split
      · exact ⟨fun _ => hnil, hq⟩
      · exact ⟨fun _ => happ, hq⟩
  | afterParamValue =>
    simp only
    split
    · exact ⟨fun _ => hnil, hq⟩
    · split
      · exact ⟨fun hne => absurd rfl hne, hq⟩
      · split
        · exact ⟨fun _ => hnil, hq⟩
        · exact ⟨fun _ => happ, hq⟩
  | value => exact absurd hst hv

theorem scan_inv {read : QByteArray} {p : PL} (h : ScanInv read p) (hv : p.st ≠ .value) (s : QByteArray) (q rest)
    (hs : PL.scan p s = (q, some rest)) (he : q.enc = b! "quoted-printable") : MentionsQP (read ++ s) := by
  induction s generalizing read p with
  | nil => simp [PL.scan] at hs
  | cons c t ih =>
    simp only [PL.scan] at hs
    have hst := step_inv h hv c
    have e : read ++ c :: t = (read ++ [c]) ++ t := by simp
    rw [e]
    split at hs
    · simp only [Prod.mk.injEq, Option.some.injEq] at hs
      rw [hs.1] at hst
      exact mentions_append_right (hst.2 he)
    · rename_i hne
      exact ih hst hne hs

theorem parsePure_none {E : Codecs} {cl : QByteArray} (h : parsePure E cl = none) :
    MentionsQP cl ∧ cl.getLast? = some 61 := by
  unfold parsePure at h
  cases hsc : PL.scan {} cl with
  | mk p o =>
    rw [hsc] at h
    cases o with
    | none => simp at h
    | some rest =>
      simp only at h
      split at h
      · rename_i hw
        simp only [PL.wantsMore, Bool.and_eq_true, decide_eq_true_eq] at hw
        constructor
        · have := scan_inv (read := []) (p := {}) ⟨fun _ => ⟨[], rfl⟩, by simp⟩ (by simp) cl p rest hsc hw.1
          simpa using this
        · obtain ⟨pre, hp⟩ := scan_rest_suffix _ _ _ _ hsc
          have := endsWith_suffix (pre := pre) (removeEscapes_last _ hw.2)
          rw [← hp] at this
          simpa [endsWithChar] using this
      · simp at h

theorem isBlank_all (l : QByteArray) : isBlank l = l.all (fun c => c = 32 || (9 ≤ c && c ≤ 13)) := by
  rw [Bool.eq_iff_iff, isBlank_iff]
  simp [Blank]

theorem mark_currentLine (cur : QByteArray) (s : RS) :
    (RS.mark cur s).currentLine = [] ∨ (RS.mark cur s).currentLine = cur := by
  unfold RS.mark
  split
  · exact .inl rfl
  · split
    · exact .inl rfl
    · exact .inr rfl

theorem fold_feed_some (E : Codecs) (lines : List QByteArray) (s : RS) (acc : QByteArray)
    (hacc : ∃ pre, acc = pre ++ s.currentLine)
    (h : ∀ l ∈ logicalLines acc lines, ¬ (MentionsQP l ∧ l.getLast? = some 61)) :
    ∃ s', lines.foldlM (feed E) s = some s' := by
  induction lines generalizing s acc with
  | nil => exact ⟨s, rfl⟩
  | cons l ls ih =>
    rw [List.foldlM_cons]
    obtain ⟨pre, hpre⟩ := hacc
    simp only [logicalLines] at h
    unfold feed
    by_cases h1 : isFolded l = true
    · rw [if_pos h1]
      have h1' : l.head? = some 32 ∨ l.head? = some 9 := by simpa [isFolded] using h1
      rw [if_pos h1'] at h
      exact ih _ (acc ++ l.drop 1) ⟨pre, by simp [hpre]⟩ h
    · rw [if_neg h1]
      have h1' : ¬ (l.head? = some 32 ∨ l.head? = some 9) := by simpa [isFolded] using h1
      rw [if_neg h1'] at h
      by_cases h2 : isBlank l = true
      · rw [if_pos h2]
        rw [if_pos (by rw [← isBlank_all]; exact h2)] at h
        exact ih s acc ⟨pre, hpre⟩ h
      · rw [if_neg h2]
        rw [if_neg (by rw [← isBlank_all]; exact h2)] at h
        have hrec : ∀ q : RS, ∃ s', ls.foldlM (feed E) (RS.mark l q) = some s' := by
          intro q
          refine ih (RS.mark l q) l ?_ (fun x hx => h x (List.mem_cons_of_mem _ hx))
          rcases mark_currentLine l q with e | e
          · exact ⟨l, by rw [e]; simp⟩
          · exact ⟨[], by rw [e]; simp⟩
        by_cases h3 : s.inVCard = true ∧ s.currentLine ≠ []
        · rw [if_pos h3]
          cases hp : parsePure E s.currentLine with
          | none =>
            exfalso
            obtain ⟨m1, m2⟩ := parsePure_none hp
            refine h acc (by simp) ⟨by rw [hpre]; exact mentions_append m1, ?_⟩
            rw [hpre, List.getLast?_append, m2]; rfl
          | some v => exact hrec _
        · rw [if_neg h3]
          exact hrec _

/-- C07, part: reading finishes for every text of at least two lines in which no logical line (after joining continuation lines)
    both mentions "quoted-printable" and ends in '='. Together with `C07_terminates_partial` this confines non-termination to
    texts that end inside a quoted-printable soft line break. -/
theorem C07_terminates_without_soft_breaks_partial (E : Codecs) (text : List UInt8) (hlf : (10 : UInt8) ∈ text)
    (h : ∀ l ∈ logicalLines [] ((linesOf text).map dropCR), ¬ (MentionsQP l ∧ l.getLast? = some 61)) :
    ∃ cards, ∀ fuel ≥ (linesOf text).length + 2, parseVCards E fuel text = some cards := by
  have hmap : (linesOf text).map dropCR = physLines text := by
    rw [linesOf_eq]
    unfold physLines rawLines
    congr 1
    funext l
    simp [dropCR, chopCR, endsWithChar, chop1]
  have hlen : (linesOf text).length = (physLines text).length := by rw [linesOf_eq]; simp [physLines]
  rw [hmap] at h
  obtain ⟨s', hs⟩ := fold_feed_some E (physLines text) {} [] ⟨[], rfl⟩ h
  refine ⟨s'.out, fun fuel hf => ?_⟩
  refine parseVCards_of_readText E text s'.out ?_ fuel (by omega)
  unfold readText fedLines
  have h2 : ¬ (physLines text).length ≤ 1 := by
    obtain ⟨a, b, rfl⟩ := List.append_of_mem hlf
    have : splitOn (10 : UInt8) (a ++ 10 :: b) = splitOn 10 a ++ splitOn 10 b := splitOn_append_sep _ _ _
    have h1 := List.length_pos_iff.2 (splitOn_ne_nil (10 : UInt8) a)
    have h2 := List.length_pos_iff.2 (splitOn_ne_nil (10 : UInt8) b)
    simp [physLines, this]; omega
  rw [if_neg h2, hs]; rfl

/-- a card with a quoted-printable property (without soft line break) satisfies the hypothesis -/
example : ∀ l ∈ logicalLines [] ((linesOf (b! "BEGIN:VCARD\nNOTE;QUOTED-PRINTABLE:a=3D\nEND:VCARD\n")).map dropCR), l.getLast? ≠ some 61 := by
  decide

/-! ### The property is false in general -/

/-- the text of the witness: a quoted-printable note with a soft line break directly before the last line -/
def loopText : QByteArray := b! "BEGIN:VCARD\nNOTE;QUOTED-PRINTABLE:a=\nEND:VCARD"

def loopLines : List QByteArray := [b! "BEGIN:VCARD", b! "NOTE;QUOTED-PRINTABLE:a=", b! "END:VCARD"]

theorem loop_lines : physLines loopText = loopLines := by decide

theorem loop_scan : ∃ p : PL, PL.scan {} (b! "NOTE;QUOTED-PRINTABLE:a=") = (p, some (b! "a=")) ∧ p.enc = b! "quoted-printable" := by
  refine ⟨(PL.scan {} (b! "NOTE;QUOTED-PRINTABLE:a=")).1, ?_, ?_⟩ <;> decide +kernel

theorem areadLoop_step (E : Codecs) (lines : List QByteArray) (m : Nat) (r r' : AReader) (hi : r.idx ≠ lines.length)
    (hb : areadBody E lines m r = some r') : areadLoop E lines (m + 1) r = areadLoop E lines m (areadNext r') := by
  simp only [areadLoop]; rw [if_neg hi, hb]

theorem loop_two (E : Codecs) (out : List VCard) (card : VCard) (m : Nat) :
    areadLoop E loopLines (m + 2) { idx := 0, ended := false, currentLine := [], inVCard := false, card := card, out := out } =
    areadLoop E loopLines m
      { idx := 2, ended := false, currentLine := b! "NOTE;QUOTED-PRINTABLE:a=", inVCard := true, card := [], out := out } := by
  have h1 : ∀ m, areadBody E loopLines m { idx := 0, ended := false, currentLine := [], inVCard := false, card := card, out := out } =
      some { idx := 0, ended := false, currentLine := [], inVCard := true, card := [], out := out } := by
    intro m
    unfold areadBody amarkers
    have e1 : isFolded (loopLines.getD 0 []) = false := by decide
    have e2 : isBlank (loopLines.getD 0 []) = false := by decide
    have e3 : startsWithCI (b! "begin:vcard") (loopLines.getD 0 []) = true := by decide
    simp only [e1, e2, e3]
    simp
  have h2 : ∀ m, areadBody E loopLines m { idx := 1, ended := false, currentLine := [], inVCard := true, card := [], out := out } =
      some { idx := 1, ended := false, currentLine := b! "NOTE;QUOTED-PRINTABLE:a=", inVCard := true, card := [], out := out } := by
    intro m
    unfold areadBody amarkers
    have e1 : isFolded (loopLines.getD 1 []) = false := by decide
    have e2 : isBlank (loopLines.getD 1 []) = false := by decide
    have e3 : startsWithCI (b! "begin:vcard") (loopLines.getD 1 []) = false := by decide
    have e4 : startsWithCI (b! "end:vcard") (loopLines.getD 1 []) = false := by decide
    simp only [e1, e2, e3, e4]
    simp [loopLines]

  rw [show m + 2 = (m + 1) + 1 from rfl, areadLoop_step E loopLines _ _ _ (by show (0 : Nat) ≠ 3; decide) (h1 _)]
  have n1 : areadNext { idx := 0, ended := false, currentLine := [], inVCard := true, card := [], out := out } =
    { idx := 1, ended := false, currentLine := [], inVCard := true, card := [], out := out } := rfl
  rw [n1, areadLoop_step E loopLines _ _ _ (by show (1 : Nat) ≠ 3; decide) (h2 _)]
  rfl

theorem loop_forever (E : Codecs) (n : Nat) : ∀ out card,
    areadLoop E loopLines (3 * n + 2) { idx := 0, ended := false, currentLine := [], inVCard := false, card := card, out := out } = none := by
  induction n with
  | zero =>
    intro out card
    rw [show 3 * 0 + 2 = 0 + 2 from rfl, loop_two]; rfl
  | succ n ih =>
    intro out card
    have h3 : ∀ m, ∃ c, areadBody E loopLines (m + 2)
        { idx := 2, ended := false, currentLine := b! "NOTE;QUOTED-PRINTABLE:a=", inVCard := true, card := [], out := out } =
        some { idx := 3, ended := true, currentLine := [], inVCard := false, card := [], out := out ++ [c] } := by
      intro m
      obtain ⟨p, hp, he⟩ := loop_scan
      have e1 : isFolded (loopLines.getD 2 []) = false := by decide
      have e2 : isBlank (loopLines.getD 2 []) = false := by decide
      have e3 : startsWithCI (b! "begin:vcard") (loopLines.getD 2 []) = false := by decide
      have e4 : startsWithCI (b! "end:vcard") (loopLines.getD 2 []) = true := by decide
      have e5 : removeEscapes (b! "a=") = b! "a=" := by decide
      have hj : ajoinQP loopLines (m + 2) (b! "a=") ⟨2, false, loopLines.getD 2 []⟩ =
          some (b! "aEND:VCARD", ⟨3, true, loopLines.getD 2 []⟩) := rfl
      have hpl : aparseLine E loopLines (m + 2) (b! "NOTE;QUOTED-PRINTABLE:a=") ⟨2, false, loopLines.getD 2 []⟩ =
          some (p.decodeValue E (b! "aEND:VCARD"), ⟨3, true, loopLines.getD 2 []⟩) := by
        unfold aparseLine
        rw [hp]
        simp only [he, e5, hj, if_true]
      refine ⟨VCard.addLine [] (p.decodeValue E (b! "aEND:VCARD")), ?_⟩
      unfold areadBody
      simp only [e1, e2, hpl, amarkers, e3, e4]
      simp
    obtain ⟨c, h3⟩ := h3 (3 * n)
    have hx : 3 * (n + 1) + 2 = (3 * n + 3) + 2 := by omega
    rw [hx, loop_two E out card, areadLoop_step E loopLines _ _ _ (by show (2 : Nat) ≠ 3; decide) h3]
    exact ih _ _

/-- C07 is false of the code: for this text no number of rounds of the loops suffices. -/
theorem C07_terminates_false : ∃ text : List UInt8, ∀ (E : Codecs) (fuel : Nat), parseVCards E fuel text = none := by
  refine ⟨loopText, fun E fuel => ?_⟩
  rw [parseVCards_eq, loop_lines]
  have : aparse E fuel loopLines =
    areadLoop E loopLines fuel { idx := 0, ended := false, currentLine := [], inVCard := false, card := [], out := [] } := rfl
  rw [this]
  cases h : areadLoop E loopLines fuel
      { idx := 0, ended := false, currentLine := [], inVCard := false, card := [], out := [] } with
  | none => rfl
  | some x =>
    have h1 := areadLoop_mono E loopLines fuel _ x (3 * fuel + 2) (by omega) h
    rw [loop_forever E fuel [] []] at h1
    exact absurd h1 (by simp)

end KC
