import Verif.Model.Fold
import Verif.Spec.Fold
/- Helper lemmas: folding described by the list of pieces. -/
namespace KC
open Spec

/-- put a byte in front of the first piece -/
def addHead (c : UInt8) : List (List UInt8) → List (List UInt8)
  | [] => [[c]]
  | h :: t => (c :: h) :: t

/-- the pieces of `foldMb` -/
def piecesMb : (lineLength skip : Nat) → QByteArray → List (List UInt8)
  | _, _, [] => [[]]
  | lineLength, k + 1, c :: t =>
    if k = 0 then
      if lineLength = FOLD_WIDTH ∧ t ≠ [] then addHead c ([] :: piecesMb 1 0 t) else addHead c (piecesMb lineLength 0 t)
    else addHead c (piecesMb lineLength k t)
  | lineLength, 0, c :: t =>
    if c &&& 0xC0 = 0xC0 then
      let n := sequenceLength c
      if lineLength + n > FOLD_WIDTH then [] :: addHead c (piecesMb (1 + n) (n - 1) t)
      else addHead c (piecesMb (lineLength + n) (n - 1) t)
    else if lineLength + 1 = FOLD_WIDTH ∧ t ≠ [] then addHead c ([] :: piecesMb 1 0 t)
    else addHead c (piecesMb (lineLength + 1) 0 t)

theorem addHead_ne (c l) : addHead c l ≠ [] := by cases l <;> simp [addHead]

theorem piecesMb_ne (n k s) : piecesMb n k s ≠ [] := by
  cases s with
  | nil => simp [piecesMb]
  | cons c t => cases k <;> simp only [piecesMb] <;> (repeat' split) <;> simp [addHead_ne]

theorem join_addHead (sep : List UInt8) (c l) : join sep (addHead c l) = c :: join sep l := by
  match l with
  | [] => simp [addHead, join]
  | [h] => simp [addHead, join]
  | h :: i :: t => simp [addHead, join]

theorem join_nil_cons (sep : List UInt8) (l) (h : l ≠ []) : join sep ([] :: l) = sep ++ join sep l := by
  cases l with
  | nil => exact absurd rfl h
  | cons a t => simp [join]

theorem flatten_addHead (c l) : (addHead c l).flatten = c :: l.flatten := by
  cases l <;> simp [addHead]

theorem foldMb_eq (n k s) : foldMb n k s = join (b! "\r\n ") (piecesMb n k s) := by
  induction s generalizing n k with
  | nil => simp [foldMb, piecesMb, join]
  | cons c t ih =>
    cases k <;> simp only [foldMb, piecesMb] <;> (repeat' split) <;>
      simp only [join_addHead, join_nil_cons _ _ (piecesMb_ne _ _ _), join_nil_cons _ _ (addHead_ne _ _), ih, List.cons_append,
        List.nil_append]

theorem flatten_piecesMb (n k s) : (piecesMb n k s).flatten = s := by
  fun_induction piecesMb n k s <;> simp_all [flatten_addHead]

theorem join_physical (h : List UInt8) (t : List (List UInt8)) :
    join (b! "\r\n ") (h :: t) ++ b! "\r\n" = physical h t := by
  induction t generalizing h with
  | nil => simp [join, physical]
  | cons a t ih =>
    have := ih a
    simp only [join, List.append_assoc, this]
    simp [physical]

/-- the pieces of the fixed width branch -/
def piecesFixed (s : QByteArray) (m : Nat) : List (List UInt8) :=
  (List.range m).map fun i => mid s (i * FOLD_WIDTH) FOLD_WIDTH

theorem flatten_piecesFixed (s : QByteArray) (m : Nat) : (piecesFixed s m).flatten = s.take (m * FOLD_WIDTH) := by
  induction m with
  | zero => simp [piecesFixed]
  | succ m ih =>
    unfold piecesFixed at *
    rw [List.range_succ, List.map_append, List.flatten_append, ih]
    simp only [List.map_cons, List.map_nil, List.flatten_cons, List.flatten_nil, List.append_nil, mid]
    rw [Nat.succ_mul, List.take_add]

/-- pieces of one content line -/
def pieces (s : QByteArray) (mb : Bool) : List (List UInt8) :=
  if s.length > FOLD_WIDTH then
    if mb then piecesMb 0 0 s else piecesFixed s (s.length / FOLD_WIDTH + 1)
  else [s]

theorem pieces_ne (s mb) : pieces s mb ≠ [] := by
  unfold pieces; (repeat' split) <;> simp [piecesMb_ne, piecesFixed]

theorem flatten_pieces (s mb) : (pieces s mb).flatten = s := by
  unfold pieces
  split
  · split
    · exact flatten_piecesMb 0 0 s
    · rw [flatten_piecesFixed, List.take_of_length_le]
      have := Nat.div_add_mod s.length FOLD_WIDTH
      have h2 : s.length % FOLD_WIDTH < FOLD_WIDTH := Nat.mod_lt _ (by decide)
      rw [Nat.succ_mul, Nat.mul_comm]; omega
  · simp

theorem fixLineSize_eq (s mb) : ∃ h t, pieces s mb = h :: t ∧ fixLineSize s mb = physical h t := by
  cases hp : pieces s mb with
  | nil => exact absurd hp (pieces_ne s mb)
  | cons h t =>
    refine ⟨h, t, rfl, ?_⟩
    unfold pieces at hp
    unfold fixLineSize
    split
    · rename_i hl
      rw [if_pos hl] at hp
      split
      · rename_i hm
        rw [if_pos hm] at hp
        rw [foldMb_eq, hp, join_physical]
      · rename_i hm
        rw [if_neg hm] at hp
        generalize s.length / FOLD_WIDTH = m at *
        unfold piecesFixed at hp
        rw [List.range_succ_eq_map] at hp ⊢
        simp only [List.map_cons, List.map_map, List.cons.injEq] at hp
        obtain ⟨rfl, rfl⟩ := hp
        simp [physical, List.flatMap_map, List.map_map, List.flatMap_cons]
    · rename_i hl
      rw [if_neg hl] at hp
      simp only [List.cons.injEq] at hp
      obtain ⟨rfl, rfl⟩ := hp
      simp [physical]

end KC
