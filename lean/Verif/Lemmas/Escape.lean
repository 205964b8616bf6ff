import Verif.Model.Escape
/-
  Helper lemmas for the escaping round trip: byte arrays are decomposed into blocks
  "run of backslashes, then one other byte"; every replacement pass acts block by block.
-/
namespace KC

/-- backslash -/
abbrev bs : UInt8 := 92

/-- Concatenate blocks `(k, c)` = k backslashes followed by c, then `n` backslashes. -/
def unblock : List (Nat × UInt8) → Nat → List UInt8
  | [], n => List.replicate n bs
  | (k, c) :: t, n => List.replicate k bs ++ c :: unblock t n

theorem exists_blocks (s : List UInt8) :
    ∃ bl n, s = unblock bl n ∧ ∀ p ∈ bl, p.2 ≠ bs := by
  induction s with
  | nil => exact ⟨[], 0, rfl, by simp⟩
  | cons c t ih =>
    obtain ⟨bl, n, rfl, h⟩ := ih
    by_cases hc : c = bs
    · subst hc
      cases bl with
      | nil => exact ⟨[], n + 1, by simp [unblock, List.replicate_succ], by simp⟩
      | cons p r =>
        obtain ⟨k, d⟩ := p
        refine ⟨(k + 1, d) :: r, n, by simp [unblock, List.replicate_succ], ?_⟩
        intro q hq
        simp only [List.mem_cons] at hq
        rcases hq with rfl | hq
        · exact h (k, d) (by simp)
        · exact h q (by simp [hq])
    · refine ⟨(0, c) :: bl, n, by simp [unblock], ?_⟩
      intro q hq
      simp only [List.mem_cons] at hq
      rcases hq with rfl | hq
      · exact hc
      · exact h q hq

theorem flatMap_unblock (f : UInt8 → List UInt8) (bl : List (Nat × UInt8)) (n : Nat) :
    (unblock bl n).flatMap f =
      bl.flatMap (fun p => (List.replicate p.1 bs).flatMap f ++ f p.2) ++ (List.replicate n bs).flatMap f := by
  induction bl with
  | nil => simp [unblock]
  | cons p t ih => obtain ⟨k, c⟩ := p; simp [unblock, ih]

theorem replace2_nil (x r) : replace2 bs x r ([] : List UInt8) = [] := rfl

theorem replace2_cons_ne {a x y : UInt8} {r t : List UInt8} (hy : y ≠ a) :
    replace2 a x r (y :: t) = y :: replace2 a x r t := by
  cases t with
  | nil => simp [replace2]
  | cons z t => simp [replace2, hy]

theorem replace2_run {x y : UInt8} {r t : List UInt8} (hx : x ≠ bs) (hy : y ≠ bs) (m : Nat) :
    replace2 bs x r (List.replicate m bs ++ y :: t) =
      if m ≠ 0 ∧ y = x then List.replicate (m - 1) bs ++ r ++ replace2 bs x r t
      else List.replicate m bs ++ y :: replace2 bs x r t := by
  induction m with
  | zero => simp [replace2_cons_ne hy]
  | succ m ih =>
    cases m with
    | zero =>
      by_cases h : y = x
      · simp [replace2, h]
      · simp [replace2, h, replace2_cons_ne hy]
    | succ m =>
      have e : List.replicate (m + 1 + 1) bs ++ y :: t = bs :: bs :: (List.replicate m bs ++ y :: t) := by
        simp [List.replicate_succ]
      have e' : List.replicate (m + 1) bs ++ y :: t = bs :: (List.replicate m bs ++ y :: t) := by
        simp [List.replicate_succ]
      rw [e, replace2, if_neg (by simp [Ne.symm hx]), ← e', ih]
      by_cases h : y = x
      · simp [h, List.replicate_succ]
      · simp [h, List.replicate_succ]

theorem replace2_trail {x : UInt8} {r : List UInt8} (hx : x ≠ bs) (m : Nat) :
    replace2 bs x r (List.replicate m bs) = List.replicate m bs := by
  induction m with
  | zero => rfl
  | succ m ih =>
    cases m with
    | zero => rfl
    | succ m =>
      rw [List.replicate_succ, List.replicate_succ, replace2, if_neg (by simp [Ne.symm hx])]
      rw [← List.replicate_succ, ih]

/-- What one `\x` pass does to a block. -/
def passBlock (x r : UInt8) (p : Nat × UInt8) : Nat × UInt8 :=
  if p.1 ≠ 0 ∧ p.2 = x then (p.1 - 1, r) else p

theorem replace2_unblock {x r : UInt8} (hx : x ≠ bs) (bl : List (Nat × UInt8)) (n : Nat)
    (h : ∀ p ∈ bl, p.2 ≠ bs) :
    replace2 bs x [r] (unblock bl n) = unblock (bl.map (passBlock x r)) n := by
  induction bl with
  | nil => exact replace2_trail hx n
  | cons p t ih =>
    obtain ⟨k, c⟩ := p
    have hc : c ≠ bs := h (k, c) (by simp)
    have ih' := ih (fun q hq => h q (by simp [hq]))
    simp only [unblock, List.map_cons, passBlock]
    rw [replace2_run hx hc, ih']
    split <;> simp [unblock]

theorem replace2_bsbs_run {y : UInt8} {t : List UInt8} (hy : y ≠ bs) (m : Nat) :
    replace2 bs bs [bs] (List.replicate m bs ++ y :: t) =
      List.replicate ((m + 1) / 2) bs ++ y :: replace2 bs bs [bs] t := by
  induction m using Nat.strongRecOn with
  | _ m ih =>
    match m with
    | 0 => simp [replace2_cons_ne hy]
    | 1 => simp [replace2, replace2_cons_ne hy, hy]
    | m + 2 =>
      have e : List.replicate (m + 2) bs ++ y :: t = bs :: bs :: (List.replicate m bs ++ y :: t) := by
        simp [List.replicate_succ]
      rw [e, replace2, if_pos ⟨rfl, rfl⟩, ih m (by omega)]
      have : (m + 2 + 1) / 2 = (m + 1) / 2 + 1 := by omega
      rw [this]; simp [List.replicate_succ]

theorem replace2_bsbs_trail (m : Nat) :
    replace2 bs bs [bs] (List.replicate m bs) = List.replicate ((m + 1) / 2) bs := by
  induction m using Nat.strongRecOn with
  | _ m ih =>
    match m with
    | 0 => rfl
    | 1 => rfl
    | m + 2 =>
      have e : List.replicate (m + 2) bs = bs :: bs :: (List.replicate m bs) := by
        simp [List.replicate_succ]
      rw [e, replace2, if_pos ⟨rfl, rfl⟩, ih m (by omega)]
      have : (m + 2 + 1) / 2 = (m + 1) / 2 + 1 := by omega
      rw [this]; simp [List.replicate_succ]

theorem replace2_bsbs_unblock (bl : List (Nat × UInt8)) (n : Nat) (h : ∀ p ∈ bl, p.2 ≠ bs) :
    replace2 bs bs [bs] (unblock bl n) =
      unblock (bl.map fun p => ((p.1 + 1) / 2, p.2)) ((n + 1) / 2) := by
  induction bl with
  | nil => exact replace2_bsbs_trail n
  | cons p t ih =>
    obtain ⟨k, c⟩ := p
    have hc : c ≠ bs := h (k, c) (by simp)
    simp only [unblock, List.map_cons]
    rw [replace2_bsbs_run hc, ih (fun q hq => h q (by simp [hq]))]

/-- What `addEscapes` does to a block. -/
def escBlock (ex : Bool) (p : Nat × UInt8) : Nat × UInt8 :=
  if p.2 = 10 then (2 * p.1 + 1, 110)
  else if p.2 = 13 then (2 * p.1 + 1, 114)
  else if p.2 = 44 ∧ ex = false then (2 * p.1 + 1, 44)
  else (2 * p.1, p.2)

/-- `addEscapes` byte by byte. -/
def escByte (ex : Bool) (c : UInt8) : List UInt8 :=
  if c = bs then [bs, bs]
  else if c = 10 then [bs, 110]
  else if c = 13 then [bs, 114]
  else if c = 44 ∧ ex = false then [bs, 44]
  else [c]

theorem addEscapes_eq (s : List UInt8) (ex : Bool) : addEscapes s ex = s.flatMap (escByte ex) := by
  induction s with
  | nil => cases ex <;> rfl
  | cons c t ih =>
    rw [List.flatMap_cons, ← ih]
    cases ex <;> simp only [addEscapes, replaceChar, List.flatMap_cons, escByte, bs] <;>
      (by_cases h1 : c = 92 <;> by_cases h2 : c = 10 <;> by_cases h3 : c = 13 <;> by_cases h4 : c = 44 <;>
        simp_all [List.flatMap_append])

theorem flatMap_replicate_bs (ex : Bool) (k : Nat) :
    (List.replicate k bs).flatMap (escByte ex) = List.replicate (2 * k) bs := by
  induction k with
  | zero => rfl
  | succ k ih =>
    have : 2 * (k + 1) = 2 * k + 1 + 1 := by omega
    rw [this]
    simp [List.replicate_succ, ih, escByte]

theorem addEscapes_unblock (bl : List (Nat × UInt8)) (n : Nat) (ex : Bool) (h : ∀ p ∈ bl, p.2 ≠ bs) :
    addEscapes (unblock bl n) ex = unblock (bl.map (escBlock ex)) (2 * n) := by
  rw [addEscapes_eq]
  induction bl with
  | nil => exact flatMap_replicate_bs ex n
  | cons p t ih =>
    obtain ⟨k, c⟩ := p
    have hc : c ≠ bs := h (k, c) (by simp)
    simp only [unblock, List.flatMap_append, List.flatMap_cons, List.map_cons, flatMap_replicate_bs]
    rw [ih (fun q hq => h q (by simp [hq]))]
    simp only [escByte, escBlock, hc, if_false]
    have e : ∀ m : Nat, List.replicate (2 * m + 1) bs = List.replicate (2 * m) bs ++ [bs] := by
      intro m; exact List.replicate_succ'
    by_cases h2 : c = 10
    · simp [h2, e, unblock]
    · by_cases h3 : c = 13
      · simp [h3, e, unblock]
      · by_cases h4 : c = 44 ∧ ex = false
        · simp [h4, e, unblock]
        · simp only [h2, h3, h4, if_false]; simp [unblock]

theorem removeEscapes_slow (s : List UInt8) :
    removeEscapes s = replace2 bs bs [bs] (replace2 bs 44 [44] (replace2 bs 114 [13]
      (replace2 bs 78 [10] (replace2 bs 110 [10] s)))) := by
  unfold removeEscapes
  split
  · rename_i h
    have : ∀ (x : UInt8) (r : List UInt8) (s : List UInt8), bs ∉ s → replace2 bs x r s = s := by
      intro x r s
      induction s with
      | nil => intro _; rfl
      | cons c t ih =>
        intro hn
        rw [replace2_cons_ne (by intro e; apply hn; simp [e]), ih (by intro e; apply hn; simp [e])]
    repeat rw [this _ _ _ h]
  · rfl

theorem passBlock_ne {x r : UInt8} (hr : r ≠ bs) {bl : List (Nat × UInt8)} (h : ∀ p ∈ bl, p.2 ≠ bs) :
    ∀ p ∈ bl.map (passBlock x r), p.2 ≠ bs := by
  intro p hp
  simp only [List.mem_map] at hp
  obtain ⟨q, hq, rfl⟩ := hp
  unfold passBlock
  split
  · exact hr
  · exact h q hq

theorem escBlock_ne {ex : Bool} {bl : List (Nat × UInt8)} (h : ∀ p ∈ bl, p.2 ≠ bs) :
    ∀ p ∈ bl.map (escBlock ex), p.2 ≠ bs := by
  intro p hp
  simp only [List.mem_map] at hp
  obtain ⟨q, hq, rfl⟩ := hp
  unfold escBlock
  have := h q hq
  (repeat' split) <;> first | exact this | (show (_ : UInt8) ≠ _; simp only []; decide)

/-- The effect of writing and reading on a block: the byte after a run of backslashes is corrupted when it is n, N or r. -/
def corruptBlock (p : Nat × UInt8) : Nat × UInt8 :=
  if p.1 ≠ 0 ∧ (p.2 = 110 ∨ p.2 = 78) then (p.1, 10)
  else if p.1 ≠ 0 ∧ p.2 = 114 then (p.1, 13) else p

theorem removeEscapes_addEscapes_unblock (bl : List (Nat × UInt8)) (n : Nat) (ex : Bool) (h : ∀ p ∈ bl, p.2 ≠ bs) :
    removeEscapes (addEscapes (unblock bl n) ex) = unblock (bl.map corruptBlock) n := by
  rw [removeEscapes_slow, addEscapes_unblock _ _ _ h]
  have h0 := escBlock_ne (ex := ex) h
  rw [replace2_unblock (by decide) _ _ h0]
  have h1 := passBlock_ne (x := 110) (r := 10) (by decide) h0
  rw [replace2_unblock (by decide) _ _ h1]
  have h2 := passBlock_ne (x := 78) (r := 10) (by decide) h1
  rw [replace2_unblock (by decide) _ _ h2]
  have h3 := passBlock_ne (x := 114) (r := 13) (by decide) h2
  rw [replace2_unblock (by decide) _ _ h3]
  have h4 := passBlock_ne (x := 44) (r := 44) (by decide) h3
  rw [replace2_bsbs_unblock _ _ h4]
  simp only [List.map_map]
  have e2 : (2 * n + 1) / 2 = n := by omega
  rw [e2]
  congr 1
  apply List.map_congr_left
  intro p hp
  obtain ⟨k, c⟩ := p
  simp only [Function.comp, escBlock, passBlock, corruptBlock]
  by_cases hk : k = 0
  · subst hk
    by_cases a1 : c = 10
    · subst a1; simp
    by_cases a2 : c = 13
    · subst a2; simp
    by_cases a3 : c = 44
    · subst a3; cases ex <;> simp
    simp [a1, a2, a3]
  · have hk2 : ¬ (2 * k = 0) := by omega
    by_cases a1 : c = 10
    · subst a1; simp; omega
    by_cases a2 : c = 13
    · subst a2; simp; omega
    by_cases a3 : c = 44
    · subst a3
      cases ex
      · simp; omega
      · simp [hk, hk2]; omega
    by_cases a4 : c = 110
    · subst a4; simp [hk, hk2]; omega
    by_cases a5 : c = 78
    · subst a5; simp [hk, hk2]; omega
    by_cases a6 : c = 114
    · subst a6; simp [hk, hk2]; omega
    simp [a1, a2, a3, a4, a5, a6]; omega

end KC
