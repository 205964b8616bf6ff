import Verif.Lemmas.ReadLines
/-
  The reader as a left fold over the physical lines, soft line breaks of quoted-printable values included.
-/
namespace KC

/-- State of the fold; `join` is a quoted-printable value being joined. -/
structure JS where
  rs : RS := {}
  join : Option (PL × QByteArray) := none
deriving DecidableEq

/-- A line arrives while the value `v` is being joined. -/
def joinStep (E : Codecs) (rs : RS) (p : PL) (v cur : QByteArray) : JS :=
  if endsWithChar (c! '=') v then { rs := rs, join := some (p, chop1 v ++ cur) }
  else { rs := RS.mark cur { rs with card := rs.card.addLine (p.decodeValue E v) }, join := none }

/-- One physical line. -/
def feedJ (E : Codecs) (s : JS) (cur : QByteArray) : JS :=
  match s.join with
  | some (p, v) => joinStep E s.rs p v cur
  | none =>
    if isFolded cur then { s with rs := { s.rs with currentLine := s.rs.currentLine ++ cur.drop 1 } }
    else if isBlank cur then s
    else if s.rs.inVCard ∧ s.rs.currentLine ≠ [] then
      match PL.scan {} s.rs.currentLine with
      | (p, none) => { s with rs := RS.mark cur { s.rs with card := s.rs.card.addLine p.line } }
      | (p, some rest) =>
        if p.enc = b! "quoted-printable" then joinStep E s.rs p (removeEscapes rest) cur
        else { s with rs := RS.mark cur { s.rs with card := s.rs.card.addLine (p.decodeValue E (removeEscapes rest)) } }
    else { s with rs := RS.mark cur s.rs }

theorem getD_drop {α} (l : List α) (i : Nat) (d : α) (h : i < l.length) : l.drop i = l.getD i d :: l.drop (i + 1) := by
  rw [List.drop_eq_getElem_cons h, List.getD_eq_getElem?_getD, List.getElem?_eq_getElem h]; simp

theorem getD_append_left {α} (l l' : List α) (i : Nat) (d : α) (h : i < l.length) : (l ++ l').getD i d = l.getD i d := by
  rw [List.getD_eq_getElem?_getD, List.getD_eq_getElem?_getD, List.getElem?_append_left h]

theorem ajoin_fold (E : Codecs) (I : List QByteArray) (Z : QByteArray) (rs : RS) (p : PL) (s : RS) (n : Nat) (v : QByteArray) (j : Nat)
    (hj : j < I.length) (hn : I.length - j ≤ n)
    (h : (I.drop j).foldl (feedJ E) ⟨rs, some (p, v)⟩ = ⟨s, none⟩) :
    ∃ v' j', j ≤ j' ∧ j' < I.length ∧ ajoinQP (I ++ [Z]) n v ⟨j, false, (I ++ [Z]).getD j []⟩ = some (v', ⟨j', false, (I ++ [Z]).getD j' []⟩) ∧
      (I.drop (j' + 1)).foldl (feedJ E) ⟨RS.mark ((I ++ [Z]).getD j' []) { rs with card := rs.card.addLine (p.decodeValue E v') }, none⟩ = ⟨s, none⟩ := by
  induction n generalizing v j with
  | zero => omega
  | succ n ih =>
    rw [getD_drop I j [] hj, List.foldl_cons] at h
    simp only [feedJ, joinStep] at h
    simp only [ajoinQP]
    by_cases he : endsWithChar (c! '=') v = true
    · rw [if_pos he] at h ⊢
      by_cases hlast : j + 1 < I.length
      · have hf : afetch (I ++ [Z]) ⟨j, false, (I ++ [Z]).getD j []⟩ = ((I ++ [Z]).getD j [], ⟨j + 1, false, (I ++ [Z]).getD (j + 1) []⟩) := by
          simp [afetch, hlast]
        rw [hf]
        rw [← getD_append_left I [Z] j [] hj] at h
        obtain ⟨v', j', h1, h2, h3, h4⟩ := ih (chop1 v ++ (I ++ [Z]).getD j []) (j + 1) hlast (by omega) h
        exact ⟨v', j', by omega, h2, h3, h4⟩
      · exfalso
        rw [List.drop_of_length_le (by omega)] at h
        simp at h
    · rw [if_neg he] at h ⊢
      rw [← getD_append_left I [Z] j [] hj] at h
      exact ⟨v, j, Nat.le_refl _, hj, rfl, h⟩

theorem areadLoop_foldJ (E : Codecs) (I : List QByteArray) (Z : QByteArray) (s : RS) (s' : RS)
    (hZ : feedJ E ⟨s, none⟩ Z = ⟨s', none⟩) (m : Nat) (r : AReader)
    (hi : r.idx ≤ I.length) (he : r.ended = false) (hf : I.length - r.idx + 2 ≤ m)
    (h : (I.drop r.idx).foldl (feedJ E) ⟨r.rs, none⟩ = ⟨s, none⟩) : areadLoop E (I ++ [Z]) m r = some s'.out := by
  have hm : ∀ cur (q : AReader), (amarkers cur q).rs = RS.mark cur q.rs ∧ (amarkers cur q).idx = q.idx ∧
      (amarkers cur q).ended = q.ended := by
    intro cur q
    unfold amarkers RS.mark AReader.rs
    split
    · exact ⟨rfl, rfl, rfl⟩
    · split <;> exact ⟨rfl, rfl, rfl⟩
  induction m generalizing r with
  | zero => omega
  | succ m ih =>
    simp only [areadLoop]
    rw [if_neg (by simp; omega)]
    -- continuing with a state reached by the body without a joined value
    have cont : ∀ r' : AReader, r'.idx < I.length → r.idx ≤ r'.idx → r'.ended = false →
        (I.drop (r'.idx + 1)).foldl (feedJ E) ⟨r'.rs, none⟩ = ⟨s, none⟩ → areadLoop E (I ++ [Z]) m (areadNext r') = some s'.out := by
      intro r' h1 h1' h2 h3
      refine ih (areadNext r') ?_ rfl ?_ ?_
      · simp [areadNext, h2]; omega
      · simp [areadNext, h2]; omega
      · have e1 : (areadNext r').idx = r'.idx + 1 := by simp [areadNext, h2]
        rw [e1]; exact h3
    -- the last line
    have fin : ∀ r' : AReader, r'.idx = I.length → r'.ended = false → r'.rs = s' → areadLoop E (I ++ [Z]) m (areadNext r') = some s'.out := by
      intro r' h1 h2 h3
      obtain ⟨m, rfl⟩ : ∃ k, m = k + 1 := ⟨m - 1, by omega⟩
      simp only [areadLoop]
      rw [if_pos (by simp [areadNext, h2, h1])]
      rw [← h3]; rfl
    by_cases hlt : r.idx < I.length
    · -- a terminated line
      have hcur : (I ++ [Z]).getD r.idx [] = I.getD r.idx [] := getD_append_left I [Z] r.idx [] hlt
      rw [getD_drop I r.idx [] hlt, List.foldl_cons, ← hcur] at h
      unfold areadBody
      simp only
      generalize hc : (I ++ [Z]).getD r.idx [] = cur at *
      simp only [feedJ] at h
      by_cases h1 : isFolded cur = true
      · rw [if_pos h1] at h ⊢
        exact cont _ hlt (Nat.le_refl _) he h
      · rw [if_neg h1] at h ⊢
        by_cases h2 : isBlank cur = true
        · rw [if_pos h2] at h ⊢
          exact cont _ hlt (Nat.le_refl _) he h
        · rw [if_neg h2] at h ⊢
          by_cases h3 : r.inVCard = true ∧ r.currentLine ≠ []
          · have h3' : r.rs.inVCard = true ∧ r.rs.currentLine ≠ [] := h3
            rw [if_pos h3'] at h
            rw [if_pos h3]
            have hcl : r.rs.currentLine = r.currentLine := rfl
            rw [hcl] at h
            unfold aparseLine
            cases hsc : PL.scan {} r.currentLine with
            | mk p o =>
              rw [hsc] at h
              cases o with
              | none =>
                simp only at h ⊢
                have hm' := hm cur { r with card := r.card.addLine p.line }
                refine cont _ ?_ ?_ ?_ ?_
                · rw [hm'.2.1]; exact hlt
                · rw [hm'.2.1]; exact Nat.le_refl _
                · rw [hm'.2.2]; exact he
                · rw [hm'.2.1, hm'.1]; exact h
              | some rest =>
                simp only at h ⊢
                by_cases hq : p.enc = b! "quoted-printable"
                · rw [if_pos hq] at h ⊢
                  have h' : (I.drop r.idx).foldl (feedJ E) ⟨r.rs, some (p, removeEscapes rest)⟩ = ⟨s, none⟩ := by
                    rw [getD_drop I r.idx [] hlt, List.foldl_cons, ← hcur]
                    exact h
                  obtain ⟨v', j', g1, g2, g3, g4⟩ := ajoin_fold E I Z r.rs p s m (removeEscapes rest) r.idx hlt (by omega) h'
                  rw [hc] at g3
                  rw [he, g3]
                  simp only
                  have hm' := hm ((I ++ [Z]).getD j' []) { r with idx := j', ended := false, card := r.card.addLine (p.decodeValue E v') }
                  refine cont _ ?_ ?_ ?_ ?_
                  · rw [hm'.2.1]; exact g2
                  · rw [hm'.2.1]; exact g1
                  · rw [hm'.2.2]
                  · rw [hm'.2.1, hm'.1]; exact g4
                · rw [if_neg hq] at h ⊢
                  simp only
                  have hm' := hm cur { r with card := r.card.addLine (p.decodeValue E (removeEscapes rest)) }
                  refine cont _ ?_ ?_ ?_ ?_
                  · rw [hm'.2.1]; exact hlt
                  · rw [hm'.2.1]; exact Nat.le_refl _
                  · rw [hm'.2.2]; exact he
                  · rw [hm'.2.1, hm'.1]; exact h
          · have h3' : ¬ (r.rs.inVCard = true ∧ r.rs.currentLine ≠ []) := h3
            rw [if_neg h3'] at h
            rw [if_neg h3]
            have hm' := hm cur r
            refine cont _ ?_ ?_ ?_ ?_
            · rw [hm'.2.1]; exact hlt
            · rw [hm'.2.1]; exact Nat.le_refl _
            · rw [hm'.2.2]; exact he
            · rw [hm'.2.1, hm'.1]; exact h
    · -- the last line
      have hie : r.idx = I.length := by omega
      have hcur : (I ++ [Z]).getD r.idx [] = Z := by rw [hie]; simp
      rw [List.drop_of_length_le (by omega)] at h
      simp only [List.foldl_nil, JS.mk.injEq, and_true] at h
      subst h
      simp only [feedJ] at hZ
      unfold areadBody
      simp only [hcur]
      by_cases h1 : isFolded Z = true
      · rw [if_pos h1] at hZ ⊢
        simp only [JS.mk.injEq, and_true] at hZ
        exact fin _ hie he hZ
      · rw [if_neg h1] at hZ ⊢
        by_cases h2 : isBlank Z = true
        · rw [if_pos h2] at hZ ⊢
          simp only [JS.mk.injEq, and_true] at hZ
          exact fin _ hie he hZ
        · rw [if_neg h2] at hZ ⊢
          by_cases h3 : r.inVCard = true ∧ r.currentLine ≠ []
          · have h3' : r.rs.inVCard = true ∧ r.rs.currentLine ≠ [] := h3
            rw [if_pos h3'] at hZ
            rw [if_pos h3]
            have hcl : r.rs.currentLine = r.currentLine := rfl
            rw [hcl] at hZ
            unfold aparseLine
            cases hsc : PL.scan {} r.currentLine with
            | mk p o =>
              rw [hsc] at hZ
              cases o with
              | none =>
                simp only [JS.mk.injEq, and_true] at hZ ⊢
                have hm' := hm Z { r with card := r.card.addLine p.line }
                exact fin _ (by rw [hm'.2.1]; exact hie) (by rw [hm'.2.2]; exact he) (by rw [hm'.1]; exact hZ)
              | some rest =>
                simp only at hZ ⊢
                by_cases hq : p.enc = b! "quoted-printable"
                · rw [if_pos hq] at hZ ⊢
                  unfold joinStep at hZ
                  by_cases hee : endsWithChar (c! '=') (removeEscapes rest) = true
                  · rw [if_pos hee] at hZ; simp at hZ
                  · rw [if_neg hee] at hZ
                    obtain ⟨m, rfl⟩ : ∃ k, m = k + 1 := ⟨m - 1, by omega⟩
                    simp only [ajoinQP]
                    rw [if_neg hee]
                    simp only [JS.mk.injEq, and_true] at hZ
                    have hm' := hm Z { r with card := r.card.addLine (p.decodeValue E (removeEscapes rest)) }
                    exact fin _ (by rw [hm'.2.1]; exact hie) (by rw [hm'.2.2]; exact he) (by rw [hm'.1]; exact hZ)
                · rw [if_neg hq] at hZ ⊢
                  simp only [JS.mk.injEq, and_true] at hZ ⊢
                  have hm' := hm Z { r with card := r.card.addLine (p.decodeValue E (removeEscapes rest)) }
                  exact fin _ (by rw [hm'.2.1]; exact hie) (by rw [hm'.2.2]; exact he) (by rw [hm'.1]; exact hZ)
          · have h3' : ¬ (r.rs.inVCard = true ∧ r.rs.currentLine ≠ []) := h3
            rw [if_neg h3'] at hZ
            rw [if_neg h3]
            simp only [JS.mk.injEq, and_true] at hZ
            have hm' := hm Z r
            exact fin _ (by rw [hm'.2.1]; exact hie) (by rw [hm'.2.2]; exact he) (by rw [hm'.1]; exact hZ)

/-- A text ending in LF, not inside a joined value at its end, is read by the fold over its lines. -/
theorem parseVCards_of_foldJ (E : Codecs) (text : QByteArray) (I : List QByteArray) (hI : I ≠ []) (hl : physLines text = I ++ [[]]) (s : RS)
    (h : I.foldl (feedJ E) {} = ⟨s, none⟩) (n : Nat) (hn : I.length + 2 ≤ n) : parseVCards E n text = some s.out := by
  rw [parseVCards_eq, hl]
  have hZ : feedJ E ⟨s, none⟩ [] = ⟨s, none⟩ := by
    have h5 : isFolded [] = false := by decide
    have h6 : isBlank [] = true := by decide
    simp [feedJ, h5, h6]
  unfold aparse
  have hpos := List.length_pos_iff.2 hI
  refine areadLoop_foldJ E I [] s s hZ n _ (by simp) ?_ (by simpa using hn) ?_
  · simp; omega
  · exact h

end KC
