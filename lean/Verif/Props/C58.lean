import Verif.Props.C09
/-
  C58. A quoted-printable value spread over several lines by soft line breaks (an '=' at the end of each line but the last) is read as one value: the
  concatenation of the pieces.

  Proved for every card around the value, every number of pieces and all contents without a backslash after the first piece, if the second piece
  does not begin with a white-space character (`C58_soft_breaks_partial`, `C58_value_partial`). Not true as stated: escapes are only removed in
  the first piece (`C58_escapes_false`), and a second piece that begins with a space is taken for a folded line (`C58_leading_space_false`);
  later pieces may begin with spaces. What the pieces amount to for all contents: `C58_exact`, `C58_value_exact`.
-/
namespace KC
open Spec

/-- A text from its lines. -/
def Spec.textOf (ls : List QByteArray) : QByteArray := ls.flatMap (· ++ [10])

/-- A line as it can stand in a text. -/
def Spec.OneLine (l : QByteArray) : Prop := (10 : UInt8) ∉ l ∧ l.getLast? ≠ some 13

/-- The line begins with the given marker, in upper or lower case. -/
def Spec.Marker (m : QByteArray) (l : QByteArray) : Prop := (l.map lowerByte).take m.length = m

/-- The lines around a property of a card: `before` opens the card and has no soft line breaks, `after` ends it. The line that follows the property
    is neither a folded line nor blank. -/
structure Spec.AroundProperty (before after : List QByteArray) : Prop where
  lines : ∀ l ∈ before ++ after, OneLine l ∧ l.getLast? ≠ some (c! '=')
  opened : ∃ b r, before = b :: r ∧ Marker (b! "begin:vcard") b ∧ ∀ l ∈ r, ¬ Marker (b! "end:vcard") l
  next : ∃ b r, after = b :: r ∧ isFolded b = false ∧ isBlank b = false
  closed : ∃ r e, after = r ++ [e] ∧ Marker (b! "end:vcard") e

/-- The bytes of the value, before decoding, that a value on several lines amounts to: `first`, `conts` and `last` are the pieces, without the '=' that
    ends each line but the last. Escapes are removed in the first piece only. As long as the next line begins with a space or tab it is a folded
    line: it continues the first piece, the '=' stays, and the space or tab is dropped. -/
def Spec.softValue (first : QByteArray) : List QByteArray → QByteArray → QByteArray
  | [], last => if isFolded last then removeEscapes (first ++ (c! '=') :: last.drop 1) else removeEscapes first ++ last
  | c :: conts, last =>
    if isFolded c then softValue (first ++ (c! '=') :: c.drop 1) conts last else removeEscapes first ++ (c :: conts).flatten ++ last

/-! ### Proof -/

theorem replace2_app (a x : UInt8) (r : QByteArray) (n : Nat) (s t : QByteArray) (hn : s.length ≤ n) (h : t.head? ≠ some x ∨ s.getLast? ≠ some a) :
    replace2 a x r (s ++ t) = replace2 a x r s ++ replace2 a x r t := by
  induction n generalizing s with
  | zero =>
    have : s = [] := List.length_eq_zero_iff.1 (by omega)
    subst this; rfl
  | succ n ih =>
    match s with
    | [] => rfl
    | [y] =>
      cases t with
      | nil => simp [replace2]
      | cons z t =>
        have : ¬ (y = a ∧ z = x) := by
          rintro ⟨rfl, rfl⟩
          simp at h
        simp [replace2, this]
    | y :: z :: s =>
      simp only [List.cons_append, replace2]
      by_cases hc : y = a ∧ z = x
      · rw [if_pos hc, if_pos hc]
        by_cases hs : s = []
        · subst hs; simp [replace2]
        · rw [ih s (by simp at hn; omega) (h.imp id (fun h => by rwa [getLast?_cons_ne _ _ (by simp), getLast?_cons_ne _ _ hs] at h)), List.append_assoc]
      · rw [if_neg hc, if_neg hc]
        rw [← List.cons_append, ih (z :: s) (by simp at hn ⊢; omega) (h.imp id (fun h => by rwa [getLast?_cons_ne _ _ (by simp)] at h))]
        simp

theorem replace2_none (x : UInt8) (r : QByteArray) (s : QByteArray) (h : (c! '\\') ∉ s) : replace2 (c! '\\') x r s = s := by
  induction s with
  | nil => rfl
  | cons c t ih => rw [replace2_cons_ne (by rintro rfl; exact h (by simp)), ih (fun e => h (by simp [e]))]

/-- Escapes are removed piece by piece, if the second piece has no backslash and does not complete an escape that begins at the end of the first. -/
theorem removeEscapes_app (s t : QByteArray) (ht : (c! '\\') ∉ t)
    (h : s.getLast? ≠ some (c! '\\') ∨ ∀ c ∈ t.head?, c ∉ [c! 'n', c! 'N', c! 'r', c! ',']) : removeEscapes (s ++ t) = removeEscapes s ++ t := by
  have hh : ∀ x, x ∈ [c! 'n', c! 'N', c! 'r', c! ','] → t.head? ≠ some x ∨ s.getLast? ≠ some (c! '\\') := by
    intro x hx
    rcases h with h | h
    · exact .inr h
    · exact .inl (fun e => h x e hx)
  have hb : t.head? ≠ some (c! '\\') := fun e => ht (List.mem_of_mem_head? e)
  have keep : ∀ (y r : UInt8) (u : QByteArray), r ≠ c! '\\' → (∀ x, x ∈ [c! 'n', c! 'N', c! 'r', c! ','] → t.head? ≠ some x ∨ u.getLast? ≠ some (c! '\\')) →
      ∀ x, x ∈ [c! 'n', c! 'N', c! 'r', c! ','] → t.head? ≠ some x ∨ (replace2 (c! '\\') y [r] u).getLast? ≠ some (c! '\\') := by
    intro y r u hr hu x hx
    exact (hu x hx).imp id (fun e e' => e (replace2_last _ _ _ _ hr _ _ (Nat.le_refl _) e'))
  rw [removeEscapes_slow, removeEscapes_slow]
  have h1 := keep (c! 'n') 10 s (by decide) hh
  have h2 := keep (c! 'N') 10 _ (by decide) h1
  have h3 := keep (c! 'r') 13 _ (by decide) h2
  show replace2 (c! '\\') (c! '\\') (b! "\\") (replace2 (c! '\\') (c! ',') (b! ",") (replace2 (c! '\\') (c! 'r') (b! "\r")
    (replace2 (c! '\\') (c! 'N') (b! "\n") (replace2 (c! '\\') (c! 'n') (b! "\n") (s ++ t))))) = _
  rw [replace2_app _ _ _ _ s t (Nat.le_refl _) (hh (c! 'n') (by decide)), replace2_none _ _ t ht,
    replace2_app _ _ _ _ _ t (Nat.le_refl _) (h1 (c! 'N') (by decide)), replace2_none _ _ t ht,
    replace2_app _ _ _ _ _ t (Nat.le_refl _) (h2 (c! 'r') (by decide)), replace2_none _ _ t ht,
    replace2_app _ _ _ _ _ t (Nat.le_refl _) (h3 (c! ',') (by decide)), replace2_none _ _ t ht,
    replace2_app _ _ _ _ _ t (Nat.le_refl _) (.inl hb), replace2_none _ _ t ht]

theorem physLines_textOf (ls : List QByteArray) (h : ∀ l ∈ ls, OneLine l) : physLines (textOf ls) = ls ++ [[]] := by
  induction ls with
  | nil => rfl
  | cons l r ih =>
    have h1 := h l (by simp)
    have : textOf (l :: r) = l ++ 10 :: textOf r := by simp [textOf]
    rw [this, physLines_append _ _ h1.1, ih (fun x hx => h x (by simp [hx]))]
    have hc : chopCR l = l := by
      unfold chopCR endsWithChar
      rw [if_neg (by simpa using h1.2)]
    rw [hc]; rfl

theorem marker_iff (m l : QByteArray) : startsWithCI m l = true ↔ Marker m l := by
  unfold Marker
  rw [startsWithCI_take]

theorem scan_append (q : PL) (h : QByteArray) {p : PL} {r : QByteArray} (hs : PL.scan q h = (p, some r)) (x : QByteArray) :
    PL.scan q (h ++ x) = (p, some (r ++ x)) := by
  induction h generalizing q with
  | nil => simp [PL.scan] at hs
  | cons c t ih =>
    rw [List.cons_append]
    simp only [PL.scan] at hs ⊢
    split
    · rename_i hv
      rw [if_pos hv] at hs
      simp only [Prod.mk.injEq, Option.some.injEq] at hs
      rw [hs.1, hs.2]
    · rename_i hv
      rw [if_neg hv] at hs
      exact ih _ hs

theorem endsWith_eq (l : QByteArray) : endsWithChar (c! '=') l = false ↔ l.getLast? ≠ some (c! '=') := by
  unfold endsWithChar; simp

/-- Inside a card, nothing pending. -/
def Inside (s : JS) : Prop := s.join = none ∧ s.rs.inVCard = true ∧ endsWithChar (c! '=') s.rs.currentLine = false

theorem inside_mark {cur : QByteArray} (hc : endsWithChar (c! '=') cur = false) (he : startsWithCI (b! "end:vcard") cur = false) (rs : RS)
    (hi : rs.inVCard = true) : Inside ⟨RS.mark cur rs, none⟩ := by
  unfold RS.mark
  split
  · exact ⟨rfl, rfl, rfl⟩
  · rw [he]; exact ⟨rfl, hi, hc⟩

theorem inside_step (E : Codecs) {s : JS} (hs : Inside s) {cur : QByteArray} (hc : endsWithChar (c! '=') cur = false)
    (he : startsWithCI (b! "end:vcard") cur = false) : Inside (feedJ E s cur) := by
  obtain ⟨rs, j⟩ := s
  obtain ⟨h1, h2, h3⟩ := hs
  simp only at h1 h2 h3
  subst h1
  simp only [feedJ]
  split
  · refine ⟨rfl, h2, ?_⟩
    show endsWithChar (c! '=') (rs.currentLine ++ cur.drop 1) = false
    cases hd : cur.drop 1 with
    | nil => rw [List.append_nil]; exact h3
    | cons x t =>
      rw [← hd, endsWith_app _ _ (by simp [hd])]
      cases cur with
      | nil => simp at hd
      | cons y u =>
        simp only [List.drop_succ_cons, List.drop_zero] at hd ⊢
        rw [← endsWith_app [y] u (by simp [hd])]
        exact hc
  · split
    · exact ⟨rfl, h2, h3⟩
    · split
      · split
        · exact inside_mark hc he _ h2
        · rename_i p rest hsc
          split
          · unfold joinStep
            rw [if_neg]
            · exact inside_mark hc he _ h2
            · intro hx
              obtain ⟨pre, hpre⟩ := scan_rest_suffix _ _ _ _ hsc
              have := endsWith_suffix (pre := pre) (removeEscapes_last _ hx)
              rw [← hpre, h3] at this
              cases this
          · exact inside_mark hc he _ h2
      · exact inside_mark hc he _ h2

theorem inside_fold (E : Codecs) (ls : List QByteArray) (h : ∀ l ∈ ls, endsWithChar (c! '=') l = false ∧ startsWithCI (b! "end:vcard") l = false)
    {s : JS} (hs : Inside s) : Inside (ls.foldl (feedJ E) s) := by
  induction ls generalizing s with
  | nil => exact hs
  | cons l r ih => exact ih (fun x hx => h x (by simp [hx])) (inside_step E hs (h l (by simp)).1 (h l (by simp)).2)

theorem begin_step (E : Codecs) {b : QByteArray} (hb : startsWithCI (b! "begin:vcard") b = true) : Inside (feedJ E {} b) := by
  have hf : isFolded b = false ∧ isBlank b = false := by
    rw [startsWithCI_take] at hb
    cases b with
    | nil => simp at hb
    | cons x t =>
      have hx : lowerByte x = 98 := by simp at hb; exact hb.1
      apply goodStart_line
      · rintro rfl; exact absurd hx (by decide)
      · rintro ⟨u, v⟩
        have : ∀ n : Fin 256, 9 ≤ UInt8.ofNat n.val → UInt8.ofNat n.val ≤ 13 → lowerByte (UInt8.ofNat n.val) ≠ 98 := by decide +kernel
        have := this ⟨x.toNat, x.toNat_lt⟩
        simp only [UInt8.ofNat_toNat] at this
        exact this u v hx
  simp only [feedJ, hf.1, hf.2]
  simp only [Bool.false_eq_true, if_false, false_and]
  unfold RS.mark
  rw [if_pos hb]
  exact ⟨rfl, rfl, rfl⟩

/-- The pieces after the first are collected. -/
theorem join_pieces (E : Codecs) (rs : RS) (p : PL) (acc : QByteArray) (conts : List QByteArray) (last : QByteArray) :
    ((conts.map (· ++ [c! '='])) ++ [last]).foldl (feedJ E) ⟨rs, some (p, acc ++ [c! '='])⟩ = ⟨rs, some (p, acc ++ conts.flatten ++ last)⟩ := by
  induction conts generalizing acc with
  | nil => simp [feedJ, joinStep, endsWithChar, chop1]
  | cons x r ih =>
    rw [List.map_cons, List.cons_append, List.foldl_cons]
    have : feedJ E ⟨rs, some (p, acc ++ [c! '='])⟩ (x ++ [c! '=']) = ⟨rs, some (p, (acc ++ x) ++ [c! '='])⟩ := by
      simp [feedJ, joinStep, endsWithChar, chop1]
    rw [this, ih]
    simp

/-- The state after the line before the property, and the property's first line. -/
theorem feed_head (E : Codecs) {s : JS} (hs : Inside s) {L : QByteArray} (hf : isFolded L = false) (hb : isBlank L = false)
    (hm1 : startsWithCI (b! "begin:vcard") L = false) (hm2 : startsWithCI (b! "end:vcard") L = false) :
    ∃ card, feedJ E s L = ⟨{ currentLine := L, inVCard := true, card := card, out := s.rs.out }, none⟩
      ∧ ∀ L', isFolded L' = false → isBlank L' = false → startsWithCI (b! "begin:vcard") L' = false → startsWithCI (b! "end:vcard") L' = false →
        feedJ E s L' = ⟨{ currentLine := L', inVCard := true, card := card, out := s.rs.out }, none⟩ := by
  obtain ⟨rs, j⟩ := s
  obtain ⟨h1, h2, h3⟩ := hs
  simp only at h1 h2 h3
  subst h1
  have hmark : ∀ (r : RS) (L' : QByteArray), startsWithCI (b! "begin:vcard") L' = false → startsWithCI (b! "end:vcard") L' = false →
      RS.mark L' r = { r with currentLine := L' } := by
    intro r L' a b
    unfold RS.mark
    rw [a, b]; rfl
  suffices ∃ card, ∀ L', isFolded L' = false → isBlank L' = false → startsWithCI (b! "begin:vcard") L' = false →
      startsWithCI (b! "end:vcard") L' = false →
      feedJ E ⟨rs, none⟩ L' = ⟨{ currentLine := L', inVCard := true, card := card, out := rs.out }, none⟩ by
    obtain ⟨card, h⟩ := this
    exact ⟨card, h L hf hb hm1 hm2, h⟩
  by_cases hcl : rs.currentLine = []
  · refine ⟨rs.card, fun L' a b c d => ?_⟩
    simp only [feedJ, a, b, Bool.false_eq_true, if_false]
    rw [if_neg (by simp [hcl]), hmark rs L' c d]
    simp [h2]
  · cases hsc : PL.scan {} rs.currentLine with
    | mk p o =>
      cases o with
      | none =>
        refine ⟨rs.card.addLine p.line, fun L' a b c d => ?_⟩
        simp only [feedJ, a, b, Bool.false_eq_true, if_false, hsc]
        rw [if_pos ⟨h2, hcl⟩, hmark _ L' c d]
        simp [h2]
      | some rest =>
        refine ⟨rs.card.addLine (p.decodeValue E (removeEscapes rest)), fun L' a b c d => ?_⟩
        simp only [feedJ, a, b, Bool.false_eq_true, if_false, hsc]
        rw [if_pos ⟨h2, hcl⟩]
        have hx : endsWithChar (c! '=') (removeEscapes rest) = false := by
          cases hx : endsWithChar (c! '=') (removeEscapes rest) with
          | false => rfl
          | true =>
            obtain ⟨pre, hpre⟩ := scan_rest_suffix _ _ _ _ hsc
            have := endsWith_suffix (pre := pre) (removeEscapes_last _ hx)
            rw [← hpre, h3] at this
            cases this
        split
        · simp only [joinStep, hx, Bool.false_eq_true, if_false]
          rw [hmark _ L' c d]; simp [h2]
        · rw [hmark _ L' c d]; simp [h2]

theorem nosoft_step (E : Codecs) (s : JS) (l : QByteArray) (hs : NoSoft s) (hl : endsWithChar (c! '=') l = false) : NoSoft (feedJ E s l) := by
  cases hb : isBlank l with
  | false => exact feedJ_nosoft E s l hl hb
  | true =>
    obtain ⟨rs, j⟩ := s
    cases j with
    | some pv =>
      obtain ⟨p, v⟩ := pv
      have hv : endsWithChar (c! '=') v = false := hs
      simp only [feedJ, joinStep, hv, Bool.false_eq_true, if_false]
      exact nosoft_mark l _ hl
    | none =>
      simp only [feedJ, hb, if_true]
      split
      · show endsWithChar (c! '=') (rs.currentLine ++ l.drop 1) = false
        cases hd : l.drop 1 with
        | nil => rw [List.append_nil]; exact hs
        | cons x t =>
          rw [← hd, endsWith_app _ _ (by simp [hd])]
          cases l with
          | nil => simp at hd
          | cons y u =>
            simp only [List.drop_succ_cons, List.drop_zero] at hd ⊢
            rw [← endsWith_app [y] u (by simp [hd])]
            exact hl
      · exact hs

theorem nosoft_fold (E : Codecs) (ls : List QByteArray) (h : ∀ l ∈ ls, endsWithChar (c! '=') l = false) {s : JS} (hs : NoSoft s) :
    NoSoft (ls.foldl (feedJ E) s) := by
  induction ls generalizing s with
  | nil => exact hs
  | cons l r ih => exact ih (fun x hx => h x (by simp [hx])) (nosoft_step E s l hs (h l (by simp)))

/-- After a marker line or an ordinary line nothing is left of the line before. -/
theorem mark_forgets (b : QByteArray) (rs : RS) (x y : QByteArray) : RS.mark b { rs with currentLine := x } = RS.mark b { rs with currentLine := y } := by
  unfold RS.mark
  split
  · rfl
  · split <;> rfl

theorem isFolded_eq (c : QByteArray) : isFolded (c ++ [c! '=']) = isFolded c := by
  cases c with
  | nil => decide
  | cons x t => rfl

theorem isBlank_eq (c : QByteArray) : isBlank (c ++ [c! '=']) = false := by
  cases hx : isBlank (c ++ [c! '=']) with
  | false => rfl
  | true =>
    rw [isBlank_iff] at hx
    exact absurd (hx (c! '=') (by simp)) (by decide)

/-- The line after the property's only line. -/
theorem one_line (E : Codecs) (rs : RS) (hi : rs.inVCard = true) {head : QByteArray} {p : PL} (hp : PL.scan {} head = (p, some []))
    (hq : p.enc = b! "quoted-printable") (w : QByteArray) (hend : endsWithChar (c! '=') (removeEscapes w) = false)
    (b : QByteArray) (hb : isFolded b = false ∧ isBlank b = false) :
    feedJ E ⟨{ rs with currentLine := head ++ w }, none⟩ b
      = ⟨RS.mark b { rs with card := rs.card.addLine (p.decodeValue E (removeEscapes w)) }, none⟩ := by
  have hne : head ++ w ≠ [] := by
    intro h
    have : head = [] := (List.append_eq_nil_iff.1 h).1
    rw [this] at hp; simp [PL.scan] at hp
  have hsc := scan_append {} head hp w
  rw [List.nil_append] at hsc
  simp only [feedJ, hb.1, hb.2, Bool.false_eq_true, if_false]
  rw [if_pos ⟨hi, hne⟩]
  simp only [hsc, joinStep, hend, Bool.false_eq_true, if_false, if_pos hq]
  exact congrArg (JS.mk · none) (mark_forgets b { rs with card := rs.card.addLine (p.decodeValue E (removeEscapes w)) } (head ++ w) rs.currentLine)

/-- The property's lines and the line that follows. -/
theorem several_lines (E : Codecs) (rs : RS) (hi : rs.inVCard = true) {head : QByteArray} {p : PL} (hp : PL.scan {} head = (p, some []))
    (hq : p.enc = b! "quoted-printable") (first : QByteArray) (conts : List QByteArray) (last : QByteArray)
    (hend : endsWithChar (c! '=') (softValue first conts last) = false)
    (h2 : (∃ c ∈ conts, isFolded c = false) ∨ isFolded last = true ∨ isBlank last = false)
    (b : QByteArray) (hb : isFolded b = false ∧ isBlank b = false) :
    ((conts.map (· ++ [c! '='])) ++ [last] ++ [b]).foldl (feedJ E) ⟨{ rs with currentLine := head ++ first ++ [c! '='] }, none⟩
      = ⟨RS.mark b { rs with card := rs.card.addLine (p.decodeValue E (softValue first conts last)) }, none⟩ := by
  have plain : ∀ first conts last, endsWithChar (c! '=') (removeEscapes first ++ List.flatten conts ++ last) = false →
      (∀ l ∈ ((conts.map (· ++ [c! '='])) ++ [last]).head?, isFolded l = false ∧ isBlank l = false) →
      ((conts.map (· ++ [c! '='])) ++ [last] ++ [b]).foldl (feedJ E) ⟨{ rs with currentLine := head ++ first ++ [c! '='] }, none⟩
      = ⟨RS.mark b { rs with card := rs.card.addLine (p.decodeValue E (removeEscapes first ++ conts.flatten ++ last)) }, none⟩ := by
    intro first conts last hend h2
    have hfirst : ∀ L, isFolded L = false → isBlank L = false →
        feedJ E ⟨{ rs with currentLine := head ++ first ++ [c! '='] }, none⟩ L
          = feedJ E ⟨{ rs with currentLine := head ++ first ++ [c! '='] }, some (p, removeEscapes first ++ [c! '='])⟩ L := by
      intro L a c
      have hsc := scan_append {} head hp (first ++ [c! '='])
      rw [List.nil_append, ← List.append_assoc] at hsc
      have hr := removeEscapes_app first [c! '='] (by decide) (.inr (by decide))
      simp only [feedJ, a, c, Bool.false_eq_true, if_false]
      rw [if_pos ⟨hi, by simp⟩]
      simp only [hsc, hr]
      rw [if_pos hq]
    have hall : ((conts.map (· ++ [c! '='])) ++ [last]).foldl (feedJ E) ⟨{ rs with currentLine := head ++ first ++ [c! '='] }, none⟩
        = ⟨{ rs with currentLine := head ++ first ++ [c! '='] }, some (p, removeEscapes first ++ conts.flatten ++ last)⟩ := by
      rw [← join_pieces E { rs with currentLine := head ++ first ++ [c! '='] } p (removeEscapes first) conts last]
      cases hc : (conts.map (· ++ [c! '='])) ++ [last] with
      | nil => simp at hc
      | cons L r =>
        obtain ⟨a, c⟩ := h2 L (by simp [hc])
        rw [List.foldl_cons, List.foldl_cons, hfirst L a c]
    rw [List.foldl_append, hall, List.foldl_cons, List.foldl_nil]
    simp only [feedJ, joinStep, hend, Bool.false_eq_true, if_false]
    exact congrArg (JS.mk · none) (mark_forgets b { rs with card := rs.card.addLine (p.decodeValue E (removeEscapes first ++ conts.flatten ++ last)) }
      (head ++ first ++ [c! '=']) rs.currentLine)
  induction conts generalizing first with
  | nil =>
    rw [softValue] at hend ⊢
    cases hf : isFolded last with
    | false =>
      rw [hf] at hend
      simp only [Bool.false_eq_true, if_false] at hend ⊢
      have := plain first [] last (by simpa using hend) (by
        intro l hl
        simp only [List.map_nil, List.nil_append, List.head?_cons, Option.mem_some_iff] at hl
        subst hl
        rcases h2 with ⟨c, hc, -⟩ | h | h
        · cases hc
        · rw [hf] at h; cases h
        · exact ⟨hf, h⟩)
      simpa using this
    | true =>
      rw [hf] at hend
      simp only [if_true] at hend ⊢
      have h1 : feedJ E ⟨{ rs with currentLine := head ++ first ++ [c! '='] }, none⟩ last
          = ⟨{ rs with currentLine := head ++ (first ++ (c! '=') :: last.drop 1) }, none⟩ := by
        simp [feedJ, hf]
      rw [List.map_nil, List.nil_append, List.cons_append, List.nil_append, List.foldl_cons, h1, List.foldl_cons, List.foldl_nil]
      exact one_line E rs hi hp hq _ hend b hb
  | cons c conts ih =>
    rw [softValue] at hend ⊢
    cases hf : isFolded c with
    | false =>
      rw [hf] at hend
      simp only [Bool.false_eq_true, if_false] at hend ⊢
      refine plain first (c :: conts) last hend ?_
      intro l hl
      simp only [List.map_cons, List.cons_append, List.head?_cons, Option.mem_some_iff] at hl
      subst hl
      exact ⟨by rw [isFolded_eq, hf], isBlank_eq c⟩
    | true =>
      rw [hf] at hend
      simp only [if_true] at hend ⊢
      have h1 : feedJ E ⟨{ rs with currentLine := head ++ first ++ [c! '='] }, none⟩ (c ++ [c! '='])
          = ⟨{ rs with currentLine := head ++ (first ++ (c! '=') :: c.drop 1) ++ [c! '='] }, none⟩ := by
        cases c with
        | nil => cases hf
        | cons x t =>
          have hf' := isFolded_eq (x :: t)
          rw [hf] at hf'
          simp only [feedJ, hf', if_true]
          simp
      rw [List.map_cons, List.cons_append, List.cons_append, List.foldl_cons, h1]
      refine ih _ hend ?_
      rcases h2 with ⟨d, hd, h⟩ | h
      · rcases List.mem_cons.1 hd with rfl | hd
        · rw [hf] at h; cases h
        · exact .inl ⟨d, hd, h⟩
      · exact .inr h

/-! ### Theorems -/

/-- Exactly what a value on several lines amounts to: the text is read to the same cards as one with `w` on a single line, where `w` is any value that
    stands for the bytes `softValue first conts last`. For every card around it, every property `head` that announces quoted-printable, every number
    of pieces and every content, provided the line after the first is not skipped as blank and the value does not end in '=' (then the lines that
    follow the property would be taken for further pieces). -/
theorem C58_exact (E : Codecs) (before after : List QByteArray) (hctx : AroundProperty before after)
    (head : QByteArray) (p : PL) (hp : PL.scan {} head = (p, some [])) (hq : p.enc = b! "quoted-printable")
    (hh : isFolded head = false ∧ isBlank head = false) (hm : ∀ x, ¬ Marker (b! "begin:vcard") (head ++ x) ∧ ¬ Marker (b! "end:vcard") (head ++ x))
    (first : QByteArray) (conts : List QByteArray) (last : QByteArray)
    (hlines : (10 : UInt8) ∉ head ++ first ++ conts.flatten ++ last ∧ last.getLast? ≠ some 13)
    (hend : (softValue first conts last).getLast? ≠ some (c! '='))
    (h2 : (∃ c ∈ conts, isFolded c = false) ∨ isFolded last = true ∨ isBlank last = false)
    (w : QByteArray) (hw : removeEscapes w = softValue first conts last) (hwl : OneLine (head ++ w)) :
    ∃ cards, ∀ n, (before ++ [head ++ first ++ [c! '=']] ++ conts.map (· ++ [c! '=']) ++ [last] ++ after).length + 2 ≤ n →
      parseVCards E n (textOf (before ++ [head ++ first ++ [c! '=']] ++ conts.map (· ++ [c! '=']) ++ [last] ++ after)) = some cards
      ∧ parseVCards E n (textOf (before ++ [head ++ w] ++ after)) = some cards := by
  obtain ⟨hl, ⟨b0, r0, rfl, hb0, hr0⟩, ⟨b1, r1, hafter, hb1⟩, hclosed⟩ := hctx
  have hlE : ∀ l ∈ (b0 :: r0) ++ after, endsWithChar (c! '=') l = false := fun l h => (endsWith_eq l).2 (hl l h).2
  have hin : Inside ((b0 :: r0).foldl (feedJ E) {}) := by
    rw [List.foldl_cons]
    refine inside_fold E r0 (fun l h => ⟨hlE l (by simp [h]), ?_⟩) (begin_step E ((marker_iff _ _).2 hb0))
    cases hx : startsWithCI (b! "end:vcard") l with
    | false => rfl
    | true => exact absurd ((marker_iff _ _).1 hx) (hr0 l h)
  have hmk : ∀ x, startsWithCI (b! "begin:vcard") (head ++ x) = false ∧ startsWithCI (b! "end:vcard") (head ++ x) = false := by
    intro x
    constructor
    · cases hx : startsWithCI (b! "begin:vcard") (head ++ x) with
      | false => rfl
      | true => exact absurd ((marker_iff _ _).1 hx) (hm x).1
    · cases hx : startsWithCI (b! "end:vcard") (head ++ x) with
      | false => rfl
      | true => exact absurd ((marker_iff _ _).1 hx) (hm x).2
  have hhx : ∀ x, isFolded (head ++ x) = false ∧ isBlank (head ++ x) = false := by
    intro x
    constructor
    · have := hh.1
      cases head with
      | nil => simp [PL.scan] at hp
      | cons c t => simpa [isFolded] using this
    · cases hx : isBlank (head ++ x) with
      | false => rfl
      | true =>
        rw [isBlank_iff] at hx
        have : isBlank head = true := by rw [isBlank_iff]; exact fun c hc => hx c (by simp [hc])
        rw [hh.2] at this; cases this
  obtain ⟨card, hfirst, hother⟩ := feed_head E hin (hhx (first ++ [c! '='])).1 (hhx (first ++ [c! '='])).2 (hmk (first ++ [c! '='])).1 (hmk (first ++ [c! '='])).2
  rw [← List.append_assoc] at hfirst
  have hsecond := hother (head ++ w) (hhx _).1 (hhx _).2 (hmk _).1 (hmk _).2
  generalize hS : ((b0 :: r0).foldl (feedJ E) {}) = S at hin hfirst hsecond
  have e1 := several_lines E { currentLine := [], inVCard := true, card := card, out := S.rs.out } rfl hp hq first conts last
    ((endsWith_eq _).2 hend) h2 b1 hb1
  have e2 := one_line E { currentLine := [], inVCard := true, card := card, out := S.rs.out } rfl hp hq w
    (by rw [hw]; exact (endsWith_eq _).2 hend) b1 hb1
  rw [hw] at e2
  -- the two folds agree
  have hfold1 : (b0 :: r0 ++ [head ++ first ++ [c! '=']] ++ conts.map (· ++ [c! '=']) ++ [last] ++ after).foldl (feedJ E) {}
      = r1.foldl (feedJ E) ⟨RS.mark b1 (RS.mk [] true (card.addLine (p.decodeValue E (softValue first conts last))) S.rs.out), none⟩ := by
    have : b0 :: r0 ++ [head ++ first ++ [c! '=']] ++ conts.map (· ++ [c! '=']) ++ [last] ++ after
        = (b0 :: r0) ++ ([head ++ first ++ [c! '=']] ++ ((conts.map (· ++ [c! '=']) ++ [last] ++ [b1]) ++ r1)) := by
      rw [hafter]; simp
    rw [this, List.foldl_append, hS, List.foldl_append, List.foldl_cons, List.foldl_nil, hfirst, List.foldl_append]
    rw [e1]
  have hfold2 : (b0 :: r0 ++ [head ++ w] ++ after).foldl (feedJ E) {}
      = r1.foldl (feedJ E) ⟨RS.mark b1 (RS.mk [] true (card.addLine (p.decodeValue E (softValue first conts last))) S.rs.out), none⟩ := by
    have : b0 :: r0 ++ [head ++ w] ++ after = (b0 :: r0) ++ (head ++ w) :: b1 :: r1 := by
      rw [hafter]; simp
    rw [this, List.foldl_append, hS, List.foldl_cons, hsecond, List.foldl_cons, e2]
  have hdone : ∃ rs, r1.foldl (feedJ E) ⟨RS.mark b1 (RS.mk [] true (card.addLine (p.decodeValue E (softValue first conts last))) S.rs.out), none⟩ = ⟨rs, none⟩ := by
    have hns : NoSoft ⟨RS.mark b1 (RS.mk [] true (card.addLine (p.decodeValue E (softValue first conts last))) S.rs.out), none⟩ := nosoft_mark b1 _ (hlE b1 (by simp [hafter]))
    cases r1 with
    | nil => exact ⟨_, rfl⟩
    | cons x t =>
      obtain ⟨r, e, h1, h2⟩ := hclosed
      rw [hafter] at h1
      cases r with
      | nil => simp at h1
      | cons y r =>
        rw [List.cons_append, List.cons.injEq] at h1
        rw [h1.2, List.foldl_append, List.foldl_cons, List.foldl_nil]
        have hns' : NoSoft (r.foldl (feedJ E) ⟨RS.mark b1 (RS.mk [] true (card.addLine (p.decodeValue E (softValue first conts last))) S.rs.out), none⟩) := by
          refine nosoft_fold E r (fun l h => hlE l ?_) hns
          rw [hafter, h1.2]; simp [h]
        obtain ⟨hj, -, -⟩ := feedJ_end E _ hns' e ((marker_iff _ _).2 h2)
        revert hj
        generalize feedJ E _ e = z
        intro hj
        cases z with
        | mk a b => exact ⟨a, by rw [show b = none from hj]⟩
  obtain ⟨rs, hrs⟩ := hdone
  obtain ⟨hn1, hn2⟩ := hlines
  refine ⟨rs.out, fun n hn => ⟨?_, ?_⟩⟩
  · refine parseVCards_of_foldJ E _ _ (by simp) (physLines_textOf _ ?_) rs (hfold1.trans hrs) n hn
    intro l h
    simp only [List.mem_append, List.mem_singleton, List.mem_map] at h
    rcases h with (((h | h) | h) | h) | h
    · exact (hl l (List.mem_append_left _ h)).1
    · subst h
      refine ⟨fun h10 => hn1 ?_, by simp⟩
      simp only [List.mem_append, List.mem_singleton] at h10 ⊢
      rcases h10 with (h10 | h10) | h10
      · exact .inl (.inl (.inl h10))
      · exact .inl (.inl (.inr h10))
      · exact absurd h10 (by decide)
    · obtain ⟨x, hx, rfl⟩ := h
      refine ⟨fun h10 => hn1 ?_, by simp⟩
      simp only [List.mem_append, List.mem_singleton] at h10 ⊢
      rcases h10 with h10 | h10
      · exact .inl (.inr (List.mem_flatten.2 ⟨x, hx, h10⟩))
      · exact absurd h10 (by decide)
    · subst h
      exact ⟨fun h10 => hn1 (List.mem_append_right _ h10), hn2⟩
    · exact (hl l (List.mem_append_right _ h)).1
  · refine parseVCards_of_foldJ E _ _ (by simp) (physLines_textOf _ ?_) rs (hfold2.trans hrs) n (by simp at hn ⊢; omega)
    intro l h
    simp only [List.mem_append, List.mem_singleton] at h
    rcases h with (h | h) | h
    · exact (hl l (List.mem_append_left _ h)).1
    · subst h
      exact hwl
    · exact (hl l (List.mem_append_right _ h)).1

theorem softValue_plain (first : QByteArray) (conts : List QByteArray) (last : QByteArray)
    (hbs : (c! '\\') ∉ conts.flatten ++ last)
    (hsplit : first.getLast? ≠ some (c! '\\') ∨ ∀ c ∈ (conts.flatten ++ last).head?, c ∉ [c! 'n', c! 'N', c! 'r', c! ','])
    (h2 : ∀ l ∈ ((conts.map (· ++ [c! '='])) ++ [last]).head?, isFolded l = false ∧ isBlank l = false) :
    removeEscapes (first ++ conts.flatten ++ last) = softValue first conts last := by
  rw [List.append_assoc, removeEscapes_app _ _ hbs hsplit]
  cases conts with
  | nil =>
    obtain ⟨h, -⟩ := h2 last (by simp)
    simp [softValue, h]
  | cons c conts =>
    obtain ⟨h, -⟩ := h2 (c ++ [c! '=']) (by simp)
    rw [isFolded_eq] at h
    simp [softValue, h]

/-- A text with the value on several lines is read to the same cards as the text with the value on one line: for every card around it, every property
    `head` that announces quoted-printable, every number of pieces and every content with escapes in the first piece only, none of them broken by the
    line break, provided the whole value does not end in '=' and the line after the first is not taken for a folded or blank one. -/
theorem C58_soft_breaks_partial (E : Codecs) (before after : List QByteArray) (hctx : AroundProperty before after)
    (head : QByteArray) (p : PL) (hp : PL.scan {} head = (p, some [])) (hq : p.enc = b! "quoted-printable")
    (hh : isFolded head = false ∧ isBlank head = false) (hm : ∀ x, ¬ Marker (b! "begin:vcard") (head ++ x) ∧ ¬ Marker (b! "end:vcard") (head ++ x))
    (first : QByteArray) (conts : List QByteArray) (last : QByteArray)
    (hlines : (10 : UInt8) ∉ head ++ first ++ conts.flatten ++ last ∧ last.getLast? ≠ some 13
      ∧ (head ++ (first ++ conts.flatten ++ last)).getLast? ≠ some 13)
    (hbs : (c! '\\') ∉ conts.flatten ++ last)
    (hsplit : first.getLast? ≠ some (c! '\\') ∨ ∀ c ∈ (conts.flatten ++ last).head?, c ∉ [c! 'n', c! 'N', c! 'r', c! ','])
    (hend : (first ++ conts.flatten ++ last).getLast? ≠ some (c! '='))
    (h2 : ∀ l ∈ ((conts.map (· ++ [c! '='])) ++ [last]).head?, isFolded l = false ∧ isBlank l = false) :
    ∃ cards, ∀ n, (before ++ [head ++ first ++ [c! '=']] ++ conts.map (· ++ [c! '=']) ++ [last] ++ after).length + 2 ≤ n →
      parseVCards E n (textOf (before ++ [head ++ first ++ [c! '=']] ++ conts.map (· ++ [c! '=']) ++ [last] ++ after)) = some cards
      ∧ parseVCards E n (textOf (before ++ [head ++ (first ++ conts.flatten ++ last)] ++ after)) = some cards := by
  have hw := softValue_plain first conts last hbs hsplit h2
  refine C58_exact E before after hctx head p hp hq hh hm first conts last ⟨hlines.1, hlines.2.1⟩ ?_ ?_ _ hw ⟨by simpa [or_assoc] using hlines.1, hlines.2.2⟩
  · rw [← hw]
    intro h
    have := removeEscapes_last (first ++ conts.flatten ++ last) (by unfold endsWithChar; rw [h]; rfl)
    unfold endsWithChar at this
    exact hend (by simpa only [beq_iff_eq] using this)
  · cases conts with
    | nil => exact .inr (.inr (h2 last (by simp)).2)
    | cons c conts => exact .inl ⟨c, by simp, by rw [← isFolded_eq]; exact (h2 _ (by simp)).1⟩

/-- The name of a property as it stands in a text. -/
structure Spec.PropertyName (name : QByteArray) : Prop where
  nonempty : name ≠ []
  visible : ∀ c ∈ name, (33 : UInt8) ≤ c
  plain : (c! ';') ∉ name ∧ (c! ':') ∉ name ∧ (c! '.') ∉ name

theorem lowerByte_colon (x : UInt8) (h : lowerByte x = c! ':') : x = c! ':' := by
  have : ∀ n : Fin 256, lowerByte (UInt8.ofNat n.val) = c! ':' → UInt8.ofNat n.val = c! ':' := by decide +kernel
  have := this ⟨x.toNat, x.toNat_lt⟩
  simp only [UInt8.ofNat_toNat] at this
  exact this h

/-- A line that begins with a name and ';' is neither the opening nor the closing marker. -/
theorem name_no_marker {name : QByteArray} (h : (c! ':') ∉ name) (x : QByteArray) (m : QByteArray) (i : Nat) (hi : m[i]? = some (c! ':'))
    (hs : (c! ';') ∉ m) (hl : lowerByte (c! ';') = c! ';') : ¬ Marker m (name ++ (c! ';') :: x) := by
  intro hm
  unfold Marker at hm
  have hilt : i < m.length := by
    rcases Nat.lt_or_ge i m.length with h | h
    · exact h
    · rw [List.getElem?_eq_none h] at hi; cases hi
  rcases Nat.lt_or_ge i name.length with hlt | hge
  · have e : m[i]? = some (lowerByte name[i]) := by
      rw [← hm, List.getElem?_take_of_lt hilt, List.getElem?_map, List.getElem?_append_left hlt, List.getElem?_eq_getElem hlt]
      rfl
    rw [hi] at e
    have := lowerByte_colon _ (Option.some.inj e).symm
    exact h (this ▸ List.getElem_mem hlt)
  · have e : m[name.length]? = some (c! ';') := by
      rw [← hm, List.getElem?_take_of_lt (by omega), List.getElem?_map, List.getElem?_append_right (Nat.le_refl _)]
      simp [hl]
    exact hs (List.mem_of_getElem? e)

/-- The scanner on `name;ENCODING=QUOTED-PRINTABLE:`. -/
theorem scan_qp {name : QByteArray} (h : PropertyName name) :
    PL.scan {} (name ++ b! ";ENCODING=QUOTED-PRINTABLE:")
      = (⟨.value, [], b! "ENCODING", VCardLine.addParameter { identifier := fromLatin1 name } (q! "encoding") (q! "QUOTED-PRINTABLE"), b! "quoted-printable", []⟩, some []) := by
  rw [scan_initial {} rfl name _ h.plain.1 h.plain.2.1 h.plain.2.2, List.nil_append]
  have hk : toLowerB (b! "ENCODING") = b! "encoding" := by decide
  have hv : toLowerB (b! "QUOTED-PRINTABLE") = b! "quoted-printable" := by decide
  have hfk : fromLatin1 (b! "encoding") = q! "encoding" := by decide
  have hfv : fromLatin1 (b! "QUOTED-PRINTABLE") = q! "QUOTED-PRINTABLE" := by decide
  simp [PL.scan, PL.step, PL.addParameter, hk, hv, hfk, hfv]

/-- A card of one property whose value stands on several lines: the value read is what quoted-printable decoding makes of `softValue first conts last`, the
    concatenation after removal of the escapes in the first piece, unless a piece at the beginning is taken for a folded line. -/
theorem C58_value_exact (E : Codecs) (name : QByteArray) (hn : PropertyName name)
    (first : QByteArray) (conts : List QByteArray) (last : QByteArray)
    (hlines : (10 : UInt8) ∉ first ++ conts.flatten ++ last ∧ last.getLast? ≠ some 13)
    (hend : (softValue first conts last).getLast? ≠ some (c! '='))
    (h2 : (∃ c ∈ conts, isFolded c = false) ∨ isFolded last = true ∨ isBlank last = false) (n : Nat) (hlen : conts.length + 6 ≤ n) :
    ∃ line, line.value = .str (fromUtf8 (E.qpDecode (softValue first conts last))) ∧
      parseVCards E n (textOf ([b! "BEGIN:VCARD", name ++ b! ";ENCODING=QUOTED-PRINTABLE:" ++ first ++ [c! '=']] ++ conts.map (· ++ [c! '=']) ++ [last] ++ [b! "END:VCARD"]))
        = some [[(fromLatin1 name, [line])]] := by
  have hsc := scan_qp hn
  generalize hhead : name ++ b! ";ENCODING=QUOTED-PRINTABLE:" = head at hsc
  have hno : ∀ x, startsWithCI (b! "begin:vcard") (head ++ x) = false ∧ startsWithCI (b! "end:vcard") (head ++ x) = false := by
    intro x
    have e : head ++ x = name ++ (c! ';') :: (b! "ENCODING=QUOTED-PRINTABLE:" ++ x) := by rw [← hhead]; simp
    constructor
    · cases hx : startsWithCI (b! "begin:vcard") (head ++ x) with
      | false => rfl
      | true => exact absurd (e ▸ (marker_iff _ _).1 hx) (name_no_marker hn.plain.2.1 _ _ 5 rfl (by decide) (by decide))
    · cases hx : startsWithCI (b! "end:vcard") (head ++ x) with
      | false => rfl
      | true => exact absurd (e ▸ (marker_iff _ _).1 hx) (name_no_marker hn.plain.2.1 _ _ 3 rfl (by decide) (by decide))
  have hline : ∀ x, isFolded (head ++ x) = false ∧ isBlank (head ++ x) = false := by
    intro x
    cases hname : name with
    | nil => exact absurd hname hn.nonempty
    | cons c t =>
      have hc := hn.visible c (by simp [hname])
      rw [← hhead, hname]
      apply goodStart_line
      · rintro rfl; exact absurd hc (by decide)
      · rintro ⟨-, h⟩; exact absurd (UInt8.le_trans hc h) (by decide)
  have hstart : feedJ E {} (b! "BEGIN:VCARD") = ⟨{ currentLine := [], inVCard := true, card := [], out := [] }, none⟩ := rfl
  have hfirst : feedJ E ⟨{ currentLine := [], inVCard := true, card := [], out := [] }, none⟩ (head ++ first ++ [c! '='])
      = ⟨{ currentLine := head ++ first ++ [c! '='], inVCard := true, card := [], out := [] }, none⟩ := by
    rw [List.append_assoc]
    simp only [feedJ, (hline _).1, (hline _).2, Bool.false_eq_true, if_false, ne_eq, not_true_eq_false, and_false]
    unfold RS.mark
    rw [if_neg (by rw [(hno _).1]; decide), if_neg (by rw [(hno _).2]; decide)]
  have e1 := several_lines E { currentLine := [], inVCard := true, card := [], out := [] } rfl hsc rfl first conts last
    ((endsWith_eq _).2 hend) h2 (b! "END:VCARD") (by decide)
  obtain ⟨hn1, hn2⟩ := hlines
  generalize hq : (⟨.value, [], b! "ENCODING", VCardLine.addParameter { identifier := fromLatin1 name } (q! "encoding") (q! "QUOTED-PRINTABLE"),
    b! "quoted-printable", []⟩ : PL) = q at e1
  have hadd : VCard.addLine [] (q.decodeValue E (softValue first conts last)) = [(fromLatin1 name, [q.decodeValue E (softValue first conts last)])] := by
    subst hq; rfl
  refine ⟨q.decodeValue E (softValue first conts last), by subst hq; rfl, ?_⟩
  rw [← hadd]
  · refine parseVCards_of_foldJ E _ ([b! "BEGIN:VCARD", head ++ first ++ [c! '=']] ++ conts.map (· ++ [c! '=']) ++ [last] ++ [b! "END:VCARD"]) (by simp)
      (physLines_textOf _ ?_) ⟨[], false, [], [VCard.addLine [] (q.decodeValue E (softValue first conts last))]⟩ ?_ n (by simp; omega)
    · intro l h
      simp only [List.mem_append, List.mem_cons, List.not_mem_nil, or_false, List.mem_map] at h
      have hh10 : (10 : UInt8) ∉ head := by
        rw [← hhead]
        intro h10
        rcases List.mem_append.1 h10 with h10 | h10
        · exact absurd (hn.visible _ h10) (by decide)
        · exact absurd h10 (by decide)
      rcases h with (((h | h) | h) | h) | h
      · subst h; exact ⟨by decide, by decide⟩
      · subst h
        refine ⟨fun h10 => ?_, by simp⟩
        simp only [List.mem_append, List.mem_singleton] at h10
        rcases h10 with (h10 | h10) | h10
        · exact hh10 h10
        · exact hn1 (by simp [h10])
        · exact absurd h10 (by decide)
      · obtain ⟨x, hx, rfl⟩ := h
        refine ⟨fun h10 => ?_, by simp⟩
        simp only [List.mem_append, List.mem_singleton] at h10
        rcases h10 with h10 | h10
        · exact hn1 (List.mem_append_left _ (List.mem_append_right _ (List.mem_flatten.2 ⟨x, hx, h10⟩)))
        · exact absurd h10 (by decide)
      · subst h; exact ⟨fun h10 => hn1 (List.mem_append_right _ h10), hn2⟩
      · subst h; exact ⟨by decide, by decide⟩
    · have : [b! "BEGIN:VCARD", head ++ first ++ [c! '=']] ++ conts.map (· ++ [c! '=']) ++ [last] ++ [b! "END:VCARD"]
          = (b! "BEGIN:VCARD") :: (head ++ first ++ [c! '=']) :: (conts.map (· ++ [c! '=']) ++ [last] ++ [b! "END:VCARD"]) := by simp
      rw [this, List.foldl_cons, List.foldl_cons, hstart, hfirst, e1]
      rfl

/-- The same for contents without a backslash: the value read is what quoted-printable decoding makes of the concatenation. -/
theorem C58_value_partial (E : Codecs) (name : QByteArray) (hn : PropertyName name)
    (first : QByteArray) (conts : List QByteArray) (last : QByteArray)
    (hlines : (10 : UInt8) ∉ first ++ conts.flatten ++ last ∧ last.getLast? ≠ some 13)
    (hbs : (c! '\\') ∉ first ++ conts.flatten ++ last) (hend : (first ++ conts.flatten ++ last).getLast? ≠ some (c! '='))
    (h2 : ∀ l ∈ ((conts.map (· ++ [c! '='])) ++ [last]).head?, isFolded l = false ∧ isBlank l = false) (n : Nat) (hlen : conts.length + 6 ≤ n) :
    ∃ line, line.value = .str (fromUtf8 (E.qpDecode (first ++ conts.flatten ++ last))) ∧
      parseVCards E n (textOf ([b! "BEGIN:VCARD", name ++ b! ";ENCODING=QUOTED-PRINTABLE:" ++ first ++ [c! '=']] ++ conts.map (· ++ [c! '=']) ++ [last] ++ [b! "END:VCARD"]))
        = some [[(fromLatin1 name, [line])]] := by
  have hbs' : (c! '\\') ∉ first ∧ (c! '\\') ∉ conts.flatten ++ last := by
    rw [List.append_assoc, List.mem_append, not_or] at hbs; exact hbs
  have hw := softValue_plain first conts last hbs'.2 (.inl fun h => hbs'.1 (List.mem_of_getLast? h)) h2
  have hid : removeEscapes (first ++ conts.flatten ++ last) = first ++ conts.flatten ++ last := by
    unfold removeEscapes
    rw [if_pos hbs]
  rw [hid] at hw
  rw [hw]
  refine C58_value_exact E name hn first conts last hlines (hw ▸ hend) ?_ n hlen
  cases conts with
  | nil => exact .inr (.inr (h2 last (by simp)).2)
  | cons c conts => exact .inl ⟨c, by simp, by rw [← isFolded_eq]; exact (h2 _ (by simp)).1⟩

/-! ### The property does not hold as stated -/

/-- Escapes are removed before the pieces are joined, so only in the first piece: the value on one line is "a,b,c", on two lines "a,b\,c". -/
theorem C58_escapes_false (E : Codecs) (hE : ∀ v, (c! '=') ∉ v → E.qpDecode v = v) :
    parseVCards E 9 (b! "BEGIN:VCARD\nNOTE;QUOTED-PRINTABLE:a\\,b\\,c\nEND:VCARD\n")
      = some [[(q! "NOTE", [{ identifier := q! "NOTE", params := [(q! "encoding", [q! "QUOTED-PRINTABLE"])], value := .str (q! "a,b,c") }])]]
    ∧ parseVCards E 9 (b! "BEGIN:VCARD\nNOTE;QUOTED-PRINTABLE:a\\,b=\n\\,c\nEND:VCARD\n")
      = some [[(q! "NOTE", [{ identifier := q! "NOTE", params := [(q! "encoding", [q! "QUOTED-PRINTABLE"])], value := .str (q! "a,b\\,c") }])]] := by
  have h1 : parseVCards E 9 (b! "BEGIN:VCARD\nNOTE;QUOTED-PRINTABLE:a\\,b\\,c\nEND:VCARD\n")
      = some [[(q! "NOTE", [{ identifier := q! "NOTE", params := [(q! "encoding", [q! "QUOTED-PRINTABLE"])], value := .str (fromUtf8 (E.qpDecode (b! "a,b,c"))) }])]] :=
    parseVCards_of_foldJ E _ [b! "BEGIN:VCARD", b! "NOTE;QUOTED-PRINTABLE:a\\,b\\,c", b! "END:VCARD"] (by decide) (by decide)
      ⟨[], false, [], _⟩ rfl 9 (by decide)
  have h2 : parseVCards E 9 (b! "BEGIN:VCARD\nNOTE;QUOTED-PRINTABLE:a\\,b=\n\\,c\nEND:VCARD\n")
      = some [[(q! "NOTE", [{ identifier := q! "NOTE", params := [(q! "encoding", [q! "QUOTED-PRINTABLE"])], value := .str (fromUtf8 (E.qpDecode (b! "a,b\\,c"))) }])]] :=
    parseVCards_of_foldJ E _ [b! "BEGIN:VCARD", b! "NOTE;QUOTED-PRINTABLE:a\\,b=", b! "\\,c", b! "END:VCARD"] (by decide) (by decide)
      ⟨[], false, [], _⟩ rfl 9 (by decide)
  rw [hE _ (by decide)] at h1 h2
  exact ⟨h1.trans (by decide), h2.trans (by decide)⟩

/-- A second piece that begins with a space is taken for a folded line: its space is dropped and the '=' before it stays in the value. -/
theorem C58_leading_space_false (E : Codecs) :
    parseVCards E 9 (b! "BEGIN:VCARD\nNOTE;QUOTED-PRINTABLE:a=\n b\nEND:VCARD\n")
      = some [[(q! "NOTE", [{ identifier := q! "NOTE", params := [(q! "encoding", [q! "QUOTED-PRINTABLE"])], value := .str (fromUtf8 (E.qpDecode (b! "a=b"))) }])]] :=
  parseVCards_of_foldJ E _ [b! "BEGIN:VCARD", b! "NOTE;QUOTED-PRINTABLE:a=", b! " b", b! "END:VCARD"] (by decide) (by decide)
    ⟨[], false, [], _⟩ rfl 9 (by decide)

/-! ### The hypotheses are met -/

example : AroundProperty [b! "BEGIN:VCARD", b! "VERSION:2.1"] [b! "UID:x", b! "END:VCARD"] := by
  refine ⟨?_, ⟨_, _, rfl, by unfold Marker; decide, ?_⟩, ⟨_, _, rfl, by decide, by decide⟩, ⟨[b! "UID:x"], _, rfl, by unfold Marker; decide⟩⟩
  · unfold OneLine; decide
  · unfold Marker; decide

example : PropertyName (b! "NOTE") := ⟨by decide, by decide, by decide⟩

example (E : Codecs) : ∃ line, line.value = .str (fromUtf8 (E.qpDecode (b! "=C3=A9t=C3=A9 en ville"))) ∧
    parseVCards E 9 (b! "BEGIN:VCARD\nNOTE;ENCODING=QUOTED-PRINTABLE:=C3=A9=\nt=C3=A9=\n en=\n ville\nEND:VCARD\n") = some [[(q! "NOTE", [line])]] :=
  C58_value_partial E (b! "NOTE") ⟨by decide, by decide, by decide⟩ (b! "=C3=A9") [b! "t=C3=A9", b! " en"] (b! " ville") (by decide) (by decide) (by decide)
    (by decide) 9 (by decide)

/-- Escapes in the first piece, a folded second piece, escapes in the third. -/
example (E : Codecs) : ∃ line, line.value = .str (fromUtf8 (E.qpDecode (b! "a,b=c,dx\\,y"))) ∧
    parseVCards E 9 (b! "BEGIN:VCARD\nNOTE;ENCODING=QUOTED-PRINTABLE:a\\,b=\n c\\,d=\nx\\,y\nEND:VCARD\n") = some [[(q! "NOTE", [line])]] :=
  C58_value_exact E (b! "NOTE") ⟨by decide, by decide, by decide⟩ (b! "a\\,b") [b! " c\\,d"] (b! "x\\,y") (by decide) (by decide) (by decide) 9 (by decide)

/-- In a card with other properties; on one line the same value is written with a doubled backslash. -/
example (E : Codecs) : ∃ cards, ∀ n, 8 ≤ n →
    parseVCards E n (b! "BEGIN:VCARD\nVERSION:2.1\nNOTE;QUOTED-PRINTABLE:a\\,b=\n\\,c\nUID:x\nEND:VCARD\n") = some cards
    ∧ parseVCards E n (b! "BEGIN:VCARD\nVERSION:2.1\nNOTE;QUOTED-PRINTABLE:a,b\\\\,c\nUID:x\nEND:VCARD\n") = some cards := by
  obtain ⟨p, hp, hq⟩ : ∃ p : PL, PL.scan {} (b! "NOTE;QUOTED-PRINTABLE:") = (p, some []) ∧ p.enc = b! "quoted-printable" := ⟨_, rfl, by decide⟩
  refine C58_exact E [b! "BEGIN:VCARD", b! "VERSION:2.1"] [b! "UID:x", b! "END:VCARD"] ?_ (b! "NOTE;QUOTED-PRINTABLE:") p hp hq (by decide) ?_
    (b! "a\\,b") [] (b! "\\,c") (by decide) (by decide) (by decide) (b! "a,b\\\\,c") (by decide) (by unfold OneLine; decide)
  · refine ⟨?_, ⟨_, _, rfl, by unfold Marker; decide, ?_⟩, ⟨_, _, rfl, by decide, by decide⟩, ⟨[b! "UID:x"], _, rfl, by unfold Marker; decide⟩⟩
    · unfold OneLine; decide
    · unfold Marker; decide
  · intro x
    exact ⟨name_no_marker (name := b! "NOTE") (by decide) (b! "QUOTED-PRINTABLE:" ++ x) _ 5 rfl (by decide) (by decide),
      name_no_marker (name := b! "NOTE") (by decide) (b! "QUOTED-PRINTABLE:" ++ x) _ 3 rfl (by decide) (by decide)⟩

end KC
