import Verif.Lemmas.HeadSections
/-
  Helper lemmas: how lines are read whose heads keep to themselves, whatever their values.
-/
namespace KC
open KC.Spec

private theorem byte_all {P : UInt8 → Prop} (h : ∀ n : Fin 256, P (UInt8.ofNat n.val)) (b : UInt8) : P b := by
  have := h ⟨b.toNat, b.toNat_lt⟩
  simpa using this

/-! ### texts that do not mention quoted-printable -/

private abbrev qpLit : List UInt8 := ['q', 'u', 'o', 't', 'e', 'd', '-', 'p', 'r', 'i', 'n', 't', 'a', 'b', 'l', 'e'].map fun c => UInt8.ofNat c.toNat

theorem mentions_sep {a b : QByteArray} {u : UInt8} (hu : lowerByte u ∉ qpLit) (h : MentionsQP (a ++ u :: b)) : MentionsQP a ∨ MentionsQP b := by
  obtain ⟨pre, post, e⟩ := h
  rw [List.map_append, List.map_cons, List.append_assoc] at e
  rcases List.append_eq_append_iff.1 e with ⟨c, e1, e2⟩ | ⟨c, e1, e2⟩
  · cases c with
    | nil =>
      exfalso
      apply hu
      rw [List.nil_append] at e2
      have := List.cons.inj (show lowerByte u :: b.map lowerByte = (113 : UInt8) :: _ from e2)
      rw [this.1]; decide
    | cons x c =>
      rw [List.cons_append, List.cons.injEq] at e2
      exact Or.inr ⟨c, post, by rw [e2.2, List.append_assoc]⟩
  · rcases List.append_eq_append_iff.1 e2.symm with ⟨d, e3, e4⟩ | ⟨d, e3, e4⟩
    · cases d with
      | nil =>
        left
        refine ⟨pre, [], ?_⟩
        rw [e1, List.append_nil]
        rw [List.append_nil] at e3
        rw [← e3]
      | cons x d =>
        exfalso
        apply hu
        rw [List.cons_append, List.cons.injEq] at e4
        rw [e4.1]
        show x ∈ (['q', 'u', 'o', 't', 'e', 'd', '-', 'p', 'r', 'i', 'n', 't', 'a', 'b', 'l', 'e'].map fun c => UInt8.ofNat c.toNat)
        rw [e3]; simp
    · left
      exact ⟨pre, d, by rw [e1, e3, List.append_assoc]⟩

theorem mentions_cons {u : UInt8} {b : QByteArray} (hu : lowerByte u ≠ 113) (h : MentionsQP (u :: b)) : MentionsQP b := by
  obtain ⟨pre, post, e⟩ := h
  cases pre with
  | nil =>
    exfalso
    rw [List.map_cons] at e
    exact hu (List.cons.inj (show lowerByte u :: b.map lowerByte = (113 : UInt8) :: _ from e)).1
  | cons x pre =>
    rw [List.map_cons, List.cons_append, List.cons_append, List.cons.injEq] at e
    exact ⟨pre, post, e.2⟩

theorem mentions_nil : ¬ MentionsQP [] := by
  rintro ⟨pre, post, e⟩
  have := congrArg List.length e
  simp at this

theorem mentions_upper {s : QByteArray} : MentionsQP (toUpperB s) ↔ MentionsQP s := by
  have : (toUpperB s).map lowerByte = s.map lowerByte := by
    unfold toUpperB
    rw [List.map_map]
    apply List.map_congr_left
    intro u _
    have : ∀ u : UInt8, lowerByte (upperB u) = lowerByte u := byte_all (by decide +kernel)
    exact this u
  unfold MentionsQP
  rw [this]

/-! ### the two classes -/

theorem preLit_bytes {s : QString} (h : preLit s = true) : Unbroken s ∧ qc! '"' ∉ s ∧ ∀ b ∈ toLatin1 s, lowerByte b ≠ 113 := by
  unfold preLit at h
  simp only [List.all_eq_true, Bool.and_eq_true, decide_eq_true_eq] at h
  refine ⟨⟨fun hm => (h _ hm).1.1.1.1.1 rfl, fun hm => (h _ hm).1.1.1.1.2 rfl⟩, fun hm => (h _ hm).1.1.1.2 rfl, ?_⟩
  intro b hb e
  unfold toLatin1 at hb
  obtain ⟨u, hu, e'⟩ := List.mem_map.1 hb
  have hu' := h u hu
  rw [if_pos hu'.2] at e'
  have hn : b.toNat = u.toNat := by rw [← e', UInt8.toNat_ofNat']; have := hu'.2; omega
  have hb2 : ∀ b : UInt8, lowerByte b = 113 → b = 113 ∨ b = 81 := byte_all (by decide +kernel)
  rcases hb2 b e with rfl | rfl
  · exact hu'.1.1.2 (UInt16.toNat_inj.1 (by rw [← hn]; rfl))
  · exact hu'.1.2 (UInt16.toNat_inj.1 (by rw [← hn]; rfl))

theorem mentions_pre {a b : QByteArray} (ha : ∀ x ∈ a, lowerByte x ≠ 113) (h : MentionsQP (a ++ b)) : MentionsQP b := by
  induction a with
  | nil => exact h
  | cons x a ih => exact ih (fun y hy => ha y (by simp [hy])) (mentions_cons (ha x (by simp)) h)

theorem uLit_bytes {s : QString} (h : (s.all fun u => u ≠ 10 && u ≠ 13 && u ≠ qc! '"' && u ≠ qc! 'u' && u ≠ qc! 'U' && u.toNat < 256) = true) :
    Unbroken s ∧ qc! '"' ∉ s ∧ ¬ MentionsQP (toLatin1 s) := by
  simp only [List.all_eq_true, Bool.and_eq_true, decide_eq_true_eq] at h
  refine ⟨⟨fun hm => (h _ hm).1.1.1.1.1 rfl, fun hm => (h _ hm).1.1.1.1.2 rfl⟩, fun hm => (h _ hm).1.1.1.2 rfl, ?_⟩
  rintro ⟨pre, post, e⟩
  have hm : (117 : UInt8) ∈ (toLatin1 s).map lowerByte := by
    rw [e]
    refine List.mem_append_left _ (List.mem_append_right _ ?_)
    decide
  obtain ⟨b, hb, eb⟩ := List.mem_map.1 hm
  unfold toLatin1 at hb
  obtain ⟨u, hu, e'⟩ := List.mem_map.1 hb
  have hu' := h u hu
  rw [if_pos hu'.2] at e'
  have hn : b.toNat = u.toNat := by rw [← e', UInt8.toNat_ofNat']; have := hu'.2; omega
  have hb2 : ∀ b : UInt8, lowerByte b = 117 → b = 117 ∨ b = 85 := byte_all (by decide +kernel)
  rcases hb2 b eb with rfl | rfl
  · exact hu'.1.1.2 (UInt16.toNat_inj.1 (by rw [← hn]; rfl))
  · exact hu'.1.2 (UInt16.toNat_inj.1 (by rw [← hn]; rfl))

theorem latin1_append (a b : QString) : toLatin1 (a ++ b) = toLatin1 a ++ toLatin1 b := by simp [toLatin1]

theorem oneLine_class : HeadClass Unbroken where
  lit s h := by
    unfold plainLit at h
    rcases Bool.or_eq_true _ _ ▸ h with h | h
    · exact (preLit_bytes h).1
    · exact (uLit_bytes h).1
  comma a b ha hb := ⟨by simp [ha.1, hb.1], by simp [ha.2, hb.2]⟩
  colon a b ha hb := ⟨by simp [ha.1, hb.1], by simp [ha.2, hb.2]⟩
  pre a b ha hb := by
    have := (preLit_bytes ha).1
    exact ⟨by simp [this.1, hb.1], by simp [this.2, hb.2]⟩
  sub a b h := by
    unfold Unbroken at h ⊢
    simp only [List.mem_append, not_or] at h
    exact ⟨⟨h.1.1, h.2.1⟩, h.1.2, h.2.2⟩
  line s h := h

/-- one line, no quotation marks, nothing about quoted-printable -/
def Quiet (s : QString) : Prop := Unbroken s ∧ Unquoting s

theorem quiet_class : HeadClass Quiet where
  lit s h := by
    unfold plainLit at h
    rcases Bool.or_eq_true _ _ ▸ h with h | h
    · obtain ⟨h1, h2, h3⟩ := preLit_bytes h
      refine ⟨h1, h2, fun hm => mentions_nil (mentions_pre (a := toLatin1 s) h3 (by simpa using hm))⟩
    · exact ⟨(uLit_bytes h).1, (uLit_bytes h).2⟩
  comma a b ha hb := by
    refine ⟨⟨by simp [ha.1.1, hb.1.1], by simp [ha.1.2, hb.1.2]⟩, by simp [ha.2.1, hb.2.1], fun hm => ?_⟩
    rw [latin1_append] at hm
    rcases mentions_sep (u := c! ',') (by decide) hm with h | h
    · exact ha.2.2 h
    · exact hb.2.2 h
  colon a b ha hb := by
    refine ⟨⟨by simp [ha.1.1, hb.1.1], by simp [ha.1.2, hb.1.2]⟩, by simp [ha.2.1, hb.2.1], fun hm => ?_⟩
    rw [latin1_append] at hm
    rcases mentions_sep (u := c! ':') (by decide) hm with h | h
    · exact ha.2.2 h
    · exact hb.2.2 h
  pre a b ha hb := by
    obtain ⟨h1, h2, h3⟩ := preLit_bytes ha
    refine ⟨⟨by simp [h1.1, hb.1.1], by simp [h1.2, hb.1.2]⟩, by simp [h2, hb.2.1], fun hm => ?_⟩
    rw [latin1_append] at hm
    exact hb.2.2 (mentions_pre h3 hm)
  sub a b h := by
    obtain ⟨⟨h1, h2⟩, h3, h4⟩ := h
    simp only [List.mem_append, not_or] at h1 h2 h3
    rw [latin1_append] at h4
    exact ⟨⟨⟨h1.1, h2.1⟩, h3.1, fun hm => h4 (mentions_append_right hm)⟩, ⟨h1.2, h2.2⟩, h3.2, fun hm => h4 (mentions_append hm)⟩
  line s h := h.1

/-! ### reading a head -/

/-- the machine gets through `t`, or finds the colon in it -/
def Passes (t : QByteArray) : Prop := ∀ p : PL, p.st ≠ .quotedValue → p.st ≠ .value → ∀ r,
  (∃ q used x, t = used ++ x ∧ PL.scan p (t ++ r) = (q, some (x ++ r))) ∨ ∃ p', p'.st ≠ .quotedValue ∧ p'.st ≠ .value ∧ PL.scan p (t ++ r) = PL.scan p' r

theorem passes_nil : Passes [] := fun p h1 h2 _ => Or.inr ⟨p, h1, h2, rfl⟩

theorem passes_append {a b : QByteArray} (ha : Passes a) (hb : Passes b) : Passes (a ++ b) := by
  intro p h1 h2 r
  rw [List.append_assoc]
  rcases ha p h1 h2 (b ++ r) with ⟨q, used, x, e, hs⟩ | ⟨p', g1, g2, hs⟩
  · exact Or.inl ⟨q, used, x ++ b, by rw [e]; simp, by rw [hs]; simp⟩
  · rw [hs]
    rcases hb p' g1 g2 r with ⟨q, used, x, e, hs'⟩ | ⟨p'', g3, g4, hs'⟩
    · exact Or.inl ⟨q, a ++ used, x, by rw [e]; simp, hs'⟩
    · exact Or.inr ⟨p'', g3, g4, hs'⟩

theorem passes_byte {c : UInt8} (hc : c ≠ c! '"') : Passes [c] := by
  intro p h1 h2 r
  have hq : (p.step c).st ≠ .quotedValue := by
    unfold PL.step
    cases hst : p.st with
    | initial => simp only; (repeat' split) <;> simp
    | paramKey => simp only; (repeat' split) <;> simp_all
    | quotedValue => exact absurd hst h1
    | paramValue => simp only [hc, and_false, if_false]; (repeat' split) <;> simp_all
    | afterParamValue => simp only [hc, and_false, if_false]; (repeat' split) <;> simp_all
    | value => exact absurd hst h2
  by_cases hv : (p.step c).st = .value
  · exact Or.inl ⟨p.step c, [c], [], by simp, by simp [PL.scan, hv]⟩
  · exact Or.inr ⟨p.step c, hq, hv, by simp [PL.scan, hv]⟩

theorem passes_bytes {t : QByteArray} (h : (c! '"') ∉ t) : Passes t := by
  induction t with
  | nil => exact passes_nil
  | cons c t ih => exact passes_append (a := [c]) (passes_byte (fun e => h (by simp [e]))) (ih fun hm => h (by simp [hm]))

/-- a plain name, an equals sign and a quoted text, after a semicolon -/
theorem passes_quoted {k w : QByteArray} (hk : ∀ b ∈ k, b ≠ c! ';' ∧ b ≠ c! ':' ∧ b ≠ c! '=') (hw : (c! '"') ∉ w) :
    Passes (c! ';' :: (k ++ c! '=' :: c! '"' :: (w ++ [c! '"']))) := by
  intro p h1 h2 r
  right
  -- after the semicolon
  have s1 : (p.step (c! ';')).st = .paramKey := by
    unfold PL.step
    cases hst : p.st with
    | initial => simp
    | paramKey => simp
    | quotedValue => exact absurd hst h1
    | paramValue => simp
    | afterParamValue => simp
    | value => exact absurd hst h2
  have name : ∀ (k : QByteArray), (∀ b ∈ k, b ≠ c! ';' ∧ b ≠ c! ':' ∧ b ≠ c! '=') → ∀ p : PL, p.st = .paramKey → ∃ p' : PL, p'.st = .paramKey ∧ ∀ t, PL.scan p (k ++ t) = PL.scan p' t := by
    intro k
    induction k with
    | nil => intro _ p hp; exact ⟨p, hp, fun t => rfl⟩
    | cons b k ih =>
      intro hk p hp
      obtain ⟨b1, b2, b3⟩ := hk b (by simp)
      have hstep : (p.step b).st = .paramKey := by
        unfold PL.step
        rw [hp]
        simp [b1, b2, b3, hp]
      obtain ⟨p', g1, g2⟩ := ih (fun x hx => hk x (by simp [hx])) (p.step b) hstep
      refine ⟨p', g1, fun t => ?_⟩
      rw [List.cons_append, PL.scan]
      simp only [hstep]
      rw [if_neg (by decide)]
      exact g2 t
  have inner : ∀ (w : QByteArray), (c! '"') ∉ w → ∀ p : PL, p.st = .quotedValue → ∃ p' : PL, p'.st = .quotedValue ∧ ∀ t, PL.scan p (w ++ t) = PL.scan p' t := by
    intro w
    induction w with
    | nil => intro _ p hp; exact ⟨p, hp, fun t => rfl⟩
    | cons b w ih =>
      intro hw p hp
      have hb : b ≠ c! '"' := fun e => hw (by simp [e])
      have hstep : (p.step b).st = .quotedValue := by
        unfold PL.step
        rw [hp]
        simp only
        split <;> simp [hb, hp]
      obtain ⟨p', g1, g2⟩ := ih (fun hx => hw (by simp [hx])) (p.step b) hstep
      refine ⟨p', g1, fun t => ?_⟩
      rw [List.cons_append, PL.scan]
      simp only [hstep]
      rw [if_neg (by decide)]
      exact g2 t
  obtain ⟨p2, g1, g2⟩ := name k hk _ s1
  have s3 : (p2.step (c! '=')).st = .paramValue ∧ (p2.step (c! '=')).tok = [] := by unfold PL.step; rw [g1]; simp
  have s4 : ((p2.step (c! '=')).step (c! '"')).st = .quotedValue := by
    generalize p2.step (c! '=') = p3 at s3
    unfold PL.step
    rw [s3.1]
    simp [s3.2]
  obtain ⟨p5, g5, g6⟩ := inner w hw _ s4
  have s6 : (p5.step (c! '"')).st = .afterParamValue := by unfold PL.step; rw [g5]; simp
  refine ⟨p5.step (c! '"'), by rw [s6]; decide, by rw [s6]; decide, ?_⟩
  rw [List.cons_append, PL.scan]
  simp only [s1]
  rw [if_neg (by decide), List.append_assoc, g2, List.cons_append, PL.scan]
  simp only [s3.1]
  rw [if_neg (by decide), List.cons_append, PL.scan]
  simp only [s4]
  rw [if_neg (by decide), List.append_assoc, g6, List.cons_append, PL.scan]
  simp only [s6]
  rw [if_neg (by decide), List.nil_append]

variable {l : VCardLine} {E : Codecs}

theorem latin1_quote {s : QString} (h : qc! '"' ∉ s) : (c! '"') ∉ toLatin1 s := latin1_avoid (by decide) h

theorem passes_pair {p : QString × QString} (h : PairHead Quiet p ∨ p ∈ codingPairs) : Passes (c! ';' :: segBody p) := by
  have simple : qc! '"' ∉ p.1 → qc! '"' ∉ p.2 → Passes (c! ';' :: segBody p) := by
    intro h1 h2
    refine passes_bytes ?_
    have a := upper_avoid (by decide) (latin1_quote h1)
    have b := latin1_quote h2
    unfold segBody
    split
    · simp [a, b]
    · simp [a]
  rcases h with ⟨h1, h2 | ⟨hk, w, e, hw⟩⟩ | h
  · exact simple h1.2.1 h2.2.1
  · unfold segBody
    rw [e, if_pos (by simp)]
    have : toLatin1 (qc! '"' :: (w ++ [qc! '"'])) = c! '"' :: (toLatin1 w ++ [c! '"']) := by simp [toLatin1]
    rw [this]
    refine passes_quoted ?_ (latin1_quote hw.2.1)
    simp only [List.all_eq_true, Bool.or_eq_true, Bool.and_eq_true, decide_eq_true_eq] at hk
    have a1 := upper_avoid (b := c! ';') (by decide) (latin1_avoid (s := p.1) (by decide) (fun hm => absurd (hk _ hm) (by decide)))
    have a2 := upper_avoid (b := c! ':') (by decide) (latin1_avoid (s := p.1) (by decide) (fun hm => absurd (hk _ hm) (by decide)))
    have a3 := upper_avoid (b := c! '=') (by decide) (latin1_avoid (s := p.1) (by decide) (fun hm => absurd (hk _ hm) (by decide)))
    intro b hb
    exact ⟨fun e => a1 (e ▸ hb), fun e => a2 (e ▸ hb), fun e => a3 (e ▸ hb)⟩
  · have : ∀ p ∈ codingPairs, qc! '"' ∉ p.1 ∧ qc! '"' ∉ p.2 := by decide
    exact simple (this p h).1 (this p h).2

theorem passes_head (h : HeadOk Quiet l) : Passes (headText l) := by
  unfold headText segsBytes
  refine passes_append (passes_bytes (latin1_quote h.name.2.1)) ?_
  have hp := head_pairs h
  generalize flatParams l.params = ps at hp
  induction ps with
  | nil => exact passes_nil
  | cons p ps ih =>
    rw [List.flatMap_cons]
    exact passes_append (passes_pair (hp p (by simp))) (ih fun q hq => hp q (by simp [hq]))

/-- the value begins at the colon of the head or before -/
theorem scan_head {t : QByteArray} (h : Passes t) (val : QByteArray) : ∃ q used x, t ++ [c! ':'] = used ++ x ∧ PL.scan {} (t ++ c! ':' :: val) = (q, some (x ++ val)) := by
  rcases h {} (by decide) (by decide) (c! ':' :: val) with ⟨q, used, x, e, hs⟩ | ⟨p', g1, g2, hs⟩
  · exact ⟨q, used, x ++ [c! ':'], by rw [e]; simp, by rw [hs]; simp⟩
  · have hv : (p'.step (c! ':')).st = .value := by
      unfold PL.step
      cases hst : p'.st with
      | initial => simp
      | paramKey => simp
      | quotedValue => exact absurd hst g1
      | paramValue => simp
      | afterParamValue => simp
      | value => exact absurd hst g2
    exact ⟨p'.step (c! ':'), t ++ [c! ':'], [], by simp, by rw [hs]; simp [PL.scan, hv]⟩

/-- quoted-printable comes from what was read before the value -/
theorem scan_inv_used {read : QByteArray} {p : PL} (h : ScanInv read p) (hv : p.st ≠ .value) (used rest : QByteArray) (q : PL)
    (hs : PL.scan p (used ++ rest) = (q, some rest)) (he : q.enc = b! "quoted-printable") : MentionsQP (read ++ used) := by
  induction used generalizing read p with
  | nil =>
    exfalso
    obtain ⟨pre, e⟩ := scan_rest_suffix _ _ _ _ hs
    cases hr : rest with
    | nil => rw [hr] at hs; simp [PL.scan] at hs
    | cons c t =>
      rw [hr, List.nil_append, PL.scan] at hs
      split at hs
      · simp only [Prod.mk.injEq, Option.some.injEq] at hs
        have := congrArg List.length hs.2
        simp at this
      · obtain ⟨pre, e⟩ := scan_rest_suffix _ _ _ _ hs
        have := congrArg List.length e
        simp at this
        omega
  | cons c t ih =>
    rw [List.cons_append, PL.scan] at hs
    have hst := step_inv h hv c
    have e : read ++ c :: t = (read ++ [c]) ++ t := by simp
    rw [e]
    split at hs
    · simp only [Prod.mk.injEq, Option.some.injEq] at hs
      rw [hs.1] at hst
      exact mentions_append_right (hst.2 he)
    · rename_i hne
      exact ih hst hne hs

/-! ### a line asks for no more lines -/

theorem step_value {p : PL} {c : UInt8} (hc : c ≠ c! ':') (h : p.st ≠ .value) : (p.step c).st ≠ .value := by
  unfold PL.step
  cases hst : p.st with
  | value => exact absurd hst h
  | initial => simp only [hc, if_false]; (repeat' split) <;> simp
  | paramKey => simp only [hc, or_false]; (repeat' split) <;> simp_all
  | quotedValue => simp only; (repeat' split) <;> simp_all
  | paramValue => simp only [hc, if_false]; (repeat' split) <;> simp_all
  | afterParamValue => simp only [hc, if_false]; (repeat' split) <;> simp_all

theorem scan_no_colon {p : PL} {s : QByteArray} (h : p.st ≠ .value) (hs : (c! ':') ∉ s) : (PL.scan p s).2 = none := by
  induction s generalizing p with
  | nil => rfl
  | cons c s ih =>
    have := step_value (p := p) (c := c) (fun e => hs (by simp [e])) h
    rw [PL.scan]
    simp only [this, if_false]
    exact ih this fun hm => hs (by simp [hm])

theorem parse_some {t used rest : QByteArray} {q : PL} (hs : PL.scan {} (t) = (q, some rest)) (ht : t = used ++ rest) (h : ¬ MentionsQP used ∨ rest.getLast? ≠ some 61) :
    ∃ l', parsePure E t = some l' := by
  unfold parsePure
  rw [hs]
  simp only
  rw [if_neg]
  · exact ⟨_, rfl⟩
  · intro hw
    simp only [PL.wantsMore, Bool.and_eq_true, decide_eq_true_eq] at hw
    rcases h with h | h
    · apply h
      rw [ht] at hs
      have := scan_inv_used (read := []) (p := {}) ⟨fun _ => ⟨[], rfl⟩, by simp⟩ (by simp) used rest q hs hw.1
      simpa using this
    · have := removeEscapes_last _ hw.2
      exact h (by simpa [endsWithChar] using this)

theorem quiet_seg {p : QString × QString} (h : PairHead Quiet p) : ¬ MentionsQP (segBody p) := by
  have hk : ¬ MentionsQP (toUpperB (toLatin1 p.1)) := fun hm => h.1.2.2 (mentions_upper.1 hm)
  unfold segBody
  split
  · intro hm
    rcases mentions_sep (u := c! '=') (by decide) hm with hm | hm
    · exact hk hm
    · rcases h.2 with h2 | ⟨_, w, e, hw⟩
      · exact h2.2.2 hm
      · rw [e] at hm
        have e' : toLatin1 (qc! '"' :: (w ++ [qc! '"'])) = [] ++ c! '"' :: (toLatin1 w ++ c! '"' :: []) := by simp [toLatin1]
        rw [e'] at hm
        rcases mentions_sep (u := c! '"') (by decide) hm with hm | hm
        · exact mentions_nil hm
        · rcases mentions_sep (u := c! '"') (by decide) hm with hm | hm
          · exact hw.2.2 hm
          · exact mentions_nil hm
  · rw [List.append_nil]; exact hk

theorem quiet_segs {a : QByteArray} (ha : ¬ MentionsQP a) (ps : List (QString × QString)) (h : ∀ p ∈ ps, PairHead Quiet p) : ¬ MentionsQP (a ++ segsBytes ps ++ [c! ':']) := by
  induction ps generalizing a with
  | nil =>
    intro hm
    rcases mentions_sep (u := c! ':') (by decide) (by simpa [segsBytes] using hm) with hm | hm
    · exact ha (by simpa [segsBytes] using hm)
    · exact mentions_nil hm
  | cons p ps ih =>
    have : a ++ segsBytes (p :: ps) ++ [c! ':'] = (a ++ c! ';' :: segBody p) ++ segsBytes ps ++ [c! ':'] := by simp [segsBytes]
    rw [this]
    refine ih ?_ fun q hq => h q (by simp [hq])
    intro hm
    rcases mentions_sep (u := c! ';') (by decide) hm with hm | hm
    · exact ha hm
    · exact quiet_seg (h p (by simp)) hm

theorem addEscapes_last {s : QByteArray} {ex : Bool} (h : s.getLast? ≠ some 61) : (addEscapes s ex).getLast? ≠ some 61 := by
  rcases List.eq_nil_or_concat s with rfl | ⟨t, b, rfl⟩
  · cases ex <;> decide
  · rw [addEscapes_eq]
    have hb : b ≠ 61 := by simpa using h
    rw [List.concat_eq_append, List.flatMap_append, List.flatMap_singleton]
    have : (escByte ex b).getLast? ≠ some 61 ∧ escByte ex b ≠ [] := by
      unfold escByte
      (repeat' split) <;> simp_all <;> decide
    rw [List.getLast?_append]
    cases hl : (escByte ex b).getLast? with
    | none => exact absurd (List.getLast?_eq_none_iff.1 hl) this.2
    | some x => rw [hl] at this; simpa using this.1

/-- texts are written quoted-printable without an equals sign at the end -/
def QpCloses (E : Codecs) : Prop := ∀ b, (E.qpEncode b).getLast? ≠ some 61

theorem content_parsed (hE : QpCloses E) (h : HeadOk Quiet l) : ∃ l', parsePure E (contentOf E l) = some l' := by
  unfold contentOf
  have hname := passes_bytes (latin1_quote h.name.2.1)
  split
  · -- an embedded picture
    rcases hname {} (by decide) (by decide) (b! ";base64," ++ l.base64Value) with ⟨q, used, x, e, hs⟩ | ⟨p', g1, g2, hs⟩
    · refine parse_some hs (by rw [e, List.append_assoc]) (Or.inl fun hm => h.name.2.2 ?_)
      rw [e]; exact mentions_append_right hm
    · have := scan_no_colon (p := p') (s := b! ";base64," ++ l.base64Value) g2 (by
        simp only [List.mem_append, not_or]; exact ⟨by decide, h.b64.2.2⟩)
      unfold parsePure
      rw [hs]
      cases hp : PL.scan p' (b! ";base64," ++ l.base64Value) with
      | mk q o =>
        rw [hp] at this
        simp only at this
        subst this
        exact ⟨_, rfl⟩
  · obtain ⟨q, used, x, e, hs⟩ := scan_head (passes_head h) (addEscapes (writeValue E l).1 (excludesComma l))
    have ht : headText l ++ c! ':' :: addEscapes (writeValue E l).1 (excludesComma l) = used ++ (x ++ addEscapes (writeValue E l).1 (excludesComma l)) := by
      rw [← List.append_assoc, ← e]; simp
    obtain ⟨k, ps, hp, hk, hps⟩ := h.params
    refine parse_some hs ht ?_
    rcases hk with rfl | rfl
    · left
      have : ¬ MentionsQP (headText l ++ [c! ':']) := by
        unfold headText
        refine quiet_segs h.name.2.2 _ fun p hm => hps p ?_
        rw [hp] at hm
        simpa using flatParams_mem hm
      intro hm
      apply this
      rw [e]; exact mentions_append_right hm
    · right
      have hv : writeValue E l = (E.qpEncode (match E.encoder (b! "UTF-8") with | some enc => enc l.value.toString | none => toUtf8 l.value.toString), false) := by
        have c1 : l.parameter (q! "charset") = q! "UTF-8" := by rw [parameter_of l _ hp]; simp [codingPairs, valuesOf]
        have c2 : l.parameter (q! "encoding") = q! "QUOTED-PRINTABLE" := by rw [parameter_of l _ hp]; simp [codingPairs, valuesOf]
        have c3 : q! "encoding" ∈ l.parameterList := by rw [parameterList_of l _ hp]; simp [codingPairs, valuesOf]
        have c4 : toLatin1 (q! "UTF-8") = b! "UTF-8" := by decide
        have c5 : toLowerQ (q! "QUOTED-PRINTABLE") = q! "quoted-printable" := by decide
        unfold writeValue
        simp only [c1, c2, c3, c4, c5]
        cases E.encoder (b! "UTF-8") <;> simp
      rw [hv]
      have hl : (addEscapes (E.qpEncode (match E.encoder (b! "UTF-8") with | some enc => enc l.value.toString | none => toUtf8 l.value.toString)) (excludesComma l)).getLast? ≠ some 61 :=
        addEscapes_last (hE _)
      generalize addEscapes (E.qpEncode (match E.encoder (b! "UTF-8") with | some enc => enc l.value.toString | none => toUtf8 l.value.toString)) (excludesComma l) = val at hl
      rw [List.getLast?_append]
      cases hv : val.getLast? with
      | some y => rw [hv] at hl; simpa using hl
      | none =>
        -- nothing after the head: it ends in a colon, or was read to the end
        simp only [Option.none_or]
        cases hx : x.getLast? with
        | none => simp
        | some y =>
          have : (headText l ++ [c! ':']).getLast? = some y := by rw [e, List.getLast?_append, hx]; rfl
          simp at this
          subst this; decide

/-! ### reading the lines -/

theorem feed_parts (E : Codecs) {t h0 : QByteArray} {ps : List QByteArray} (hg : GoodStart t) (hne : h0 ≠ []) (hfl : h0 ++ ps.flatten = t) (s : RS) (hi : s.inVCard = true) (c : VCard)
    (ha : absorb E s = some c) : (physList h0 ps).foldlM (feed E) s = some { currentLine := t, inVCard := true, card := c, out := s.out } := by
  obtain ⟨c0, hc0, hw1, hw2⟩ := hg.head
  obtain ⟨c1, r, rfl⟩ := List.exists_cons_of_ne_nil hne
  have hc1 : c1 = c0 := by rw [← hfl] at hc0; simpa using hc0
  subst hc1
  obtain ⟨f1, f2⟩ := goodStart_line (r := r) hw1 hw2
  have f := feed_plain E s (c1 :: r) hi c ha f1 f2
  have hm : RS.mark (c1 :: r) { s with card := c } = { currentLine := c1 :: r, inVCard := true, card := c, out := s.out } := by
    unfold RS.mark
    rw [if_neg, if_neg]
    · simp [hi]
    · intro hs
      have := startsWithCI_prefix _ _ ps.flatten hs
      rw [hfl, hg.noend] at this; cases this
    · intro hs
      have := startsWithCI_prefix _ _ ps.flatten hs
      rw [hfl, hg.nobegin] at this; cases this
  have rest : ∀ (ps : List QByteArray) (cl : QByteArray), (ps.map ((32 : UInt8) :: ·)).foldlM (feed E) { currentLine := cl, inVCard := true, card := c, out := s.out } =
      some { currentLine := cl ++ ps.flatten, inVCard := true, card := c, out := s.out } := by
    intro ps
    induction ps with
    | nil => intro cl; simp
    | cons p ps ih =>
      intro cl
      rw [List.map_cons, List.foldlM_cons]
      have : feed E { currentLine := cl, inVCard := true, card := c, out := s.out } (32 :: p) =
          some { currentLine := cl ++ p, inVCard := true, card := c, out := s.out } := by
        simp [feed, isFolded]
      rw [this]
      show List.foldlM _ _ _ = _
      rw [ih]
      simp
  unfold physList
  rw [List.foldlM_cons, f, hm]
  show List.foldlM _ _ _ = _
  rw [rest ps (c1 :: r), hfl]

theorem pieces_lines {h0 t : QByteArray} {ps : List QByteArray} {b : UInt8} (hb : b ≠ 32) (hfl : h0 ++ ps.flatten = t) (h : b ∉ t) : ∀ x ∈ physList h0 ps, b ∉ x := by
  intro x hx
  subst hfl
  simp only [List.mem_append, not_or, List.mem_flatten, not_exists, not_and] at h
  simp only [physList, List.mem_cons, List.mem_map] at hx
  rcases hx with rfl | ⟨y, hy, rfl⟩
  · exact h.1
  · simp only [List.mem_cons, not_or]
    exact ⟨hb, h.2 y hy⟩

/-- how the line is read -/
def readAs (E : Codecs) (l : VCardLine) : Option VCardLine := if writeLine E l = [] then none else parsePure E (contentOf E l)

theorem reads_head (hE : QpCloses E) (h : HeadOk Quiet l) : Reads E l (readAs E l) := by
  unfold readAs
  rcases line_written (E := E) h with hw | ⟨h0, ps, hw, hfl, hne⟩
  · rw [if_pos hw]; exact hw
  · have hwn : writeLine E l ≠ [] := by rw [hw]; simp [crlfText, physList]
    rw [if_neg hwn]
    obtain ⟨l', hl'⟩ := content_parsed hE h
    rw [hl']
    have hg := contentOf_start (E := E) h
    refine ⟨physList h0 ps, contentOf E l, hw, pieces_lines (by decide) hfl (content_line quiet_class h).1, ?_, hl', fun s c hi ha => feed_parts E hg hne hfl s hi c ha⟩
    intro e
    obtain ⟨c, hc, _⟩ := hg.head
    rw [e] at hc; cases hc

/-! ### the logical lines -/

theorem linesOf_ne (s : QByteArray) : linesOf s ≠ [] := by
  cases s with
  | nil => simp [linesOf]
  | cons c t => rw [linesOf]; split; simp; split <;> simp

theorem linesOf_line (l s : QByteArray) (h : (10 : UInt8) ∉ l) : linesOf (l ++ 10 :: s) = l :: linesOf s := by
  induction l with
  | nil => rfl
  | cons c t ih =>
    have hc : c ≠ 10 := fun e => h (by simp [e])
    rw [List.cons_append, linesOf, if_neg hc, ih fun hm => h (by simp [hm])]

theorem linesOf_crlf (ls : List QByteArray) (h : ∀ l ∈ ls, (10 : UInt8) ∉ l) : (linesOf (crlfText ls)).map dropCR = ls ++ [[]] := by
  induction ls with
  | nil => rfl
  | cons l ls ih =>
    have e : crlfText (l :: ls) = (l ++ [13]) ++ 10 :: crlfText ls := by simp [crlfText]
    rw [e, linesOf_line _ _ (by simp [h l (by simp)]), List.map_cons, ih fun x hx => h x (by simp [hx])]
    have : dropCR (l ++ [13]) = l := by simp [dropCR]
    rw [this]; rfl

theorem logical_cons {acc l : QByteArray} {ls : List QByteArray} (h : ∃ c, l.head? = some c ∧ c ≠ 32 ∧ ¬ (9 ≤ c ∧ c ≤ 13)) : logicalLines acc (l :: ls) = acc :: logicalLines l ls := by
  obtain ⟨c, hc, h1, h2⟩ := h
  rw [logicalLines, if_neg, if_neg]
  · cases l with
    | nil => cases hc
    | cons x r =>
      simp only [List.head?_cons, Option.some.injEq] at hc
      subst hc
      simp only [List.all_cons, Bool.and_eq_true, Bool.or_eq_true, decide_eq_true_eq, not_and]
      intro hx
      rcases hx with hx | hx
      · exact absurd hx h1
      · exact absurd hx h2
  · rw [hc]
    rintro (e | e)
    · exact h1 (Option.some.inj e)
    · have := Option.some.inj e
      subst this
      exact h2 (by decide)

theorem logical_folded (acc : QByteArray) (ps ls : List QByteArray) : logicalLines acc (ps.map ((32 : UInt8) :: ·) ++ ls) = logicalLines (acc ++ ps.flatten) ls := by
  induction ps generalizing acc with
  | nil => simp
  | cons p ps ih =>
    rw [List.map_cons, List.cons_append, logicalLines, if_pos (by simp), List.drop_one, List.tail_cons, ih]
    simp

theorem logical_phys {acc h0 t : QByteArray} {ps ls : List QByteArray} (hg : GoodStart t) (hne : h0 ≠ []) (hfl : h0 ++ ps.flatten = t) :
    logicalLines acc (physList h0 ps ++ ls) = acc :: logicalLines t ls := by
  obtain ⟨c0, hc0, hw1, hw2⟩ := hg.head
  obtain ⟨c1, r, rfl⟩ := List.exists_cons_of_ne_nil hne
  have hc1 : c1 = c0 := by rw [← hfl] at hc0; simpa using hc0
  subst hc1
  unfold physList
  rw [List.cons_append, logical_cons ⟨c1, rfl, hw1, hw2⟩, logical_folded, hfl]

/-- the lines of a block: physical lines with `ts` as their logical lines -/
def Block (text : QByteArray) (ts : List QByteArray) : Prop := ∃ ls, text = crlfText ls ∧ (∀ x ∈ ls, (10 : UInt8) ∉ x) ∧
  ∀ acc rest, logicalLines acc (ls ++ rest) = (acc :: ts).dropLast ++ logicalLines ((acc :: ts).getLast (by simp)) rest

theorem block_nil : Block [] [] := ⟨[], rfl, by simp, by simp⟩

theorem block_one {text h0 t : QByteArray} {ps : List QByteArray} (hw : text = crlfText (physList h0 ps)) (hl : (10 : UInt8) ∉ t) (hg : GoodStart t) (hne : h0 ≠ []) (hfl : h0 ++ ps.flatten = t) :
    Block text [t] := ⟨_, hw, pieces_lines (by decide) hfl hl, fun acc rest => by rw [logical_phys hg hne hfl]; rfl⟩

theorem block_append {a b : QByteArray} {as bs : List QByteArray} (ha : Block a as) (hb : Block b bs) : Block (a ++ b) (as ++ bs) := by
  obtain ⟨l1, e1, n1, f1⟩ := ha
  obtain ⟨l2, e2, n2, f2⟩ := hb
  refine ⟨l1 ++ l2, by rw [e1, e2, crlfText_append], ?_, ?_⟩
  · intro x hx
    rcases List.mem_append.1 hx with h | h
    · exact n1 x h
    · exact n2 x h
  · intro acc rest
    rw [List.append_assoc, f1, f2]
    rcases List.eq_nil_or_concat bs with rfl | ⟨bs, x, rfl⟩
    · simp
    · rw [List.concat_eq_append]
      have h1 : (acc :: (as ++ (bs ++ [x]))) = (acc :: as ++ bs) ++ [x] := by simp
      simp only [h1, List.dropLast_concat, List.getLast_append_singleton]
      have h2 : ∀ y, (y :: (bs ++ [x])).dropLast = y :: bs := by intro y; rw [← List.cons_append, List.dropLast_concat]
      rw [h2]
      have h3 : ∀ y, (y :: (bs ++ [x])).getLast (by simp) = x := by intro y; simp
      rw [h3]
      rw [← List.append_assoc]
      congr 1
      have := List.dropLast_append_getLast (l := acc :: as) (by simp)
      calc (acc :: as).dropLast ++ (acc :: as).getLast (by simp) :: bs = ((acc :: as).dropLast ++ [(acc :: as).getLast (by simp)]) ++ bs := by simp
        _ = acc :: as ++ bs := by rw [this]

/-- the logical lines of a text of blocks and its blank end -/
theorem block_logical {text : QByteArray} {ts : List QByteArray} (h : Block text ts) : logicalLines [] ((linesOf text).map dropCR) = [] :: ts := by
  obtain ⟨ls, e, n, f⟩ := h
  rw [e, linesOf_crlf ls n, f]
  have : ∀ acc, logicalLines acc [[]] = [acc] := by intro acc; simp [logicalLines]
  rw [this, List.dropLast_append_getLast]

end KC
