import Verif.Lemmas.Mail
import Verif.Spec.MailText
/-
  C78 — what a text with a mail address says: `Name <address>`, `address (Name)`, quoted strings, comments.
-/
namespace KC
open KC.Spec

private theorem not_mem_3 {b x y z : UInt8} (h : b ∉ [x, y, z]) : b ≠ x ∧ b ≠ y ∧ b ≠ z := by simpa using h

private theorem run_pair {b : UInt8} (hb : b ≠ 0) (t : QByteArray) (st : MailState) : mailRun (c! '\\' :: b :: t) st = mailRun t ((st.add (c! '\\')).add b) := by
  rw [mailRun, if_neg (by decide), if_pos rfl, if_neg hb]

/-- Collect several characters. -/
private def addAll (st : MailState) (s : QByteArray) : MailState := s.foldl MailState.add st

private theorem addAll_top (st : MailState) (s : QByteArray) (h : st.context = .top) : addAll st s = { st with displayName := st.displayName ++ s } := by
  induction s generalizing st with
  | nil => simp [addAll]
  | cons b s ih =>
    have e : st.add b = { st with displayName := st.displayName ++ [b] } := by unfold MailState.add; rw [h]
    show addAll (st.add b) s = _
    rw [ih _ (by rw [e]; exact h), e]
    simp

private theorem addAll_comment (st : MailState) (s : QByteArray) (h : st.context = .comment) : addAll st s = { st with comment := st.comment ++ s } := by
  induction s generalizing st with
  | nil => simp [addAll]
  | cons b s ih =>
    have e : st.add b = { st with comment := st.comment ++ [b] } := by unfold MailState.add; rw [h]
    show addAll (st.add b) s = _
    rw [ih _ (by rw [e]; exact h), e]
    simp

private theorem addAll_angle (st : MailState) (s : QByteArray) (h : st.context = .angle) : addAll st s = { st with addrSpec := st.addrSpec ++ s } := by
  induction s generalizing st with
  | nil => simp [addAll]
  | cons b s ih =>
    have e : st.add b = { st with addrSpec := st.addrSpec ++ [b] } := by unfold MailState.add; rw [h]
    show addAll (st.add b) s = _
    rw [ih _ (by rw [e]; exact h), e]
    simp

private theorem add_fields (st : MailState) (b : UInt8) : (st.add b).context = st.context ∧ (st.add b).inQuotedString = st.inQuotedString ∧
    (st.add b).commentLevel = st.commentLevel := by
  unfold MailState.add
  cases st.context <;> simp

private theorem run_inQuotes {s : QByteArray} (hs : QuotedText s) (t : QByteArray) (st : MailState) (hq : st.inQuotedString = true) (hc : st.context ≠ .comment) :
    mailRun (s ++ t) st = mailRun t (addAll st s) := by
  induction hs generalizing st with
  | nil => rfl
  | @char b s hb _ ih =>
    obtain ⟨h0, h1, h2⟩ := not_mem_3 hb
    obtain ⟨f1, f2, f3⟩ := add_fields st b
    rw [List.cons_append, mailRun_step _ _ h0 h1]
    have : st.step b = some (st.add b) := by
      unfold MailState.step
      cases hx : st.context with
      | top =>
        simp only [if_neg h2, hq, Bool.not_true, Bool.false_eq_true, if_false]
        split
        · rfl
        · split
          · rfl
          · split <;> rfl
      | comment => exact absurd hx hc
      | angle =>
        simp only [if_neg h2, hq, Bool.not_true, Bool.false_eq_true, if_false]
        split <;> rfl
    rw [this]
    exact ih _ (by rw [f2]; exact hq) (by rw [f1]; exact hc)
  | @pair b s hb _ ih =>
    obtain ⟨f1, f2, f3⟩ := add_fields st (c! '\\')
    obtain ⟨g1, g2, g3⟩ := add_fields (st.add (c! '\\')) b
    rw [List.cons_append, List.cons_append, run_pair hb]
    exact ih _ (by rw [g2, f2]; exact hq) (by rw [g1, f1]; exact hc)

/-- A whole quoted string. -/
private theorem run_string {s : QByteArray} (hs : QuotedText s) (t : QByteArray) (st : MailState) (hq : st.inQuotedString = false) (hc : st.context ≠ .comment) :
    mailRun (c! '"' :: s ++ c! '"' :: t) st = mailRun t (addAll st (c! '"' :: s ++ [c! '"'])) := by
  have step : ∀ st : MailState, st.context ≠ .comment → st.step (c! '"') = some { st.add (c! '"') with inQuotedString := !st.inQuotedString } := by
    intro st h
    unfold MailState.step
    cases hx : st.context with
    | top => rfl
    | comment => exact absurd hx h
    | angle => rfl
  rw [List.cons_append, mailRun_step _ _ (by decide) (by decide), step st hc]
  dsimp only
  obtain ⟨f1, f2, f3⟩ := add_fields st (c! '"')
  rw [run_inQuotes hs _ _ (by simp [hq]) (by simpa [f1] using hc), mailRun_step _ _ (by decide) (by decide)]
  cases hx : st.context with
  | comment => exact absurd hx hc
  | top =>
    have e : st.add (c! '"') = { st with displayName := st.displayName ++ [c! '"'] } := by unfold MailState.add; rw [hx]
    rw [e, addAll_top _ _ (by exact hx), step _ (by simp [hx]), addAll_top _ _ hx]
    simp only [MailState.add, hx, hq]
    simp
  | angle =>
    have e : st.add (c! '"') = { st with addrSpec := st.addrSpec ++ [c! '"'] } := by unfold MailState.add; rw [hx]
    rw [e, addAll_angle _ _ (by exact hx), step _ (by simp [hx]), addAll_angle _ _ hx]
    simp only [MailState.add, hx, hq]
    simp

/-- The inside of a comment at any depth. -/
private theorem run_comment {s : QByteArray} (hs : CommentText s) : ∀ (t : QByteArray) (st : MailState), st.context = .comment → 1 ≤ st.commentLevel →
    mailRun (s ++ t) st = mailRun t (addAll st s) := by
  induction hs with
  | nil => intro t st _ _; rfl
  | @char b s hb _ ih =>
    intro t st hc hl
    simp only [List.mem_cons, List.not_mem_nil, or_false, not_or] at hb
    obtain ⟨h0, h1, h2, h3⟩ := hb
    obtain ⟨f1, f2, f3⟩ := add_fields st b
    rw [List.cons_append, mailRun_step _ _ h0 h1]
    have : st.step b = some (st.add b) := by
      unfold MailState.step
      rw [hc]
      simp only [if_neg h2, if_neg h3]
    rw [this]
    exact ih t _ (by rw [f1]; exact hc) (by rw [f3]; exact hl)
  | @pair b s hb _ ih =>
    intro t st hc hl
    obtain ⟨f1, f2, f3⟩ := add_fields st (c! '\\')
    obtain ⟨g1, g2, g3⟩ := add_fields (st.add (c! '\\')) b
    rw [List.cons_append, List.cons_append, run_pair hb]
    exact ih t _ (by rw [g1, f1]; exact hc) (by rw [g3, f3]; exact hl)
  | @nested s u _ _ ih1 ih2 =>
    intro t st hc hl
    rw [List.append_assoc, List.cons_append, mailRun_step _ _ (by decide) (by decide)]
    have s1 : st.step (c! '(') = some { st.add (c! '(') with commentLevel := st.commentLevel + 1 } := by
      unfold MailState.step
      rw [hc]
      rfl
    rw [s1]
    dsimp only
    have e : st.add (c! '(') = { st with comment := st.comment ++ [c! '('] } := by unfold MailState.add; rw [hc]
    rw [e, ih1 _ _ (by exact hc) (by show 1 ≤ st.commentLevel + 1; omega), List.cons_append, mailRun_step _ _ (by decide) (by decide), addAll_comment _ _ (by exact hc)]
    have s2 : ∀ x : MailState, x.context = .comment → 2 ≤ x.commentLevel → x.step (c! ')') = some { x.add (c! ')') with commentLevel := x.commentLevel - 1 } := by
      intro x h1 h2
      unfold MailState.step
      rw [h1]
      dsimp only
      rw [if_neg (by decide), if_pos rfl, if_neg (by omega)]
    rw [s2 _ (by exact hc) (by show 2 ≤ st.commentLevel + 1; omega)]
    dsimp only
    rw [ih2 t _ (by rw [(add_fields _ _).1]; exact hc) (by show 1 ≤ st.commentLevel + 1 - 1; omega), addAll_comment _ _ (by simp [MailState.add, hc]),
      addAll_comment _ _ hc]
    simp only [MailState.add, hc]
    have : st.commentLevel + 1 - 1 = st.commentLevel := by omega
    rw [this]
    simp

private theorem run_inAngle {s : QByteArray} (hs : AngleText s) (t : QByteArray) (st : MailState) (hc : st.context = .angle) (hq : st.inQuotedString = false) :
    mailRun (s ++ t) st = mailRun t (addAll st s) := by
  induction hs generalizing st with
  | nil => rfl
  | @char b s hb _ ih =>
    simp only [List.mem_cons, List.not_mem_nil, or_false, not_or] at hb
    obtain ⟨h0, h1, h2, h3⟩ := hb
    obtain ⟨f1, f2, f3⟩ := add_fields st b
    rw [List.cons_append, mailRun_step _ _ h0 h1]
    have : st.step b = some (st.add b) := by
      unfold MailState.step
      rw [hc]
      simp only [if_neg h2, if_neg h3]
    rw [this]
    exact ih _ (by rw [f1]; exact hc) (by rw [f2]; exact hq)
  | @pair b s hb _ ih =>
    obtain ⟨f1, f2, f3⟩ := add_fields st (c! '\\')
    obtain ⟨g1, g2, g3⟩ := add_fields (st.add (c! '\\')) b
    rw [List.cons_append, List.cons_append, run_pair hb]
    exact ih _ (by rw [g1, f1]; exact hc) (by rw [g2, f2]; exact hq)
  | @quoted s u hs _ ih =>
    have e : c! '"' :: s ++ c! '"' :: u ++ t = c! '"' :: s ++ c! '"' :: (u ++ t) := by simp
    rw [e, run_string hs _ _ hq (by simp [hc]), ih _ (by rw [addAll_angle _ _ hc]; exact hc) (by rw [addAll_angle _ _ hc]; exact hq)]
    congr 1
    unfold addAll
    rw [← List.foldl_append]
    congr 1
    simp

private theorem run_broken {t b : QByteArray} (h : Broken t b) (st : MailState) : mailRun t st = addAll st b := by
  cases h with
  | end_ => rfl
  | @null t => cases t <;> rw [mailRun, if_pos rfl] <;> rfl
  | backslash => rfl
  | backslashNull => rw [mailRun, if_neg (by decide), if_pos rfl]; simp only [if_true]; rfl

private theorem run_open {s : QByteArray} (hs : OpenComment s) : ∀ (t : QByteArray) (st : MailState), st.context = .comment → 1 ≤ st.commentLevel →
    ∃ lvl cm, 1 ≤ lvl ∧ mailRun (s ++ t) st = mailRun t { st with commentLevel := lvl, comment := cm } := by
  induction hs with
  | @here s hs =>
    intro t st hc hl
    refine ⟨st.commentLevel, st.comment ++ s, hl, ?_⟩
    rw [run_comment hs t st hc hl, addAll_comment _ _ hc]
  | @nested s u hs _ ih =>
    intro t st hc hl
    rw [List.append_assoc, run_comment hs _ st hc hl, addAll_comment _ _ hc, List.cons_append, mailRun_step _ _ (by decide) (by decide)]
    have s1 : ∀ x : MailState, x.context = .comment → x.step (c! '(') = some { x.add (c! '(') with commentLevel := x.commentLevel + 1 } := by
      intro x h
      unfold MailState.step
      rw [h]
      rfl
    rw [s1 _ (by exact hc)]
    simp only [MailState.add, hc]
    obtain ⟨lvl, cm, h1, h2⟩ := ih t { st with comment := st.comment ++ s ++ [c! '('], commentLevel := st.commentLevel + 1 } hc (by show 1 ≤ st.commentLevel + 1; omega)
    refine ⟨lvl, cm, h1, ?_⟩
    rw [← hc]
    exact h2

private theorem top_step {b : UInt8} (st : MailState) (hc : st.context = .top) (hb : b ∉ [0, c! '\\', c! '"', c! '(', c! '<', c! ',']) : st.step b = some (st.add b) := by
  simp only [List.mem_cons, List.not_mem_nil, or_false, not_or] at hb
  obtain ⟨-, -, h1, h2, h3, h4⟩ := hb
  unfold MailState.step
  rw [hc]
  simp only [if_neg h1, if_neg h2, if_neg h3, if_neg h4]

/-- The complete parts of a text. -/
private theorem run_text {w d c a : QByteArray} (h : MailText w d c a) : ∀ (t : QByteArray) (st : MailState), st.context = .top → st.inQuotedString = false →
    ∃ lvl, mailRun (w ++ t) st = mailRun t { st with displayName := st.displayName ++ d, comment := st.comment ++ c, addrSpec := st.addrSpec ++ a, commentLevel := lvl } := by
  induction h with
  | nil => intro t st _ _; exact ⟨st.commentLevel, by simp⟩
  | @char b w d c a hb _ ih =>
    intro t st hc hq
    have hb' := hb
    simp only [List.mem_cons, List.not_mem_nil, or_false, not_or] at hb'
    obtain ⟨f1, f2, f3⟩ := add_fields st b
    rw [List.cons_append, mailRun_step _ _ hb'.1 hb'.2.1, top_step st hc hb]
    obtain ⟨lvl, e⟩ := ih t (st.add b) (by rw [f1]; exact hc) (by rw [f2]; exact hq)
    refine ⟨lvl, e.trans ?_⟩
    simp [MailState.add, hc]
  | @pair b w d c a hb _ ih =>
    intro t st hc hq
    obtain ⟨f1, f2, f3⟩ := add_fields st (c! '\\')
    obtain ⟨g1, g2, g3⟩ := add_fields (st.add (c! '\\')) b
    rw [List.cons_append, List.cons_append, run_pair hb]
    obtain ⟨lvl, e⟩ := ih t _ (by rw [g1, f1]; exact hc) (by rw [g2, f2]; exact hq)
    refine ⟨lvl, e.trans ?_⟩
    simp [MailState.add, hc]
  | @quoted s w d c a hs _ ih =>
    intro t st hc hq
    have e : c! '"' :: s ++ c! '"' :: w ++ t = c! '"' :: s ++ c! '"' :: (w ++ t) := by simp
    rw [e, run_string hs _ _ hq (by simp [hc]), addAll_top _ _ hc]
    obtain ⟨lvl, e⟩ := ih t { st with displayName := st.displayName ++ (c! '"' :: s ++ [c! '"']) } hc hq
    refine ⟨lvl, e.trans ?_⟩
    simp
  | @comment s w d c a hs _ ih =>
    intro t st hc hq
    have e : c! '(' :: s ++ c! ')' :: w ++ t = c! '(' :: (s ++ c! ')' :: (w ++ t)) := by simp
    have s1 : st.step (c! '(') = some { st with context := .comment, commentLevel := 1 } := by
      unfold MailState.step
      rw [hc, hq]
      rfl
    rw [e, mailRun_step _ _ (by decide) (by decide), s1]
    dsimp only
    rw [run_comment hs _ _ rfl (by simp), addAll_comment _ _ rfl, mailRun_step _ _ (by decide) (by decide)]
    have s2 : ({ st with context := .comment, commentLevel := 1, comment := st.comment ++ s } : MailState).step (c! ')') =
        some { st with commentLevel := 0, comment := st.comment ++ s ++ [c! ' '] } := by
      unfold MailState.step
      rw [← hc]
      rfl
    rw [s2]
    dsimp only
    obtain ⟨lvl, e⟩ := ih t { st with commentLevel := 0, comment := st.comment ++ s ++ [c! ' '] } hc hq
    refine ⟨lvl, e.trans ?_⟩
    simp
  | @angle s w d c a hs _ ih =>
    intro t st hc hq
    have e : c! '<' :: s ++ c! '>' :: w ++ t = c! '<' :: (s ++ c! '>' :: (w ++ t)) := by simp
    have s1 : st.step (c! '<') = some { st with context := .angle } := by
      unfold MailState.step
      rw [hc, hq]
      rfl
    rw [e, mailRun_step _ _ (by decide) (by decide), s1]
    dsimp only
    rw [run_inAngle hs _ { st with context := .angle } rfl hq, addAll_angle _ _ rfl, mailRun_step _ _ (by decide) (by decide)]
    have s2 : ({ st with context := .angle, addrSpec := st.addrSpec ++ s } : MailState).step (c! '>') = some { st with addrSpec := st.addrSpec ++ s } := by
      unfold MailState.step
      simp only [hq]
      rw [← hc]
      rfl
    rw [s2]
    dsimp only
    obtain ⟨lvl, e⟩ := ih t { st with addrSpec := st.addrSpec ++ s } hc hq
    refine ⟨lvl, e.trans ?_⟩
    simp

private theorem run_rest {t d a : QByteArray} {closed : Bool} (h : MailRest t closed d a) (st : MailState) (hc : st.context = .top) (hq : st.inQuotedString = false) :
    ∃ s, mailRun t st = s ∧ s.displayName = st.displayName ++ d ∧ s.addrSpec = st.addrSpec ++ a ∧ (closed = true → s.comment = st.comment) ∧
    closed = !(s.inQuotedString || s.context = .comment || s.context = .angle) := by
  have toAngle : st.step (c! '<') = some { st with context := .angle } := by
    unfold MailState.step
    rw [hc, hq]
    rfl
  cases h with
  | done h => exact ⟨_, (run_broken h st).trans (addAll_top _ _ hc), by simp [hc, hq]⟩
  | comma =>
    have : st.step (c! ',') = none := by
      unfold MailState.step
      rw [hc, hq]
      rfl
    refine ⟨st, ?_, by simp [hc, hq]⟩
    rw [mailRun_step _ _ (by decide) (by decide), this]
  | @quote s t b hs hb =>
    have s1 : st.step (c! '"') = some { st with displayName := st.displayName ++ [c! '"'], inQuotedString := true } := by
      unfold MailState.step MailState.add
      rw [hc, hq]
      rfl
    refine ⟨{ st with displayName := st.displayName ++ [c! '"'] ++ s ++ b, inQuotedString := true }, ?_, by simp⟩
    rw [List.cons_append, mailRun_step _ _ (by decide) (by decide), s1]
    dsimp only
    rw [run_inQuotes hs _ _ rfl (by simp [hc]), addAll_top _ _ (by exact hc), run_broken hb, addAll_top _ _ (by exact hc)]
  | @comment s t b hs hb =>
    have s1 : st.step (c! '(') = some { st with context := .comment, commentLevel := 1 } := by
      unfold MailState.step
      rw [hc, hq]
      rfl
    obtain ⟨lvl, cm, _, e⟩ := run_open hs t { st with context := .comment, commentLevel := 1 } rfl (by simp)
    refine ⟨{ st with context := .comment, commentLevel := lvl, comment := cm ++ b }, ?_, by simp⟩
    rw [List.cons_append, mailRun_step _ _ (by decide) (by decide), s1]
    dsimp only
    rw [e, run_broken hb, addAll_comment _ _ rfl]
  | @angle s t b hs hb =>
    refine ⟨{ st with context := .angle, addrSpec := st.addrSpec ++ s ++ b }, ?_, by simp⟩
    rw [List.cons_append, mailRun_step _ _ (by decide) (by decide), toAngle]
    dsimp only
    rw [run_inAngle hs _ { st with context := .angle } rfl hq, addAll_angle _ _ rfl, run_broken hb, addAll_angle _ _ rfl]
  | @angleQuote s u t b hs hu hb =>
    refine ⟨{ st with context := .angle, addrSpec := st.addrSpec ++ s ++ [c! '"'] ++ u ++ b, inQuotedString := true }, ?_, by simp⟩
    rw [List.cons_append, mailRun_step _ _ (by decide) (by decide), toAngle]
    dsimp only
    rw [run_inAngle hs _ { st with context := .angle } rfl hq, addAll_angle _ _ rfl, List.cons_append, mailRun_step _ _ (by decide) (by decide)]
    have s2 : ({ st with context := .angle, addrSpec := st.addrSpec ++ s } : MailState).step (c! '"') =
        some { st with context := .angle, addrSpec := st.addrSpec ++ s ++ [c! '"'], inQuotedString := true } := by
      unfold MailState.step MailState.add
      simp only [hq]
      rfl
    rw [s2]
    dsimp only
    rw [run_inQuotes hu _ _ rfl (by simp), addAll_angle _ _ rfl, run_broken hb, addAll_angle _ _ rfl]

private theorem unquote_eq (s : QString) : unquoteFull s = withoutQuotes s := by
  unfold unquoteFull withoutQuotes
  by_cases h : s.length < 3
  · rw [if_pos h, if_neg (by omega)]
  · rw [if_neg h]
    have h1 : startsWith [qc! '"'] s = true ↔ s.head? = some (qc! '"') := by
      cases s with
      | nil => simp at h
      | cons x s => simp [startsWith]
    have h2 : endsWith [qc! '"'] s = true ↔ s.getLast? = some (qc! '"') := by
      obtain ⟨i, l, rfl⟩ : ∃ i l, s = i ++ [l] := ⟨s.dropLast, s.getLast (by rintro rfl; simp at h), (List.dropLast_concat_getLast _).symm⟩
      simp [endsWith]
    have h3 : mid s 1 (s.length - 2) = s.tail.dropLast := by
      cases s with
      | nil => rfl
      | cons x s => simp only [mid, List.tail_cons, List.dropLast_eq_take, List.length_cons, List.drop_one]; congr 1
    by_cases hh : s.head? = some (qc! '"') ∧ s.getLast? = some (qc! '"')
    · rw [if_pos (by rw [Bool.and_eq_true, h1, h2]; exact hh), if_pos ⟨by omega, hh⟩, h3]
    · rw [if_neg (by rw [Bool.and_eq_true, h1, h2]; exact hh), if_neg (fun x => hh x.2)]

/-- C78: the name and the address found in a text. -/
theorem C78 (lower : QString → QString) (raw : QString) (hr : raw ≠ []) (w t d c a d' a' : QByteArray) (closed : Bool) (h : toUtf8 raw = w ++ t) (hw : MailText w d c a)
    (ht : MailRest t closed d' a') : parseEmailAddress lower raw = some (mailMeaning lower closed (d ++ d') c (a ++ a')) := by
  rw [parseEmailAddress_run, if_neg (by simpa using hr), h]
  obtain ⟨lvl, e⟩ := run_text hw t {} rfl rfl
  rw [e]
  simp only [List.nil_append]
  obtain ⟨s, hs, h1, h2, h3, h4⟩ := run_rest ht { displayName := d, comment := c, addrSpec := a, commentLevel := lvl } rfl rfl
  rw [hs]
  congr 1
  unfold mailResult mailMeaning
  dsimp only
  rw [h1, h2]
  cases closed with
  | false =>
    have h4' : (s.inQuotedString || s.context = .comment || s.context = .angle) = true := by
      cases hx : (s.inQuotedString || s.context = .comment || s.context = .angle) with
      | true => rfl
      | false => rw [hx] at h4; exact absurd h4 (by decide)
    rw [if_pos h4', if_pos rfl]
  | true =>
    have h4' : (s.inQuotedString || s.context = .comment || s.context = .angle) = false := by
      cases hx : (s.inQuotedString || s.context = .comment || s.context = .angle) with
      | false => rfl
      | true => rw [hx] at h4; exact absurd h4 (by decide)
    rw [h4', h3 rfl, if_neg Bool.false_ne_true, if_neg (c := true = false) (by decide)]
    simp only [unquote_eq]
    cases ha : trimmedB (a ++ a') with
    | cons x l => simp
    | nil =>
      cases hd : trimmedB (d ++ d') with
      | cons x l => simp
      | nil => simp; rfl

/-! ### every text is of this form -/

private theorem scan_quoted : ∀ w : QByteArray, ∃ s, QuotedText s ∧ ((∃ t, w = s ++ c! '"' :: t) ∨ ∃ t b, Broken t b ∧ w = s ++ t) := by
  intro w
  generalize hn : w.length = n
  induction n using Nat.strongRecOn generalizing w with
  | _ n ih =>
    subst hn
    cases w with
    | nil => exact ⟨[], .nil, .inr ⟨[], [], .end_, rfl⟩⟩
    | cons b w =>
      by_cases h0 : b = 0
      · subst h0; exact ⟨[], .nil, .inr ⟨_, [], .null, rfl⟩⟩
      by_cases h1 : b = c! '"'
      · subst h1; exact ⟨[], .nil, .inl ⟨w, rfl⟩⟩
      by_cases h2 : b = c! '\\'
      · subst h2
        cases w with
        | nil => exact ⟨[], .nil, .inr ⟨_, _, .backslash, rfl⟩⟩
        | cons x w =>
          by_cases hx : x = 0
          · subst hx; exact ⟨[], .nil, .inr ⟨_, _, .backslashNull, rfl⟩⟩
          · obtain ⟨s, hs, h⟩ := ih w.length (by simp; omega) w rfl
            refine ⟨_, .pair hx hs, ?_⟩
            rcases h with ⟨t, rfl⟩ | ⟨t, b, hb, rfl⟩
            · exact .inl ⟨t, rfl⟩
            · exact .inr ⟨t, b, hb, rfl⟩
      · obtain ⟨s, hs, h⟩ := ih w.length (by simp) w rfl
        refine ⟨_, .char (b := b) (by simp [h0, h1, h2]) hs, ?_⟩
        rcases h with ⟨t, rfl⟩ | ⟨t, b, hb, rfl⟩
        · exact .inl ⟨t, rfl⟩
        · exact .inr ⟨t, b, hb, rfl⟩

private theorem scan_comment : ∀ w : QByteArray, (∃ s t, CommentText s ∧ w = s ++ c! ')' :: t) ∨ ∃ s t b, OpenComment s ∧ Broken t b ∧ w = s ++ t := by
  intro w
  generalize hn : w.length = n
  induction n using Nat.strongRecOn generalizing w with
  | _ n ih =>
    subst hn
    have openCons : ∀ {p s : QByteArray}, CommentText p → OpenComment s → (∀ {x : QByteArray}, CommentText x → CommentText (p ++ x)) → OpenComment (p ++ s) := by
      intro p s _ hs hp
      cases hs with
      | here h => exact .here (hp h)
      | @nested x y hx hy => rw [← List.append_assoc]; exact .nested (hp hx) hy
    cases w with
    | nil => exact .inr ⟨[], [], [], .here .nil, .end_, rfl⟩
    | cons b w =>
      by_cases h0 : b = 0
      · subst h0; exact .inr ⟨[], _, [], .here .nil, .null, rfl⟩
      by_cases h1 : b = c! ')'
      · subst h1; exact .inl ⟨[], w, .nil, rfl⟩
      by_cases h2 : b = c! '\\'
      · subst h2
        cases w with
        | nil => exact .inr ⟨[], _, _, .here .nil, .backslash, rfl⟩
        | cons x w =>
          by_cases hx : x = 0
          · subst hx; exact .inr ⟨[], _, _, .here .nil, .backslashNull, rfl⟩
          · rcases ih w.length (by simp; omega) w rfl with ⟨s, t, hs, rfl⟩ | ⟨s, t, b, hs, hb, rfl⟩
            · exact .inl ⟨_, t, .pair hx hs, rfl⟩
            · exact .inr ⟨_, t, b, openCons (p := [c! '\\', x]) (.pair hx .nil) hs (fun h => .pair hx h), hb, rfl⟩
      by_cases h3 : b = c! '('
      · subst h3
        rcases ih w.length (by simp) w rfl with ⟨s, t, hs, rfl⟩ | ⟨s, t, b, hs, hb, rfl⟩
        · rcases ih t.length (by simp; omega) t rfl with ⟨s', t', hs', rfl⟩ | ⟨s', t', b, hs', hb, rfl⟩
          · exact .inl ⟨_, t', .nested hs hs', by simp⟩
          · refine .inr ⟨_, t', b, openCons (p := c! '(' :: s ++ [c! ')']) (.nested hs .nil) hs' (fun h => ?_), hb, by simp⟩
            have := CommentText.nested hs h
            simpa using this
        · exact .inr ⟨_, t, b, .nested .nil hs, hb, by simp⟩
      · rcases ih w.length (by simp) w rfl with ⟨s, t, hs, rfl⟩ | ⟨s, t, b', hs, hb, rfl⟩
        · exact .inl ⟨_, t, .char (b := b) (by simp [h0, h1, h2, h3]) hs, rfl⟩
        · exact .inr ⟨_, t, b', openCons (p := [b]) (.char (by simp [h0, h1, h2, h3]) .nil) hs (fun h => .char (by simp [h0, h1, h2, h3]) h), hb, rfl⟩

private theorem scan_angle : ∀ w : QByteArray, ∃ s, AngleText s ∧ ((∃ t, w = s ++ c! '>' :: t) ∨ (∃ t b, Broken t b ∧ w = s ++ t) ∨
    ∃ u t b, QuotedText u ∧ Broken t b ∧ w = s ++ (c! '"' :: u ++ t)) := by
  intro w
  generalize hn : w.length = n
  induction n using Nat.strongRecOn generalizing w with
  | _ n ih =>
    subst hn
    have again : ∀ {p w s : QByteArray}, (AngleText s → AngleText (p ++ s)) → (AngleText s ∧ ((∃ t, w = s ++ c! '>' :: t) ∨ (∃ t b, Broken t b ∧ w = s ++ t) ∨
        ∃ u t b, QuotedText u ∧ Broken t b ∧ w = s ++ (c! '"' :: u ++ t))) →
        ∃ s, AngleText s ∧ ((∃ t, p ++ w = s ++ c! '>' :: t) ∨ (∃ t b, Broken t b ∧ p ++ w = s ++ t) ∨
          ∃ u t b, QuotedText u ∧ Broken t b ∧ p ++ w = s ++ (c! '"' :: u ++ t)) := by
      rintro p w s hp ⟨hs, h⟩
      refine ⟨p ++ s, hp hs, ?_⟩
      rcases h with ⟨t, rfl⟩ | ⟨t, b, hb, rfl⟩ | ⟨u, t, b, hu, hb, rfl⟩
      · exact .inl ⟨t, by simp⟩
      · exact .inr (.inl ⟨t, b, hb, by simp⟩)
      · exact .inr (.inr ⟨u, t, b, hu, hb, by simp⟩)
    cases w with
    | nil => exact ⟨[], .nil, .inr (.inl ⟨[], [], .end_, rfl⟩)⟩
    | cons b w =>
      by_cases h0 : b = 0
      · subst h0; exact ⟨[], .nil, .inr (.inl ⟨_, [], .null, rfl⟩)⟩
      by_cases h1 : b = c! '>'
      · subst h1; exact ⟨[], .nil, .inl ⟨w, rfl⟩⟩
      by_cases h2 : b = c! '\\'
      · subst h2
        cases w with
        | nil => exact ⟨[], .nil, .inr (.inl ⟨_, _, .backslash, rfl⟩)⟩
        | cons x w =>
          by_cases hx : x = 0
          · subst hx; exact ⟨[], .nil, .inr (.inl ⟨_, _, .backslashNull, rfl⟩)⟩
          · obtain ⟨s, h⟩ := ih w.length (by simp; omega) w rfl
            exact again (p := [c! '\\', x]) (fun h => .pair hx h) h
      by_cases h3 : b = c! '"'
      · subst h3
        obtain ⟨q, hq, h⟩ := scan_quoted w
        rcases h with ⟨t, rfl⟩ | ⟨t, b, hb, rfl⟩
        · obtain ⟨s, h⟩ := ih t.length (by simp; omega) t rfl
          have := again (p := c! '"' :: q ++ [c! '"']) (fun h => by have := AngleText.quoted hq h; simpa using this) h
          simpa using this
        · exact ⟨[], .nil, .inr (.inr ⟨q, t, b, hq, hb, rfl⟩)⟩
      · obtain ⟨s, h⟩ := ih w.length (by simp) w rfl
        exact again (p := [b]) (fun h => .char (by simp [h0, h1, h2, h3]) h) h

/-- C78: every text has such parts, so that the theorem before says what any text gives. -/
theorem C78_every (bytes : QByteArray) : ∃ w t d c a d' a' closed, bytes = w ++ t ∧ MailText w d c a ∧ MailRest t closed d' a' := by
  generalize hn : bytes.length = n
  induction n using Nat.strongRecOn generalizing bytes with
  | _ n ih =>
    subst hn
    have again : ∀ {p u : QByteArray} {f g k : QByteArray → QByteArray}, u.length < bytes.length →
        (∀ {t d c a}, MailText t d c a → MailText (p ++ t) (f d) (g c) (k a)) → bytes = p ++ u →
        ∃ w t d c a d' a' closed, bytes = w ++ t ∧ MailText w d c a ∧ MailRest t closed d' a' := by
      intro p u f g k hl hm e
      obtain ⟨w, t, d, c, a, d', a', closed, h1, h2, h3⟩ := ih u.length hl u rfl
      exact ⟨p ++ w, t, _, _, _, d', a', closed, by rw [e, h1, List.append_assoc], hm h2, h3⟩
    cases bytes with
    | nil => exact ⟨[], [], [], [], [], [], [], true, rfl, .nil, .done .end_⟩
    | cons b w =>
      by_cases h0 : b = 0
      · subst h0; exact ⟨[], _, [], [], [], [], [], true, rfl, .nil, .done .null⟩
      by_cases h1 : b = c! ','
      · subst h1; exact ⟨[], _, [], [], [], [], [], true, rfl, .nil, .comma⟩
      by_cases h2 : b = c! '\\'
      · subst h2
        cases w with
        | nil => exact ⟨[], _, [], [], [], _, [], true, rfl, .nil, .done .backslash⟩
        | cons x w =>
          by_cases hx : x = 0
          · subst hx; exact ⟨[], _, [], [], [], _, [], true, rfl, .nil, .done .backslashNull⟩
          · exact again (p := [c! '\\', x]) (u := w) (by simp; omega) (fun h => .pair hx h) rfl
      by_cases h3 : b = c! '"'
      · subst h3
        obtain ⟨q, hq, h⟩ := scan_quoted w
        rcases h with ⟨t, rfl⟩ | ⟨t, b, hb, rfl⟩
        · exact again (p := c! '"' :: q ++ [c! '"']) (u := t) (f := fun d => c! '"' :: q ++ c! '"' :: d) (by simp; omega)
            (fun h => by have := MailText.quoted hq h; simpa using this) (by simp)
        · exact ⟨[], _, [], [], [], _, [], false, rfl, .nil, .quote hq hb⟩
      by_cases h4 : b = c! '('
      · subst h4
        rcases scan_comment w with ⟨s, t, hs, rfl⟩ | ⟨s, t, b, hs, hb, rfl⟩
        · exact again (p := c! '(' :: s ++ [c! ')']) (u := t) (g := fun c => s ++ c! ' ' :: c) (by simp; omega)
            (fun h => by have := MailText.comment hs h; simpa using this) (by simp)
        · exact ⟨[], _, [], [], [], [], [], false, rfl, .nil, .comment hs hb⟩
      by_cases h5 : b = c! '<'
      · subst h5
        obtain ⟨s, hs, h⟩ := scan_angle w
        rcases h with ⟨t, rfl⟩ | ⟨t, b, hb, rfl⟩ | ⟨u, t, b, hu, hb, rfl⟩
        · exact again (p := c! '<' :: s ++ [c! '>']) (u := t) (k := fun a => s ++ a) (by simp; omega)
            (fun h => by have := MailText.angle hs h; simpa using this) (by simp)
        · exact ⟨[], _, [], [], [], [], _, false, rfl, .nil, .angle hs hb⟩
        · exact ⟨[], _, [], [], [], [], _, false, rfl, .nil, .angleQuote hs hu hb⟩
      · exact again (p := [b]) (u := w) (by simp) (fun h => .char (by simp [h0, h1, h2, h3, h4, h5]) h) rfl

/-- C78: of several addresses separated by commas the first counts. -/
theorem C78_first (lower : QString → QString) (raw first : QString) (hr : raw ≠ []) (hf : first ≠ []) (d c a more : QByteArray) (hw : MailText (toUtf8 first) d c a)
    (h : toUtf8 raw = toUtf8 first ++ c! ',' :: more) : parseEmailAddress lower raw = parseEmailAddress lower first := by
  rw [C78 lower raw hr _ _ _ _ _ _ _ _ h hw .comma, C78 lower first hf _ [] _ _ _ _ _ _ (by simp) hw (.done .end_)]

/-! ### cases -/

private theorem plain_mail (s : QByteArray) (h : ∀ b ∈ s, b ∉ [0, c! '\\', c! '"', c! '(', c! '<', c! ',']) {t d c a : QByteArray} (ht : MailText t d c a) :
    MailText (s ++ t) (s ++ d) c a := by
  induction s with
  | nil => exact ht
  | cons b s ih => exact .char (h b (by simp)) (ih (fun x hx => h x (by simp [hx])))

private theorem plain_comment (s : QByteArray) (h : ∀ b ∈ s, b ∉ [0, c! '\\', c! '(', c! ')']) {t : QByteArray} (ht : CommentText t) : CommentText (s ++ t) := by
  induction s with
  | nil => exact ht
  | cons b s ih => exact .char (h b (by simp)) (ih (fun x hx => h x (by simp [hx])))

private theorem plain_angle (s : QByteArray) (h : ∀ b ∈ s, b ∉ [0, c! '\\', c! '"', c! '>']) {t : QByteArray} (ht : AngleText t) : AngleText (s ++ t) := by
  induction s with
  | nil => exact ht
  | cons b s ih => exact .char (h b (by simp)) (ih (fun x hx => h x (by simp [hx])))

/-- The name in a comment, with a comment in it. -/
private theorem annComment : MailText (toUtf8 (q! "Ann@Kde.org (Ann (jr.) Lee)")) (b! "Ann@Kde.org ") (b! "Ann (jr.) Lee ") [] :=
  plain_mail (b! "Ann@Kde.org ") (by decide)
    (.comment (plain_comment (b! "Ann ") (by decide) (.nested (plain_comment (b! "jr.") (by decide) .nil) (plain_comment (b! " Lee") (by decide) .nil))) .nil)

example : parseEmailAddress toLowerQ (q! "Ann@Kde.org (Ann (jr.) Lee)") = some (q! "Ann (jr.) Lee", q! "ann@kde.org") := by
  rw [C78 toLowerQ _ (by decide) _ [] _ _ _ _ _ _ (by simp) annComment (.done .end_)]
  decide +kernel

example : parseEmailAddress toLowerQ (q! "Ann@Kde.org (Ann (jr.) Lee), bob@kde.org (Bob)") = some (q! "Ann (jr.) Lee", q! "ann@kde.org") := by
  rw [C78_first toLowerQ _ (q! "Ann@Kde.org (Ann (jr.) Lee)") (by decide) (by decide) _ _ _ (b! " bob@kde.org (Bob)") annComment (by decide +kernel),
    C78 toLowerQ _ (by decide) _ [] _ _ _ _ _ _ (by simp) annComment (.done .end_)]
  decide +kernel

/-- A bracket that is not closed: the address is as it is written. -/
example : parseEmailAddress toLowerQ (q! "Ann <Ann@Kde.org") = some (q! "Ann", q! "Ann@Kde.org") := by
  rw [C78 toLowerQ _ (by decide) (b! "Ann ") (b! "<Ann@Kde.org") _ _ _ _ _ _ (by decide +kernel) (plain_mail (b! "Ann ") (by decide) .nil)
    (.angle (t := []) (plain_angle (b! "Ann@Kde.org") (by decide) .nil) .end_)]
  decide +kernel

end KC
