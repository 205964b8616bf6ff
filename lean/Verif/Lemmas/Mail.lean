import Verif.Spec.Names
import Verif.Props.C11
import Verif.Lemmas.Ldif
/-
  Lemmas about "Name <address>" texts.
-/
namespace KC
open KC.Spec

/-- The parser's loop on what is left of the text. -/
def mailRun : QByteArray → MailState → MailState
  | [], st => st
  | b :: t, st =>
    if b = 0 then st
    else if b = c! '\\' then
      match t with
      | [] => st.add b
      | d :: t' => if d = 0 then st.add b else mailRun t' ((st.add b).add d)
    else match st.step b with
      | none => st
      | some st' => mailRun t st'

theorem mailRun_step {b : UInt8} (t : QByteArray) (st : MailState) (h1 : b ≠ 0) (h2 : b ≠ c! '\\') :
    mailRun (b :: t) st = match st.step b with | none => st | some st' => mailRun t st' := by
  cases t <;> rw [mailRun, if_neg h1, if_neg h2] <;> rfl

theorem charAt_cons {a t : QByteArray} {p : Nat} {b : UInt8} (h : a.drop p = b :: t) : charAt a p = some b := by unfold charAt; rw [h]

theorem charAt_end {a : QByteArray} : charAt a a.length = some 0 := by unfold charAt; rw [List.drop_length]; simp

theorem mailLoop_run (a : QByteArray) : ∀ n p st, a.length + 1 - p ≤ n → p ≤ a.length → mailLoop a p st = some (mailRun (a.drop p) st) := by
  intro n
  induction n with
  | zero => intro p st h1 h2; omega
  | succ n ih =>
    intro p st h1 h2
    rw [mailLoop]
    cases hd : a.drop p with
    | nil =>
      have hp : p = a.length := by
        have := congrArg List.length hd
        simp at this
        omega
      subst hp
      split
      · next h => rw [charAt_end] at h; cases h
      · next b h =>
        rw [charAt_end, Option.some.injEq] at h
        subst h
        rfl
    | cons b t =>
      have hp : p < a.length := by
        have := congrArg List.length hd
        simp at this
        omega
      have ht : a.drop (p + 1) = t := by rw [← List.drop_drop, hd]; rfl
      have hc := charAt_cons hd
      split
      · next h => rw [hc] at h; cases h
      · next b' h =>
        rw [hc, Option.some.injEq] at h
        subst h
        unfold mailRun
        split
        · rfl
        · split
          · cases t with
            | nil =>
              have hp' : p + 1 = a.length := by
                have := congrArg List.length ht
                simp at this
                omega
              rw [hp', charAt_end]
              rfl
            | cons d t' =>
              have ht' : a.drop (p + 2) = t' := by rw [show p + 2 = p + 1 + 1 from rfl, ← List.drop_drop, ht]; rfl
              rw [charAt_cons ht]
              simp only
              split
              · rfl
              · rw [ih (p + 2) _ (by omega) (by
                  have := congrArg List.length ht
                  simp at this
                  omega), ht']
          · cases st.step b with
            | none => rfl
            | some st' => simp only; rw [ih (p + 1) _ (by omega) (by omega), ht]

theorem parseEmailAddress_run (lower : QString → QString) (raw : QString) :
    parseEmailAddress lower raw = some (if raw.isEmpty then ([], []) else mailResult lower (mailRun (toUtf8 raw) {})) := by
  unfold parseEmailAddress
  split
  · next h => rfl
  · next h => rw [mailLoop_run _ _ 0 {} (Nat.le_refl _) (by omega)]; rfl

/-! ### bytes of a text -/

theorem utf8_ascii {c : Char} (h : c.toNat < 128) : String.utf8EncodeChar c = [UInt8.ofNat c.toNat] := by
  have hv : c.val.toNat = c.toNat := rfl
  unfold String.utf8EncodeChar
  simp only [hv]
  rw [if_pos (by omega)]

theorem utf8_high {c : Char} (h : 128 ≤ c.toNat) : ∀ b ∈ String.utf8EncodeChar c, 128 ≤ b.toNat := by
  have hv : c.val.toNat = c.toNat := rfl
  have hr := char_range c
  unfold String.utf8EncodeChar
  simp only [hv]
  rw [if_neg (by omega)]
  intro b hb
  split at hb
  · simp only [List.mem_cons, List.not_mem_nil, or_false] at hb
    rcases hb with rfl | rfl <;> (rw [toNat_ofNat8 _ (by omega)]; omega)
  · split at hb
    · simp only [List.mem_cons, List.not_mem_nil, or_false] at hb
      rcases hb with rfl | rfl | rfl <;> (rw [toNat_ofNat8 _ (by omega)]; omega)
    · simp only [List.mem_cons, List.not_mem_nil, or_false] at hb
      rcases hb with rfl | rfl | rfl | rfl <;> (rw [toNat_ofNat8 _ (by omega)]; omega)

theorem utf8_ne (c : Char) : String.utf8EncodeChar c ≠ [] := by
  unfold String.utf8EncodeChar
  simp only
  split
  · simp
  · split
    · simp
    · split <;> simp

theorem utf16Char_ascii {c : Char} (h : c.toNat < 128) : utf16Char c = [UInt16.ofNat c.toNat] := by
  unfold utf16Char
  rw [if_pos (by omega)]

/-- A character below 128 in the bytes is in the text. -/
theorem utf8_mem {cs : List Char} {b : UInt8} (h : b ∈ utf8 cs) (hb : b.toNat < 128) : UInt16.ofNat b.toNat ∈ utf16 cs := by
  unfold utf8 at h
  obtain ⟨c, hc, hbc⟩ := List.mem_flatMap.1 h
  unfold utf16
  rw [List.mem_flatMap]
  refine ⟨c, hc, ?_⟩
  by_cases hl : c.toNat < 128
  · rw [utf8_ascii hl, List.mem_singleton] at hbc
    rw [utf16Char_ascii hl, hbc, toNat_ofNat8 _ (by omega)]
    simp
  · have := utf8_high (by omega) b hbc
    omega

theorem utf8_getLast {cs : List Char} {b : UInt8} (h : (utf8 cs).getLast? = some b) (hb : b.toNat < 128) : (utf16 cs).getLast? = some (UInt16.ofNat b.toNat) := by
  rcases List.eq_nil_or_concat cs with rfl | ⟨l, c, rfl⟩
  · simp [utf8] at h
  · simp only [utf8, utf16, List.concat_eq_append, List.flatMap_append, List.flatMap_cons, List.flatMap_nil, List.append_nil] at h ⊢
    rw [show ∀ x : List UInt8, (x ++ String.utf8EncodeChar c).getLast? = (String.utf8EncodeChar c).getLast? from fun x => by
      rw [List.getLast?_append]
      obtain ⟨y, l, e⟩ := List.exists_cons_of_ne_nil (utf8_ne c)
      rw [e, List.getLast?_cons]
      rfl] at h
    by_cases hl : c.toNat < 128
    · rw [utf8_ascii hl] at h
      simp only [List.getLast?_singleton, Option.some.injEq] at h
      rw [utf16Char_ascii hl, ← h, toNat_ofNat8 _ (by omega)]
      simp
    · have := utf8_high (by omega) b (List.mem_of_getLast? h)
      omega

theorem utf8_head {cs : List Char} {b : UInt8} (h : (utf8 cs).head? = some b) (hb : b.toNat < 128) : (utf16 cs).head? = some (UInt16.ofNat b.toNat) := by
  cases cs with
  | nil => simp [utf8] at h
  | cons c cs =>
    simp only [utf8, utf16, List.flatMap_cons] at h ⊢
    rw [show ∀ x : List UInt8, (String.utf8EncodeChar c ++ x).head? = (String.utf8EncodeChar c).head? from fun x => by
      obtain ⟨y, l, e⟩ := List.exists_cons_of_ne_nil (utf8_ne c)
      rw [e]
      rfl] at h
    by_cases hl : c.toNat < 128
    · rw [utf8_ascii hl] at h
      simp only [List.head?_cons, Option.some.injEq] at h
      rw [utf16Char_ascii hl, ← h, toNat_ofNat8 _ (by omega)]
      simp
    · have := utf8_high (by omega) b (List.mem_of_head? h)
      omega

/-! ### runs of ordinary characters -/

theorem mailRun_ordinary (l r : QByteArray) (st : MailState) (h : ∀ b ∈ l, b ≠ 0 ∧ b ≠ c! '\\' ∧ ∀ st' : MailState, st'.context = st.context → st'.inQuotedString = st.inQuotedString →
      st'.step b = some (st'.add b)) : mailRun (l ++ r) st = mailRun r (l.foldl MailState.add st) := by
  induction l generalizing st with
  | nil => rfl
  | cons b l ih =>
    obtain ⟨h1, h2, h3⟩ := h b (by simp)
    rw [List.cons_append, mailRun_step _ _ h1 h2, h3 st rfl rfl]
    simp only
    rw [List.foldl_cons, ih]
    have hc : (st.add b).context = st.context ∧ (st.add b).inQuotedString = st.inQuotedString := by
      unfold MailState.add
      cases hctx : st.context <;> simp [hctx]
    rw [hc.1, hc.2]
    exact fun b' hb' => h b' (by simp [hb'])

theorem add_top (l : QByteArray) (st : MailState) (h : st.context = .top) : l.foldl MailState.add st = { st with displayName := st.displayName ++ l } := by
  induction l generalizing st with
  | nil => simp
  | cons b l ih =>
    have e : st.add b = { st with displayName := st.displayName ++ [b] } := by unfold MailState.add; rw [h]
    rw [List.foldl_cons, ih _ (by rw [e]; exact h), e]
    simp

theorem add_angle (l : QByteArray) (st : MailState) (h : st.context = .angle) : l.foldl MailState.add st = { st with addrSpec := st.addrSpec ++ l } := by
  induction l generalizing st with
  | nil => simp
  | cons b l ih =>
    have e : st.add b = { st with addrSpec := st.addrSpec ++ [b] } := by unfold MailState.add; rw [h]
    rw [List.foldl_cons, ih _ (by rw [e]; exact h), e]
    simp

theorem run_plain (l r : QByteArray) (st : MailState) (hc : st.context = .top) (hq : st.inQuotedString = false)
    (h : ∀ b ∈ l, b ∉ [0, c! '\\', c! '"', c! '(', c! '<', c! ',']) : mailRun (l ++ r) st = mailRun r { st with displayName := st.displayName ++ l } := by
  rw [mailRun_ordinary, add_top l st hc]
  intro b hb
  have := h b hb
  simp only [List.mem_cons, List.not_mem_nil, or_false, not_or] at this
  obtain ⟨h1, h2, h3, h4, h5, h6⟩ := this
  refine ⟨h1, h2, fun st' hc' _ => ?_⟩
  unfold MailState.step
  rw [hc', hc]
  simp only
  rw [if_neg h3, if_neg h4, if_neg h5, if_neg h6]

theorem run_quoted (l r : QByteArray) (st : MailState) (hc : st.context = .top) (hq : st.inQuotedString = true)
    (h : ∀ b ∈ l, b ∉ [0, c! '\\', c! '"']) : mailRun (l ++ r) st = mailRun r { st with displayName := st.displayName ++ l } := by
  rw [mailRun_ordinary, add_top l st hc]
  intro b hb
  have := h b hb
  simp only [List.mem_cons, List.not_mem_nil, or_false, not_or] at this
  obtain ⟨h1, h2, h3⟩ := this
  refine ⟨h1, h2, fun st' hc' hq' => ?_⟩
  unfold MailState.step
  rw [hc', hc, hq', hq]
  simp only [Bool.not_true, Bool.false_eq_true, if_false]
  rw [if_neg h3]
  split
  · rfl
  · split
    · rfl
    · split <;> rfl

theorem run_angle (l r : QByteArray) (st : MailState) (hc : st.context = .angle) (hq : st.inQuotedString = false)
    (h : ∀ b ∈ l, b ∉ [0, c! '\\', c! '"', c! '>']) : mailRun (l ++ r) st = mailRun r { st with addrSpec := st.addrSpec ++ l } := by
  rw [mailRun_ordinary, add_angle l st hc]
  intro b hb
  have := h b hb
  simp only [List.mem_cons, List.not_mem_nil, or_false, not_or] at this
  obtain ⟨h1, h2, h3, h4⟩ := this
  refine ⟨h1, h2, fun st' hc' _ => ?_⟩
  unfold MailState.step
  rw [hc', hc]
  simp only
  rw [if_neg h3, if_neg h4]

/-! ### quotes in a name -/

/-- A backslash is put before each quote. -/
def escChars (cs : List Char) : List Char := cs.flatMap fun c => if c = '"' then ['\\', '"'] else [c]

theorem replace_flat (s : QString) : replaceStr (q! "\"") (q! "\\\"") s = s.flatMap fun x => if x = qc! '"' then q! "\\\"" else [x] := by
  have single : ∀ (n : Nat) (s : QString), s.length ≤ n → replaceAll (q! "\"") (q! "\\\"") n s = s.flatMap fun x => if x = qc! '"' then q! "\\\"" else [x] := by
    intro n
    induction n with
    | zero => intro s h; cases s with
      | nil => rfl
      | cons => simp at h
    | succ n ih =>
      intro s h
      cases s with
      | nil => rfl
      | cons x s =>
        unfold replaceAll
        by_cases hx : x = qc! '"'
        · subst hx
          rw [if_pos ⟨by decide, by simp [startsWith]⟩]
          simp only [List.length_cons, List.length_nil, List.drop_succ_cons, List.drop_zero]
          rw [ih s (by simpa using h)]
          simp
        · rw [if_neg (by simp [startsWith, hx]), ih s (by simpa using h)]
          simp [hx]
  exact single _ _ (Nat.le_refl _)

theorem replace_quotes (cs : List Char) : replaceStr (q! "\"") (q! "\\\"") (utf16 cs) = utf16 (escChars cs) := by
  rw [replace_flat]
  unfold utf16 escChars
  induction cs with
  | nil => rfl
  | cons c cs ih =>
    simp only [List.flatMap_cons, List.flatMap_append, ih]
    congr 1
    have hr := char_range c
    by_cases hc : c = '"'
    · subst hc; decide
    · rw [if_neg hc]
      simp only [List.flatMap_cons, List.flatMap_nil, List.append_nil]
      have hn : ∀ x ∈ utf16Char c, x ≠ qc! '"' := by
        intro x hx e
        subst e
        unfold utf16Char at hx
        split at hx
        · simp only [List.mem_singleton] at hx
          have := congrArg UInt16.toNat hx
          rw [toNat_ofNat16 _ (by omega)] at this
          apply hc
          apply Char.ext
          apply UInt32.toNat_inj.1
          exact this.symm
        · simp only [List.mem_cons, List.not_mem_nil, or_false] at hx
          rcases hx with hx | hx
          · have := congrArg UInt16.toNat hx
            rw [toNat_ofNat16 _ (by omega)] at this
            simp at this
            omega
          · have := congrArg UInt16.toNat hx
            rw [toNat_ofNat16 _ (by omega)] at this
            simp at this
            omega
      generalize utf16Char c = l at hn
      induction l with
      | nil => rfl
      | cons x l ih => rw [List.flatMap_cons, if_neg (hn x (by simp)), ih (fun y hy => hn y (by simp [hy]))]; rfl

def okB : QByteArray → Bool
  | [] => true
  | [x] => x ≠ c! '\\' && x ≠ c! '"'
  | x :: y :: t => if x = c! '\\' then okB t else if x = c! '"' then false else okB (y :: t)

theorem okB_cons (x : UInt8) (t : QByteArray) (h1 : x ≠ c! '\\') (h2 : x ≠ c! '"') : okB (x :: t) = okB t := by
  cases t with
  | nil => simp [okB, h1, h2]
  | cons y t => rw [okB, if_neg h1, if_neg h2]

theorem okB_app (l t : QByteArray) (h : ∀ x ∈ l, x ≠ c! '\\' ∧ x ≠ c! '"') : okB (l ++ t) = okB t := by
  induction l with
  | nil => rfl
  | cons x l ih => rw [List.cons_append, okB_cons _ _ (h x (by simp)).1 (h x (by simp)).2, ih (fun y hy => h y (by simp [hy]))]

theorem paired_cons (x : UInt16) (t : QString) (h1 : x ≠ qc! '\\') : backslashesPaired (x :: t) = backslashesPaired t := by
  cases t with
  | nil => simp [backslashesPaired, h1]
  | cons y t => rw [backslashesPaired, if_neg h1]

theorem paired_app (l t : QString) (h : ∀ x ∈ l, x ≠ qc! '\\') : backslashesPaired (l ++ t) = backslashesPaired t := by
  induction l with
  | nil => rfl
  | cons x l ih => rw [List.cons_append, paired_cons _ _ (h x (by simp)), ih (fun y hy => h y (by simp [hy]))]

theorem char_ne_toNat {c d : Char} (h : c ≠ d) : c.toNat ≠ d.toNat := fun h' => h (Char.ext (UInt32.toNat_inj.1 h'))

theorem utf8_no {c : Char} (h : c ≠ '\\') (h' : c ≠ '"') : ∀ x ∈ String.utf8EncodeChar c, x ≠ c! '\\' ∧ x ≠ c! '"' := by
  intro x hx
  by_cases hl : c.toNat < 128
  · rw [utf8_ascii hl, List.mem_singleton] at hx
    subst hx
    have hn := toNat_ofNat8 c.toNat (by omega)
    constructor
    · intro e; rw [e] at hn; exact char_ne_toNat h hn.symm
    · intro e; rw [e] at hn; exact char_ne_toNat h' hn.symm
  · have := utf8_high (by omega) x hx
    constructor <;> rintro rfl <;> exact absurd this (by decide)

theorem utf16_no {c d : Char} (hd : d.toNat < 128) (h : c ≠ d) : ∀ x ∈ utf16Char c, x ≠ UInt16.ofNat d.toNat := by
  intro x hx e
  subst e
  have hr := char_range c
  have hdn := toNat_ofNat16 d.toNat (by omega)
  unfold utf16Char at hx
  split at hx
  · simp only [List.mem_singleton] at hx
    have := congrArg UInt16.toNat hx
    rw [hdn, toNat_ofNat16 _ (by omega)] at this
    exact char_ne_toNat h this.symm
  · simp only [List.mem_cons, List.not_mem_nil, or_false] at hx
    rcases hx with hx | hx
    · have := congrArg UInt16.toNat hx
      rw [hdn, toNat_ofNat16 _ (by omega)] at this
      omega
    · have := congrArg UInt16.toNat hx
      rw [hdn, toNat_ofNat16 _ (by omega)] at this
      omega

theorem escChars_cons (c : Char) (cs : List Char) : escChars (c :: cs) = (if c = '"' then ['\\', '"'] else [c]) ++ escChars cs := by
  simp [escChars]

theorem utf8_append' (a b : List Char) : utf8 (a ++ b) = utf8 a ++ utf8 b := by simp [utf8]

theorem okB_esc (n : Nat) : ∀ cs : List Char, cs.length ≤ n → okB (utf8 (escChars cs)) = backslashesPaired (utf16 cs) := by
  induction n with
  | zero => intro cs h; cases cs with
    | nil => rfl
    | cons => simp at h
  | succ n ih =>
    intro cs h
    cases cs with
    | nil => rfl
    | cons c cs =>
      simp only [List.length_cons] at h
      have e16 : utf16 (c :: cs) = utf16Char c ++ utf16 cs := by simp [utf16]
      rw [escChars_cons, utf8_append', e16]
      by_cases hq : c = '"'
      · subst hq
        have : utf16Char '"' = [qc! '"'] := by decide
        have e8 : utf8 (if '"' = '"' then ['\\', '"'] else ['"']) = [c! '\\', c! '"'] := by decide
        rw [this, e8]
        show okB (c! '\\' :: c! '"' :: utf8 (escChars cs)) = backslashesPaired (qc! '"' :: utf16 cs)
        rw [okB, if_pos rfl, paired_cons _ _ (by decide)]
        exact ih cs (by omega)
      · rw [if_neg hq]
        have e8 : utf8 [c] = String.utf8EncodeChar c := by simp [utf8]
        rw [e8]
        by_cases hb : c = '\\'
        · subst hb
          have e1 : String.utf8EncodeChar '\\' = [c! '\\'] := by decide
          have e2 : utf16Char '\\' = [qc! '\\'] := by decide
          rw [e1, e2]
          cases cs with
          | nil => rfl
          | cons d cs =>
            simp only [List.length_cons] at h
            have e16 : utf16 (d :: cs) = utf16Char d ++ utf16 cs := by simp [utf16]
            rw [escChars_cons, utf8_append', e16]
            by_cases hd : d = '"'
            · subst hd
              have : utf16Char '"' = [qc! '"'] := by decide
              have e8 : utf8 (if '"' = '"' then ['\\', '"'] else ['"']) = [c! '\\', c! '"'] := by decide
              rw [this, e8]
              show okB (c! '\\' :: c! '\\' :: c! '"' :: utf8 (escChars cs)) = backslashesPaired (qc! '\\' :: qc! '"' :: utf16 cs)
              rw [okB, if_pos rfl, backslashesPaired, if_pos rfl]
              have : ∀ t, okB (c! '"' :: t) = false := by
                intro t; cases t with
                | nil => rfl
                | cons y t => rw [okB, if_neg (by decide), if_pos rfl]
              rw [this]
              simp
            · rw [if_neg hd]
              have e8 : utf8 [d] = String.utf8EncodeChar d := by simp [utf8]
              rw [e8]
              have hx := ih cs (by omega)
              have h16 := utf16_no (c := d) (d := '"') (by decide) hd
              by_cases hdb : d = '\\'
              · subst hdb
                have e1 : String.utf8EncodeChar '\\' = [c! '\\'] := by decide
                have e2 : utf16Char '\\' = [qc! '\\'] := by decide
                rw [e1, e2]
                show okB (c! '\\' :: c! '\\' :: utf8 (escChars cs)) = backslashesPaired (qc! '\\' :: qc! '\\' :: utf16 cs)
                rw [okB, if_pos rfl, backslashesPaired, if_pos rfl, hx]
                have : (decide (qc! '\\' ≠ qc! '"')) = true := by decide
                rw [this, Bool.true_and]
              · have g8 := utf8_no hdb hd
                have g16 := utf16_no (c := d) (d := '\\') (by decide) hdb
                have n8 : String.utf8EncodeChar d ≠ [] := by
                  intro e; have := String.length_utf8EncodeChar d; rw [e] at this
                  have h2 := Char.utf8Size_pos d
                  rw [List.length_nil] at this; omega
                have n16 : utf16Char d ≠ [] := by unfold utf16Char; split <;> simp
                cases h8 : String.utf8EncodeChar d with
                | nil => exact absurd h8 n8
                | cons x r =>
                  cases hu : utf16Char d with
                  | nil => exact absurd hu n16
                  | cons y s =>
                    show okB (c! '\\' :: x :: (r ++ utf8 (escChars cs))) = backslashesPaired (qc! '\\' :: y :: (s ++ utf16 cs))
                    rw [okB, if_pos rfl, backslashesPaired, if_pos rfl]
                    rw [okB_app r _ (fun z hz => g8 z (by rw [h8]; simp [hz])), paired_app s _ (fun z hz => g16 z (by rw [hu]; simp [hz])), hx]
                    have := h16 y (by rw [hu]; simp)
                    have : y ≠ qc! '"' := this
                    simp [this]
        · rw [okB_app _ _ (utf8_no hb hq), paired_app _ _ (utf16_no (c := c) (d := '\\') (by decide) hb)]
          exact ih cs (by omega)

theorem run_okB (n : Nat) : ∀ (l r : QByteArray) (st : MailState), l.length ≤ n → st.context = .top → st.inQuotedString = true →
    (0 : UInt8) ∉ l → okB l = true → mailRun (l ++ r) st = mailRun r { st with displayName := st.displayName ++ l } := by
  induction n with
  | zero => intro l r st h; cases l with
    | nil => intro _ _ _ _; simp
    | cons => simp at h
  | succ n ih =>
    intro l r st h hc hq h0 hk
    cases l with
    | nil => simp
    | cons x l =>
      simp only [List.mem_cons, not_or] at h0
      simp only [List.length_cons] at h
      by_cases hb : x = c! '\\'
      · subst hb
        cases l with
        | nil => exact absurd hk (by decide)
        | cons y l =>
          rw [okB, if_pos rfl] at hk
          simp only [List.mem_cons, not_or] at h0
          simp only [List.length_cons] at h
          show mailRun (c! '\\' :: y :: (l ++ r)) st = _
          rw [mailRun, if_neg (by decide), if_pos rfl, if_neg (Ne.symm h0.2.1)]
          have e1 : (st.add (c! '\\')).add y = { st with displayName := st.displayName ++ [c! '\\', y] } := by
            have := add_top [c! '\\', y] st hc
            simpa using this
          rw [e1, ih l r { st with displayName := st.displayName ++ [c! '\\', y] } (by omega) hc hq h0.2.2 hk]
          simp
      · have hqx : x ≠ c! '"' := by
          rintro rfl
          cases l with
          | nil => exact absurd hk (by decide)
          | cons y l => rw [okB, if_neg (by decide), if_pos rfl] at hk; cases hk
        rw [okB_cons x l hb hqx] at hk
        have := run_quoted [x] (l ++ r) st hc hq (by
          intro b hb'
          rw [List.mem_singleton] at hb'
          subst hb'
          simp only [List.mem_cons, List.not_mem_nil, or_false, not_or]
          exact ⟨Ne.symm h0.1, hb, hqx⟩)
        show mailRun ([x] ++ (l ++ r)) st = _
        rw [this, ih l r { st with displayName := st.displayName ++ [x] } (by omega) hc hq h0.2 hk]
        simp

/-- no quotes in it: the last backslash takes the next character with it -/
theorem run_not_okB (n : Nat) : ∀ (l r : QByteArray) (d : UInt8) (st : MailState), l.length ≤ n → st.context = .top → st.inQuotedString = true →
    (0 : UInt8) ∉ l → c! '"' ∉ l → d ≠ 0 → okB l = false → mailRun (l ++ d :: r) st = mailRun r { st with displayName := st.displayName ++ (l ++ [d]) } := by
  induction n with
  | zero => intro l r d st h; cases l with
    | nil => intro _ _ _ _ _ hk; cases hk
    | cons => simp at h
  | succ n ih =>
    intro l r d st h hc hq h0 hno hd hk
    cases l with
    | nil => cases hk
    | cons x l =>
      simp only [List.mem_cons, not_or] at h0 hno
      simp only [List.length_cons] at h
      by_cases hb : x = c! '\\'
      · subst hb
        cases l with
        | nil =>
          show mailRun (c! '\\' :: d :: r) st = _
          rw [mailRun, if_neg (by decide), if_pos rfl, if_neg hd]
          have e1 : (st.add (c! '\\')).add d = { st with displayName := st.displayName ++ [c! '\\', d] } := by
            have := add_top [c! '\\', d] st hc
            simpa using this
          rw [e1]; rfl
        | cons y l =>
          rw [okB, if_pos rfl] at hk
          simp only [List.mem_cons, not_or] at h0 hno
          simp only [List.length_cons] at h
          show mailRun (c! '\\' :: y :: (l ++ d :: r)) st = _
          rw [mailRun, if_neg (by decide), if_pos rfl, if_neg (Ne.symm h0.2.1)]
          have e1 : (st.add (c! '\\')).add y = { st with displayName := st.displayName ++ [c! '\\', y] } := by
            have := add_top [c! '\\', y] st hc
            simpa using this
          rw [e1, ih l r d { st with displayName := st.displayName ++ [c! '\\', y] } (by omega) hc hq h0.2.2 hno.2.2 hd hk]
          simp
      · have hqx := Ne.symm hno.1
        rw [okB_cons x l hb hqx] at hk
        have := run_quoted [x] (l ++ d :: r) st hc hq (by
          intro b hb'
          rw [List.mem_singleton] at hb'
          subst hb'
          simp only [List.mem_cons, List.not_mem_nil, or_false, not_or]
          exact ⟨Ne.symm h0.1, hb, hqx⟩)
        show mailRun ([x] ++ (l ++ d :: r)) st = _
        rw [this, ih l r d { st with displayName := st.displayName ++ [x] } (by omega) hc hq h0.2 hno.2 hd hk]
        simp

theorem utf8_esc_nonzero (cs : List Char) (h0 : ∀ c ∈ cs, c.toNat ≠ 0) : (0 : UInt8) ∉ utf8 (escChars cs) := by
  intro hm
  obtain ⟨c, hc, hb⟩ := List.mem_flatMap.1 hm
  have hz : c.toNat ≠ 0 := by
    obtain ⟨d, hd, hcd⟩ := List.mem_flatMap.1 hc
    split at hcd
    · simp only [List.mem_cons, List.not_mem_nil, or_false] at hcd
      rcases hcd with rfl | rfl <;> decide
    · rw [List.mem_singleton] at hcd
      subst hcd
      exact h0 _ hd
  by_cases hl : c.toNat < 128
  · rw [utf8_ascii hl, List.mem_singleton] at hb
    have hn := toNat_ofNat8 c.toNat (by omega)
    rw [← hb] at hn
    exact hz hn.symm
  · have := utf8_high (by omega) _ hb
    exact absurd this (by decide)

theorem run_escaped (cs : List Char) (r : QByteArray) (st : MailState) (hc : st.context = .top) (hq : st.inQuotedString = true)
    (h0 : ∀ c ∈ cs, c.toNat ≠ 0) (h : backslashesPaired (utf16 cs) = true) :
    mailRun (utf8 (escChars cs) ++ r) st = mailRun r { st with displayName := st.displayName ++ utf8 (escChars cs) } := by
  refine run_okB _ _ r st (Nat.le_refl _) hc hq ?_ (by rw [okB_esc _ cs (Nat.le_refl _)]; exact h)
  exact utf8_esc_nonzero cs h0

end KC
