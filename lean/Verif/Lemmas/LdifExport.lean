import Verif.Lemmas.LdifImport
import Verif.Props.C42
/-
  Lemmas about the LDIF export: its text as lines of an LDIF document.
-/
namespace KC
open KC.Spec

/-! ### the text of a line -/

theorem toLatin1_fromLatin1 (t : QByteArray) : toLatin1 (fromLatin1 t) = t := by
  unfold toLatin1 fromLatin1
  rw [List.map_map]
  conv => rhs; rw [← List.map_id t]
  apply List.map_congr_left
  intro b _
  have := b.toNat_lt
  have e : (UInt16.ofNat b.toNat).toNat = b.toNat := by simp
  simp only [Function.comp, e, id]
  rw [if_pos (by omega)]
  simp

theorem utf8Head_ascii {b : UInt8} (h : b.toNat < 128) (t : QByteArray) : utf8Head b t = ([UInt16.ofNat b.toNat], 0) := by
  unfold utf8Head; simp [h]

theorem decode_ascii {t : QByteArray} (h : ∀ b ∈ t, b.toNat < 128) : decodeUtf8 0 t = fromLatin1 t := by
  induction t with
  | nil => rfl
  | cons b t ih =>
    rw [decodeUtf8, utf8Head_ascii (h b (by simp)), ih (fun x hx => h x (by simp [hx]))]
    rfl

theorem fromUtf8_ascii {t : QByteArray} (h : ∀ b ∈ t, b.toNat < 128) : fromUtf8 t = fromLatin1 t := by
  unfold fromUtf8
  split
  · rename_i e
    have : (0xEF : UInt8) ∈ t := List.mem_of_mem_take (i := 3) (by rw [e]; simp)
    exact absurd (h _ this) (by decide)
  · exact decode_ascii h

theorem latin_fromUtf8_ascii {t : QByteArray} (h : ∀ b ∈ t, b.toNat < 128) : toLatin1 (fromUtf8 t) = t := by
  rw [fromUtf8_ascii h, toLatin1_fromLatin1]

theorem enc6_ascii (n : Nat) : (enc6 n).toNat < 128 := by
  have : ∀ m : Fin 64, (enc6 m.val).toNat < 128 := by decide
  by_cases h : n < 64
  · exact this ⟨n, h⟩
  · unfold enc6
    repeat' split
    all_goals first | omega | decide

theorem toBase64_ascii (s : QByteArray) : ∀ b ∈ toBase64 s, b.toNat < 128 := by
  fun_induction toBase64 s <;> simp_all [enc6_ascii] <;> first | done | decide

theorem ldifSafe_ascii (v : QByteArray) (h : ldifSafe false v = true) : ∀ b ∈ v, b.toNat < 128 := by
  have pos : ∀ b : UInt8, charPositive b = true → b.toNat < 128 := by
    intro b hb
    simp only [charPositive, Bool.and_eq_true, decide_eq_true_eq] at hb
    exact UInt8.lt_iff_toNat_lt.1 hb.2
  cases v with
  | nil => simp
  | cons c t =>
    simp only [ldifSafe, Bool.and_eq_true, List.all_eq_true] at h
    intro b hb
    rcases List.mem_cons.1 hb with rfl | hb
    · exact pos _ h.1.1.1.1.1
    · have := h.2 b hb
      simp at this
      exact pos b this.1.1

theorem ldifFold_mem (linelen n i : Nat) (r : QByteArray) : ∀ b ∈ ldifFold linelen n i r, b ∈ r ∨ b = 10 ∨ b = 32 := by
  induction n generalizing i r with
  | zero => intro b hb; exact .inl hb
  | succ n ih =>
    intro b hb
    rw [ldifFold] at hb
    split at hb
    · rcases ih _ _ b hb with h | h
      · simp only [List.mem_append, List.mem_cons, List.not_mem_nil, or_false] at h
        rcases h with (h | h) | h
        · exact .inl (List.mem_of_mem_take h)
        · right; simpa using h
        · exact .inl (List.mem_of_mem_drop h)
      · exact .inr h
    · exact .inl hb

/-- A written line is ASCII, unless it holds a distinguished name. -/
theorem assembleLine_ascii {name : QString} (hn : ∀ b ∈ toUtf8 name, b.toNat < 128) (hd : toLowerQ name ≠ q! "dn") (value : QByteArray) (linelen : Nat) :
    ∀ b ∈ assembleLine name value linelen false, b.toNat < 128 := by
  have h0 : ∀ b ∈ (if ldifSafe (decide (toLowerQ name = q! "dn")) value then toUtf8 name ++ b! ": " ++ value else toUtf8 name ++ b! ":: " ++ toBase64 value), b.toNat < 128 := by
    rw [decide_eq_false hd]
    intro b hb
    split at hb
    · rename_i hs
      simp only [List.mem_append] at hb
      rcases hb with (hb | hb) | hb
      · exact hn b hb
      · revert b; decide
      · exact ldifSafe_ascii value hs b hb
    · simp only [List.mem_append] at hb
      rcases hb with (hb | hb) | hb
      · exact hn b hb
      · revert b; decide
      · exact toBase64_ascii value b hb
  unfold assembleLine
  simp only [Bool.false_eq_true, if_false]
  split
  · intro b hb
    rcases ldifFold_mem _ _ _ _ b hb with h | rfl | rfl
    · exact h0 b h
    · decide
    · decide
  · exact h0

/-! ### the line with the distinguished name -/

theorem isCont_big {b : UInt8} (h : isCont b = true) : 128 ≤ b.toNat ∧ b ≠ 10 := by
  simp only [isCont, Bool.and_eq_true, decide_eq_true_eq] at h
  refine ⟨h.1, ?_⟩
  rintro rfl
  exact absurd h.1 (by decide)

/-- What one sequence of bytes gives in Latin-1. -/
theorem utf8Head_latin (b : UInt8) (t : QByteArray) (hb : 128 ≤ b.toNat) :
    (∀ c ∈ toLatin1 (utf8Head b t).1, c ≠ 10 ∧ c ≠ 13) ∧ (utf8Head b t).2 ≤ t.length ∧ ∀ x ∈ t.take (utf8Head b t).2, isCont x = true := by
  have big : ∀ n : Nat, 128 ≤ n → n < 65536 → ∀ c ∈ toLatin1 [UInt16.ofNat n], c ≠ 10 ∧ c ≠ 13 := by
    intro n h1 h2 c hc
    simp only [toLatin1, List.map_cons, List.map_nil, List.mem_singleton] at hc
    have e : (UInt16.ofNat n).toNat = n := by simp; omega
    rw [e] at hc
    split at hc
    · rename_i h3
      have e8 : (UInt8.ofNat n).toNat = n := by simp; omega
      constructor <;> (intro h; rw [h] at hc; rw [← hc] at e8; simp at e8; omega)
    · subst hc; decide
  have bad : (∀ c ∈ toLatin1 [0xFFFD], c ≠ 10 ∧ c ≠ 13) := by decide
  have hb2 := b.toNat_lt
  unfold utf8Head
  dsimp only
  rw [if_neg (by omega)]
  split
  · exact ⟨bad, by simp, by simp⟩
  split
  · cases t with
    | nil => exact ⟨bad, by simp, by simp⟩
    | cons c t =>
      dsimp only
      split
      · rename_i h1 h2 hc
        have := isCont_big hc
        have hc2 : c.toNat < 192 := by simp only [isCont, Bool.and_eq_true, decide_eq_true_eq] at hc; exact hc.2
        refine ⟨big _ (by omega) (by omega), by simp, ?_⟩
        intro x hx; simp at hx; rw [hx]; exact hc
      · exact ⟨bad, by simp, by simp⟩
  split
  · cases t with
    | nil => exact ⟨bad, by simp, by simp⟩
    | cons c t =>
    cases t with
    | nil => exact ⟨bad, by simp, by simp⟩
    | cons d t =>
      dsimp only
      split
      · rename_i h1 h2 h3 hc
        obtain ⟨k1, k2, k3, k4⟩ := hc
        have j1 : c.toNat < 192 := by simp only [isCont, Bool.and_eq_true, decide_eq_true_eq] at k1; exact k1.2
        have j2 : d.toNat < 192 := by simp only [isCont, Bool.and_eq_true, decide_eq_true_eq] at k2; exact k2.2
        have i1 := isCont_big k1
        have i2 := isCont_big k2
        refine ⟨big _ (by omega) (by omega), by simp, ?_⟩
        intro x hx; simp at hx; rcases hx with rfl | rfl <;> assumption
      · exact ⟨bad, by simp, by simp⟩
  · cases t with
    | nil => exact ⟨bad, by simp, by simp⟩
    | cons c t =>
    cases t with
    | nil => exact ⟨bad, by simp, by simp⟩
    | cons d t =>
    cases t with
    | nil => exact ⟨bad, by simp, by simp⟩
    | cons e t =>
      dsimp only
      split
      · rename_i h1 h2 h3 hc
        obtain ⟨k1, k2, k3, k4, k5⟩ := hc
        refine ⟨?_, by simp, ?_⟩
        · intro x hx
          have e2 : ∀ u v : UInt16, toLatin1 [u, v] = toLatin1 [u] ++ toLatin1 [v] := fun _ _ => rfl
          rw [e2, List.mem_append] at hx
          rcases hx with hx | hx
          · exact big _ (by omega) (by omega) x hx
          · exact big _ (by omega) (by omega) x hx
        · intro x hx; simp at hx; rcases hx with rfl | rfl | rfl <;> assumption
      · exact ⟨bad, by simp, by simp⟩

theorem Folded.chars (u : QByteArray) (h : ∀ c ∈ u, c ≠ 10 ∧ c ≠ 13) : Folded u u :=
  Folded.plain u (fun hm => (h _ hm).1 rfl) (fun hm => (h _ hm).2 rfl)

/-- The fold structure of a line is not hurt by reading its bytes as UTF-8 and writing Latin-1, nor are ASCII characters in front. -/
theorem folded_latin (n : Nat) : ∀ (t u : QByteArray) (k : Nat), t.length ≤ n → Folded t u → k ≤ t.length → (∀ x ∈ t.take k, isCont x = true) →
    ∃ u', Folded (toLatin1 (decodeUtf8 k t)) u' ∧ (k = 0 → ∀ p r, u = p ++ r → (∀ b ∈ p, b.toNat < 128) → ∃ r', u' = p ++ r') := by
  induction n with
  | zero =>
    intro t u k hl h hk _
    have : t = [] := List.eq_nil_of_length_eq_zero (by omega)
    subst this
    cases h
    exact ⟨[], by cases k <;> exact .nil, fun _ p r e _ => by
      have := List.append_eq_nil_iff.1 e.symm
      exact ⟨[], by simp [this.1]⟩⟩
  | succ n ih =>
    intro t u k hl h hk hc
    cases h with
    | nil =>
      exact ⟨[], by cases k <;> exact .nil, fun _ p r e _ => by
        have := List.append_eq_nil_iff.1 e.symm
        exact ⟨[], by simp [this.1]⟩⟩
    | @char c t u h1 h2 hf =>
      simp only [List.length_cons] at hl hk
      cases k with
      | succ k =>
        obtain ⟨u', hu, _⟩ := ih t u k (by omega) hf (by omega) (fun x hx => hc x (by simp [hx]))
        exact ⟨u', by rw [decodeUtf8]; exact hu, nofun⟩
      | zero =>
        by_cases hb : c.toNat < 128
        · obtain ⟨u', hu, hp⟩ := ih t u 0 (by omega) hf (by omega) (by simp)
          refine ⟨c :: u', ?_, ?_⟩
          · rw [decodeUtf8, utf8Head_ascii hb]
            have e : toLatin1 ([UInt16.ofNat c.toNat] ++ decodeUtf8 0 t) = c :: toLatin1 (decodeUtf8 0 t) := by
              have := toLatin1_fromLatin1 [c]
              simp only [toLatin1, fromLatin1, List.map_cons, List.map_nil, List.cons_append, List.nil_append] at this ⊢
              rw [List.cons.injEq] at this
              rw [this.1]
            rw [e]
            exact .char h1 h2 hu
          · intro _ p r e ha
            cases p with
            | nil => exact ⟨_, rfl⟩
            | cons b p =>
              rw [List.cons_append, List.cons.injEq] at e
              obtain ⟨r', hr⟩ := hp rfl p r e.2 (fun x hx => ha x (by simp [hx]))
              exact ⟨r', by rw [hr, e.1]; rfl⟩
        · obtain ⟨k1, k2, k3⟩ := utf8Head_latin c t (by omega)
          obtain ⟨u', hu, _⟩ := ih t u (utf8Head c t).2 (by omega) hf k2 k3
          refine ⟨toLatin1 (utf8Head c t).1 ++ u', ?_, ?_⟩
          · rw [decodeUtf8]
            have e : toLatin1 ((utf8Head c t).1 ++ decodeUtf8 (utf8Head c t).2 t) = toLatin1 (utf8Head c t).1 ++ toLatin1 (decodeUtf8 (utf8Head c t).2 t) := by
              simp [toLatin1]
            rw [e]
            exact (Folded.chars _ k1).append hu
          · intro _ p r e ha
            cases p with
            | nil => exact ⟨_, rfl⟩
            | cons b p =>
              rw [List.cons_append, List.cons.injEq] at e
              exact absurd (ha b (by simp)) (by rw [← e.1]; exact hb)
    | @fold w t u hw hf =>
      cases k with
      | succ k => exact absurd rfl (isCont_big (hc 10 (by simp))).2
      | zero =>
        simp only [List.length_cons] at hl
        obtain ⟨u', hu, hp⟩ := ih t u 0 (by omega) hf (by omega) (by simp)
        have hwa : w.toNat < 128 := by rcases hw with rfl | rfl <;> decide
        refine ⟨u', ?_, hp⟩
        rw [decodeUtf8, utf8Head_ascii (by decide), decodeUtf8, utf8Head_ascii hwa]
        have e : toLatin1 ([UInt16.ofNat (10 : UInt8).toNat] ++ ([UInt16.ofNat w.toNat] ++ decodeUtf8 0 t)) = 10 :: w :: toLatin1 (decodeUtf8 0 t) := by
          rcases hw with rfl | rfl <;> rfl
        rw [e]
        exact .fold hw hu

/-- The line with the distinguished name, as it comes back: still a line with a distinguished name. -/
theorem dn_line (value : QByteArray) (linelen : Nat) :
    ∃ u v, LineText (toLatin1 (fromUtf8 (assembleLine (q! "dn") value linelen false))) u ∧ splitLine u = (q! "dn", v, false) := by
  have h := assembleLine_text dn_name value linelen
  have hp : ∃ r, plainLine (q! "dn") value = b! "dn: " ++ r ∨ plainLine (q! "dn") value = b! "dn:: " ++ r := by
    unfold plainLine
    split
    · exact ⟨value, .inl rfl⟩
    · exact ⟨toBase64 value, .inr rfl⟩
  rcases h with ⟨_, h2⟩ | ⟨c, t, u, h1, h2, hc, hf⟩
  · obtain ⟨r, hr | hr⟩ := hp <;> rw [h2] at hr <;> simp at hr
  · have hcd : c = c! 'd' := by
      obtain ⟨r, hr | hr⟩ := hp <;> rw [h2] at hr <;> simp at hr <;> exact hr.1
    subst hcd
    have hfb : fromUtf8 (assembleLine (q! "dn") value linelen false) = decodeUtf8 0 (c! 'd' :: t) := by
      rw [h1, fromUtf8, if_neg]
      simp
    have hd : toLatin1 (decodeUtf8 0 (c! 'd' :: t)) = c! 'd' :: toLatin1 (decodeUtf8 0 t) := by
      rw [decodeUtf8, utf8Head_ascii (by decide)]; rfl
    obtain ⟨u', hu, hpre⟩ := folded_latin t.length t u 0 (Nat.le_refl _) hf (Nat.zero_le _) (by simp)
    refine ⟨c! 'd' :: u', ?_⟩
    have hfin : ∃ v, splitLine (c! 'd' :: u') = (q! "dn", v, false) := by
      obtain ⟨r, hr | hr⟩ := hp
      · rw [h2] at hr
        have : u = b! "n: " ++ r := by simpa using hr
        obtain ⟨r', hr'⟩ := hpre rfl _ _ this (by decide)
        subst hr'
        have : splitLine (c! 'd' :: (b! "n: " ++ r')) = (q! "dn", (splitLine (c! 'd' :: (b! "n: " ++ r'))).2.1, false) := by
          have hi : indexOf? (c! ':') (c! 'd' :: (b! "n: " ++ r')) = some 2 := by simp [indexOf?]
          unfold splitLine
          rw [hi]
          simp
          decide
        exact ⟨_, this⟩
      · rw [h2] at hr
        have : u = b! "n:: " ++ r := by simpa using hr
        obtain ⟨r', hr'⟩ := hpre rfl _ _ this (by decide)
        subst hr'
        have : splitLine (c! 'd' :: (b! "n:: " ++ r')) = (q! "dn", (splitLine (c! 'd' :: (b! "n:: " ++ r'))).2.1, false) := by
          have hi : indexOf? (c! ':') (c! 'd' :: (b! "n:: " ++ r')) = some 2 := by simp [indexOf?]
          unfold splitLine
          rw [hi]
          simp
          decide
        exact ⟨_, this⟩
    obtain ⟨v, hv⟩ := hfin
    exact ⟨v, .inr ⟨c! 'd', _, u', by rw [hfb, hd], rfl, by unfold LineStart; decide, hu⟩, hv⟩

end KC
