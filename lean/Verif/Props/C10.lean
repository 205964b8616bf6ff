import Verif.Qt.Base64
/-
  C10: binary data survives base64 (the byte level; the vCard line and LDIF line levels are in C06/C22 and C38).
-/
namespace KC

private theorem dec6_enc6_fin : ∀ n : Fin 64, dec6 (enc6 n.val) = some n.val := by decide +kernel

private theorem dec6_enc6 (n : Nat) (h : n < 64) : dec6 (enc6 n) = some n := dec6_enc6_fin ⟨n, h⟩

private theorem decode64_skip (buf nbits : Nat) (c : UInt8) (t : QByteArray) (h : dec6 c = none) :
    decode64 buf nbits (c :: t) = decode64 buf nbits t := by simp [decode64, h]

private theorem ofNat_toNat (a : UInt8) (n : Nat) (h : n = a.toNat) : UInt8.ofNat n = a := by
  subst h; simp

/-- C10: for every byte string, decoding its base64 form gives the same bytes. -/
theorem C10_base64_roundtrip (s : QByteArray) : fromBase64 (toBase64 s) = s := by
  unfold fromBase64
  fun_induction toBase64 s with
  | case1 => rfl
  | case2 a =>
    have ha := a.toNat_lt
    simp only [decode64, dec6_enc6 _ (show a.toNat / 4 < 64 by omega), dec6_enc6 _ (show a.toNat % 4 * 16 < 64 by omega),
      show dec6 61 = none from rfl]
    simp
    apply ofNat_toNat; omega
  | case3 a b =>
    have ha := a.toNat_lt
    have hb := b.toNat_lt
    simp only [decode64, dec6_enc6 _ (show a.toNat / 4 < 64 by omega),
      dec6_enc6 _ (show a.toNat % 4 * 16 + b.toNat / 16 < 64 by omega), dec6_enc6 _ (show b.toNat % 16 * 4 < 64 by omega),
      show dec6 61 = none from rfl]
    simp
    constructor <;> apply ofNat_toNat <;> omega
  | case4 a b c t ih =>
    have ha := a.toNat_lt
    have hb := b.toNat_lt
    have hc := c.toNat_lt
    simp only [decode64, dec6_enc6 _ (show a.toNat / 4 < 64 by omega),
      dec6_enc6 _ (show a.toNat % 4 * 16 + b.toNat / 16 < 64 by omega),
      dec6_enc6 _ (show b.toNat % 16 * 4 + c.toNat / 64 < 64 by omega), dec6_enc6 _ (show c.toNat % 64 < 64 by omega)]
    simp [-UInt8.ofNat_add, -UInt8.ofNat_mul]
    refine ⟨?_, ?_, ?_, ?_⟩
    · apply ofNat_toNat; omega
    · apply ofNat_toNat; omega
    · apply ofNat_toNat; omega
    · simpa [Nat.mod_one] using ih

/-- The base64 form only uses letters, digits, '+', '/' and '=': no byte that is special in a content line. -/
theorem C10_base64_alphabet (s : QByteArray) : ∀ c ∈ toBase64 s, dec6 c ≠ none ∨ c = 61 := by
  have h : ∀ n < 64, dec6 (enc6 n) ≠ none ∨ enc6 n = 61 := fun n hn => by left; rw [dec6_enc6 n hn]; simp
  fun_induction toBase64 s with
  | case1 => simp
  | case2 a =>
    have ha := a.toNat_lt
    intro c hc
    simp only [List.mem_cons, List.not_mem_nil, or_false] at hc
    rcases hc with rfl | rfl | rfl | rfl
    · exact h _ (by omega)
    · exact h _ (by omega)
    · simp
    · simp
  | case3 a b =>
    have ha := a.toNat_lt
    have hb := b.toNat_lt
    intro c hc
    simp only [List.mem_cons, List.not_mem_nil, or_false] at hc
    rcases hc with rfl | rfl | rfl | rfl
    · exact h _ (by omega)
    · exact h _ (by omega)
    · exact h _ (by omega)
    · simp
  | case4 a b c t ih =>
    have ha := a.toNat_lt
    have hb := b.toNat_lt
    have hc' := c.toNat_lt
    intro x hx
    simp only [List.mem_cons] at hx
    rcases hx with rfl | rfl | rfl | rfl | hx
    · exact h _ (by omega)
    · exact h _ (by omega)
    · exact h _ (by omega)
    · exact h _ (by omega)
    · exact ih x hx

/-- Bytes outside the alphabet (line breaks, blanks, padding) never change what is decoded. -/
theorem C10_base64_ignores_noise (s : QByteArray) :
    fromBase64 s = fromBase64 (s.filter fun c => (dec6 c).isSome) := by
  unfold fromBase64
  suffices ∀ buf nbits, decode64 buf nbits s = decode64 buf nbits (s.filter fun c => (dec6 c).isSome) from this 0 0
  induction s with
  | nil => intros; rfl
  | cons c t ih =>
    intro buf nbits
    cases h : dec6 c with
    | none => rw [decode64_skip _ _ _ _ h]; simp [h, ih]
    | some d =>
      rw [List.filter_cons_of_pos (by simp [h])]
      simp only [decode64, h]
      split
      · rw [ih]
      · rw [ih]

example : toBase64 (b! "Man is") = b! "TWFuIGlz" := by decide
example : toBase64 [0, 255, 13, 10] = b! "AP8NCg==" := by decide

end KC
