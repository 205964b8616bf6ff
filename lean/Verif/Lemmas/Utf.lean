import Verif.Qt.Utf
import Verif.Spec.Text
/- Helper lemmas about the UTF-8 codec. -/
namespace KC
open Spec

/-- not a surrogate -/
def nonSur (n : Nat) : Prop := n < 0xD800 ∨ 0xE000 ≤ n

theorem toUtf8_cons_unit (u : UInt16) (t : QString) (h : nonSur u.toNat) :
    toUtf8 (u :: t) = utf8Unit u.toNat ++ toUtf8 t := by
  cases t with
  | nil => simp [toUtf8]
  | cons v t =>
    unfold nonSur at h
    rw [toUtf8, if_neg (by omega)]

theorem toUtf8_cons_pair (u v : UInt16) (t : QString) (h1 : 0xD800 ≤ u.toNat) (h2 : u.toNat < 0xDC00)
    (h3 : 0xDC00 ≤ v.toNat) (h4 : v.toNat < 0xE000) :
    toUtf8 (u :: v :: t) = utf8Pair u.toNat v.toNat ++ toUtf8 t := by
  rw [toUtf8, if_pos ⟨h1, h2, h3, h4⟩]

theorem isCont_iff (b : UInt8) : isCont b = true ↔ 0x80 ≤ b.toNat ∧ b.toNat < 0xC0 := by
  simp [isCont]

theorem toNat_ofNat8 (n : Nat) (h : n < 256) : (UInt8.ofNat n).toNat = n := by
  simp [UInt8.toNat_ofNat', Nat.mod_eq_of_lt h]

theorem toNat_ofNat16 (n : Nat) (h : n < 65536) : (UInt16.ofNat n).toNat = n := by
  simp [UInt16.toNat_ofNat', Nat.mod_eq_of_lt h]

theorem ofNat_toNat16 (a : UInt16) (n : Nat) (h : n = a.toNat) : UInt16.ofNat n = a := by
  subst h; simp

theorem decode_unit (u : UInt16) (rest : QByteArray) (h : nonSur u.toNat) :
    decodeUtf8 0 (utf8Unit u.toNat ++ rest) = u :: decodeUtf8 0 rest := by
  have hu := u.toNat_lt
  generalize hn : u.toNat = n at *
  unfold nonSur at h
  unfold utf8Unit
  split
  · have e := toNat_ofNat8 n (by omega)
    simp only [List.cons_append, List.nil_append, decodeUtf8, utf8Head, e, ‹n < 128›, if_true]
    rw [ofNat_toNat16 u n hn.symm]
  · split
    · have e1 := toNat_ofNat8 (0xC0 + n / 64) (by omega)
      have e2 := toNat_ofNat8 (0x80 + n % 64) (by omega)
      have c2 : isCont (UInt8.ofNat (0x80 + n % 64)) = true := by rw [isCont_iff, e2]; omega
      have a1 : ¬ (0xC0 + n / 64 < 0x80) := by omega
      have a2 : ¬ (0xC0 + n / 64 < 0xC2) := by omega
      have a3 : (0xC0 + n / 64 < 0xE0) := by omega
      simp only [List.cons_append, List.nil_append, decodeUtf8, utf8Head, e1, e2, c2, a1, a2, a3, if_true, if_false]
      rw [ofNat_toNat16 u _ (by omega)]
    · have e1 := toNat_ofNat8 (0xE0 + n / 4096) (by omega)
      have e2 := toNat_ofNat8 (0x80 + n / 64 % 64) (by omega)
      have e3 := toNat_ofNat8 (0x80 + n % 64) (by omega)
      have c2 : isCont (UInt8.ofNat (0x80 + n / 64 % 64)) = true := by rw [isCont_iff, e2]; omega
      have c3 : isCont (UInt8.ofNat (0x80 + n % 64)) = true := by rw [isCont_iff, e3]; omega
      have a1 : ¬ (0xE0 + n / 4096 < 0x80) := by omega
      have a2 : ¬ (0xE0 + n / 4096 < 0xC2) := by omega
      have a3 : ¬ (0xE0 + n / 4096 < 0xE0) := by omega
      have a4 : (0xE0 + n / 4096 < 0xF0) := by omega
      have v : (0xE0 + n / 4096 - 0xE0) * 4096 + (0x80 + n / 64 % 64 - 0x80) * 64 + (0x80 + n % 64 - 0x80) = n := by
        omega
      have a5 : 0x800 ≤ n ∧ (n < 0xD800 ∨ 0xE000 ≤ n) := by omega
      simp only [List.cons_append, List.nil_append, decodeUtf8, utf8Head, e1, e2, e3, c2, c3, a1, a2, a3, a4, a5, v,
        if_true, if_false, and_self]
      rw [ofNat_toNat16 u _ hn.symm]

theorem decode_pair (u v : UInt16) (rest : QByteArray) (h1 : 0xD800 ≤ u.toNat) (h2 : u.toNat < 0xDC00)
    (h3 : 0xDC00 ≤ v.toNat) (h4 : v.toNat < 0xE000) :
    decodeUtf8 0 (utf8Pair u.toNat v.toNat ++ rest) = u :: v :: decodeUtf8 0 rest := by
  generalize hn : u.toNat = n at *
  generalize hm : v.toNat = m at *
  unfold utf8Pair
  generalize hc : 0x10000 + (n - 0xD800) * 1024 + (m - 0xDC00) = c
  have hc1 : 0x10000 ≤ c ∧ c < 0x110000 := by omega
  have e1 := toNat_ofNat8 (0xF0 + c / 262144) (by omega)
  have e2 := toNat_ofNat8 (0x80 + c / 4096 % 64) (by omega)
  have e3 := toNat_ofNat8 (0x80 + c / 64 % 64) (by omega)
  have e4 := toNat_ofNat8 (0x80 + c % 64) (by omega)
  have c2 : isCont (UInt8.ofNat (0x80 + c / 4096 % 64)) = true := by rw [isCont_iff, e2]; omega
  have c3 : isCont (UInt8.ofNat (0x80 + c / 64 % 64)) = true := by rw [isCont_iff, e3]; omega
  have c4 : isCont (UInt8.ofNat (0x80 + c % 64)) = true := by rw [isCont_iff, e4]; omega
  have a1 : ¬ (0xF0 + c / 262144 < 0x80) := by omega
  have a2 : ¬ (0xF0 + c / 262144 < 0xC2) := by omega
  have a3 : ¬ (0xF0 + c / 262144 < 0xE0) := by omega
  have a4 : ¬ (0xF0 + c / 262144 < 0xF0) := by omega
  have vv : (0xF0 + c / 262144 - 0xF0) * 262144 + (0x80 + c / 4096 % 64 - 0x80) * 4096 + (0x80 + c / 64 % 64 - 0x80) * 64
      + (0x80 + c % 64 - 0x80) = c := by omega
  simp only [List.cons_append, List.nil_append, decodeUtf8, utf8Head, e1, e2, e3, e4, c2, c3, c4, a1, a2, a3, a4, hc1, vv,
          if_true, if_false, and_self]
  rw [ofNat_toNat16 u _ (by omega), ofNat_toNat16 v _ (by omega)]

theorem char_range (c : Char) : c.toNat < 0xD800 ∨ (0xE000 ≤ c.toNat ∧ c.toNat < 0x110000) := by
  have := c.valid
  have e : c.toNat = c.val.toNat := rfl
  rw [e]
  rcases this with h | h
  · left; exact h
  · right; exact ⟨by omega, h.2⟩

theorem decode_toUtf8_utf16 (cs : List Char) (t : QString) :
    decodeUtf8 0 (toUtf8 (utf16 cs ++ t)) = utf16 cs ++ decodeUtf8 0 (toUtf8 t) := by
  induction cs with
  | nil => simp [utf16]
  | cons c cs ih =>
    have hr := char_range c
    have e : utf16 (c :: cs) = utf16Char c ++ utf16 cs := by simp [utf16]
    rw [e, List.append_assoc, List.append_assoc, ← ih]
    unfold utf16Char
    split
    · have hn := toNat_ofNat16 c.toNat (by omega)
      have ns : nonSur (UInt16.ofNat c.toNat).toNat := by rw [hn]; unfold nonSur; omega
      simp only [List.cons_append, List.nil_append]
      rw [toUtf8_cons_unit _ _ ns, decode_unit _ _ ns]
    · have hn := toNat_ofNat16 (0xD800 + (c.toNat - 0x10000) / 0x400) (by omega)
      have hm := toNat_ofNat16 (0xDC00 + (c.toNat - 0x10000) % 0x400) (by omega)
      simp only [List.cons_append, List.nil_append]
      rw [toUtf8_cons_pair _ _ _ (by omega) (by omega) (by omega) (by omega),
        decode_pair _ _ _ (by omega) (by omega) (by omega) (by omega)]

/-- UTF-16 code units of a scalar value are encoded like the scalar value itself. -/
theorem toUtf8_utf16Char (c : Char) (t : QString) :
    toUtf8 (utf16Char c ++ t) = toUtf8 (utf16Char c) ++ toUtf8 t := by
  have hr := char_range c
  unfold utf16Char
  split
  · have hn := toNat_ofNat16 c.toNat (by omega)
    have ns : nonSur (UInt16.ofNat c.toNat).toNat := by rw [hn]; unfold nonSur; omega
    simp only [List.cons_append, List.nil_append]
    rw [toUtf8_cons_unit _ _ ns, toUtf8_cons_unit _ [] ns]; simp [toUtf8]
  · have hn := toNat_ofNat16 (0xD800 + (c.toNat - 0x10000) / 0x400) (by omega)
    have hm := toNat_ofNat16 (0xDC00 + (c.toNat - 0x10000) % 0x400) (by omega)
    simp only [List.cons_append, List.nil_append]
    rw [toUtf8_cons_pair _ _ _ (by omega) (by omega) (by omega) (by omega),
      toUtf8_cons_pair _ _ _ (by omega) (by omega) (by omega) (by omega)]
    simp [toUtf8]

theorem toUtf8_utf16_append (cs : List Char) (t : QString) : toUtf8 (utf16 cs ++ t) = toUtf8 (utf16 cs) ++ toUtf8 t := by
  induction cs with
  | nil => simp [utf16, toUtf8]
  | cons c cs ih =>
    have e : utf16 (c :: cs) = utf16Char c ++ utf16 cs := by simp [utf16]
    rw [e, List.append_assoc, toUtf8_utf16Char, toUtf8_utf16Char c (utf16 cs), ih]; simp

end KC
