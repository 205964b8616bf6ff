import Verif.Lemmas.Utf
/-
  C11: text survives the UTF-8 byte layer.
-/
namespace KC
open Spec

/-- The bytes written for a text are exactly its UTF-8 form (as defined by Lean's library). -/
theorem C11_toUtf8_is_utf8 (cs : List Char) : toUtf8 (utf16 cs) = utf8 cs := by
  induction cs with
  | nil => rfl
  | cons c cs ih =>
    have e : utf16 (c :: cs) = utf16Char c ++ utf16 cs := by simp [utf16]
    have e' : utf8 (c :: cs) = String.utf8EncodeChar c ++ utf8 cs := by simp [utf8]
    rw [e, toUtf8_utf16Char, ih, e']
    congr 1
    have hr := char_range c
    have hv : c.val.toNat = c.toNat := rfl
    unfold utf16Char String.utf8EncodeChar
    simp only [hv]
    generalize c.toNat = n at *
    split
    · have hn := toNat_ofNat16 n (by omega)
      simp only [toUtf8, utf8Unit, hn]
      have f1 : (n ≤ 127) = (n < 128) := by apply propext; omega
      have f2 : (n ≤ 2047) = (n < 2048) := by apply propext; omega
      have f3 : n ≤ 65535 := by omega
      have f4 : n < 0xD800 ∨ 0xE000 ≤ n := by omega
      simp only [f1, f2, f3, f4, if_true]
      split
      · rfl
      · split
        · have g1 : n / 64 % 32 + 192 = 192 + n / 64 := by omega
          have g2 : n % 64 + 128 = 128 + n % 64 := by omega
          rw [g1, g2]
        · have g1 : n / 4096 % 16 + 224 = 224 + n / 4096 := by omega
          have g2 : n / 64 % 64 + 128 = 128 + n / 64 % 64 := by omega
          have g3 : n % 64 + 128 = 128 + n % 64 := by omega
          rw [g1, g2, g3]
    · have hn := toNat_ofNat16 (0xD800 + (n - 0x10000) / 0x400) (by omega)
      have hm := toNat_ofNat16 (0xDC00 + (n - 0x10000) % 0x400) (by omega)
      rw [toUtf8, hn, hm, if_pos (by omega)]
      have f1 : ¬ (n ≤ 127) := by omega
      have f2 : ¬ (n ≤ 2047) := by omega
      have f3 : ¬ (n ≤ 65535) := by omega
      have : 0x10000 + (0xD800 + (n - 0x10000) / 0x400 - 0xD800) * 1024 + (0xDC00 + (n - 0x10000) % 0x400 - 0xDC00) = n := by
        omega
      simp only [f1, f2, f3, if_false, utf8Pair, toUtf8, List.append_nil, this]
      have g0 : n / 262144 % 8 + 240 = 240 + n / 262144 := by omega
      have g1 : n / 4096 % 64 + 128 = 128 + n / 4096 % 64 := by omega
      have g2 : n / 64 % 64 + 128 = 128 + n / 64 % 64 := by omega
      have g3 : n % 64 + 128 = 128 + n % 64 := by omega
      rw [g0, g1, g2, g3]

/-- Part of C11 that holds: every well-formed text that does not start with U+FEFF is read back unchanged.
    Missing: texts starting with U+FEFF, which `fromUtf8` takes for a byte order mark (`C11_utf8_roundtrip_false`). -/
theorem C11_utf8_roundtrip_partial (s : QString) (h : WellFormed s) (hb : s.head? ≠ some 0xFEFF) :
    fromUtf8 (toUtf8 s) = s := by
  obtain ⟨cs, rfl⟩ := h
  have rt : decodeUtf8 0 (toUtf8 (utf16 cs)) = utf16 cs := by
    have := decode_toUtf8_utf16 cs []
    simpa [toUtf8, decodeUtf8] using this
  unfold fromUtf8
  rw [if_neg, rt]
  intro hbom
  -- the first decoded unit would be U+FEFF
  apply hb
  generalize toUtf8 (utf16 cs) = bytes at *
  match bytes, hbom with
  | [a, b, c], hbom =>
    simp only [List.take, List.cons.injEq, and_true] at hbom
    obtain ⟨rfl, rfl, rfl⟩ := hbom
    rw [← rt]; rfl
  | a :: b :: c :: d :: t, hbom =>
    simp only [List.take, List.cons.injEq, and_true] at hbom
    obtain ⟨rfl, rfl, rfl⟩ := hbom
    rw [← rt]; rfl

/-- The stronger layer statement without byte order mark handling: decoding is a left inverse on all well-formed text. -/
theorem C11_decode_roundtrip (cs : List Char) : decodeUtf8 0 (toUtf8 (utf16 cs)) = utf16 cs := by
  have := decode_toUtf8_utf16 cs []
  simpa [toUtf8, decodeUtf8] using this

/-- C11 as stated is false: a text that starts with U+FEFF loses it. -/
theorem C11_utf8_roundtrip_false : ¬ ∀ s : QString, WellFormed s → fromUtf8 (toUtf8 s) = s := by
  intro h
  have := h [0xFEFF, 0x61] ⟨['﻿', 'a'], by decide⟩
  revert this; decide

/-- Two different well-formed texts are never written as the same bytes. -/
theorem C11_toUtf8_injective (s t : QString) (hs : WellFormed s) (ht : WellFormed t) (h : toUtf8 s = toUtf8 t) : s = t := by
  obtain ⟨cs, rfl⟩ := hs
  obtain ⟨ds, rfl⟩ := ht
  rw [← C11_decode_roundtrip cs, h, C11_decode_roundtrip]

-- non-vacuity: 1-, 2-, 3- and 4-byte characters
example : WellFormed (utf16 ['a', 'ü', '€', '😀']) ∧ (utf16 ['a', 'ü', '€', '😀']).head? ≠ some 0xFEFF :=
  ⟨⟨_, rfl⟩, by decide⟩
example : toUtf8 (utf16 ['a', 'ü', '€', '😀']) = [0x61, 0xC3, 0xBC, 0xE2, 0x82, 0xAC, 0xF0, 0x9F, 0x98, 0x80] := by decide

end KC
