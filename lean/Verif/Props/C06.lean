import Verif.Lemmas.Card
/-
  C06: a content line survives writing and reading; so does a whole list of cards.
-/
namespace KC
open Spec

/-- C06. Every list of cards made of lines that can be written (`LineOK`, see Spec/Writable) is restored by reading the text written
    for it: the same cards in the same order, with the same lines, names, groups, parameters and values. -/
theorem C06_cards_roundtrip (E : Codecs) (cards : List (List VCardLine)) (hok : ∀ h ∈ cards, ∀ l ∈ h, LineOK E l) :
    ∃ bound, ∀ fuel ≥ bound,
      parseVCards E fuel (createVCardText E (cards.map cardAfter)) = some (cards.map cardAfter) := by
  refine ⟨_, fun n hn => parseVCards_of_readText E _ _ ?_ n hn⟩
  rw [readText_written]
  · rw [List.map_map]
    congr 1
    apply List.map_congr_left
    intro h _
    exact rebuild h
  · intro c hc l hl
    obtain ⟨h, hh, rfl⟩ := List.mem_map.1 hc
    exact hok h hh l ((mem_written h l).1 hl)

/-- C06, for one line: name, group, parameters (in order, without duplicates) and value come back. -/
theorem C06_line_roundtrip (E : Codecs) (l : VCardLine) (hl : LineOK E l) :
    ∃ bound, ∀ fuel ≥ bound, ∃ card,
      parseVCards E fuel (createVCardText E [VCard.addLine [] l]) = some [card] ∧ card.lines l.identifier = [l] := by
  obtain ⟨b, hb⟩ := C06_cards_roundtrip E [[l]] (by simpa using hl)
  refine ⟨b, fun n hn => ⟨cardAfter [l], hb n hn, ?_⟩⟩
  rw [C13_lines]; simp

/-! Concrete instances: a telephone line with two types, a picture with binary data, text in a group. -/

private def exTel : VCardLine :=
  { identifier := q! "TEL", group := q! "item1", value := .str (utf16 ['+', '4', '9', ';', '\n', 'ü', '😀']),
    params := paramsAfter [(q! "type", q! "HOME"), (q! "pref", q! "1"), (q! "type", q! "VOICE"), (q! "type", q! "HOME")] }

private def exPhoto : VCardLine :=
  { identifier := q! "PHOTO", value := .bytes [0, 255, 10, 13], params := paramsAfter [(q! "type", q! "PNG"), (q! "encoding", q! "b")] }

private theorem paramOK_of (k v : QString) (h : (k.all fun u => u.toNat < 256) ∧ (v.all fun u => u.toNat < 256) ∧
    (k.all fun u => !(65 ≤ u.toNat && u.toNat ≤ 90)) ∧
    (qc! ';' ∉ k ∧ qc! ':' ∉ k ∧ qc! '=' ∉ k ∧ (10 : UInt16) ∉ k) ∧ v ≠ [] ∧
    (qc! ';' ∉ v ∧ qc! ':' ∉ v ∧ qc! ',' ∉ v ∧ (10 : UInt16) ∉ v) ∧ v.head? ≠ some (qc! '"')) : ParamOK k v := by
  obtain ⟨a, b, c, d, e, f, g⟩ := h
  refine ⟨?_, ?_, ?_, d, e, f, g⟩
  · intro u hu; simpa using List.all_eq_true.1 a u hu
  · intro u hu; simpa using List.all_eq_true.1 b u hu
  · intro u hu; have := List.all_eq_true.1 c u hu; simp at this; omega

private theorem nameOK_of (s : QString) (h : (s.all fun u => u.toNat < 256) ∧
    (qc! ';' ∉ s ∧ qc! ':' ∉ s ∧ qc! '.' ∉ s ∧ (10 : UInt16) ∉ s)) : NameOK s :=
  ⟨fun u hu => by simpa using List.all_eq_true.1 h.1 u hu, h.2⟩

private theorem exTel_ok (E : Codecs) : LineOK E exTel := by
  refine ⟨nameOK_of _ (by decide), nameOK_of _ (by decide), ?_, by decide, rfl, _, rfl, ?_, ?_⟩
  · intro c hc
    have : c = qc! 'i' := by simpa [exTel] using hc.symm
    subst this; decide
  · intro p hp
    simp only [List.mem_cons, List.not_mem_nil, or_false] at hp
    rcases hp with rfl | rfl | rfl | rfl <;> exact paramOK_of _ _ (by decide)
  · refine ValueOK.text _ ?_ ⟨_, rfl⟩ (by decide) (by decide) ?_
    · intro p hp
      simp only [List.mem_cons, List.not_mem_nil, or_false] at hp
      rcases hp with rfl | rfl | rfl | rfl <;> decide
    · rw [← C01_escape_roundtrip_iff _ false]; decide

private theorem exPhoto_ok (E : Codecs) : LineOK E exPhoto := by
  refine ⟨nameOK_of _ (by decide), nameOK_of _ (by decide), ?_, by decide, rfl, _, rfl, ?_, ?_⟩
  · intro c hc
    have : c = qc! 'P' := by simpa [exPhoto] using hc.symm
    subst this; decide
  · intro p hp
    simp only [List.mem_cons, List.not_mem_nil, or_false] at hp
    rcases hp with rfl | rfl <;> exact paramOK_of _ _ (by decide)
  · refine ValueOK.bytes _ (by simp) ?_ (by decide)
    intro p hp
    simp only [List.mem_cons, List.not_mem_nil, or_false] at hp
    rcases hp with rfl | rfl <;> decide

/-- the hypothesis of `C06_cards_roundtrip` is met by two cards, one with two lines -/
example (E : Codecs) : ∀ h ∈ [[exTel, exPhoto], [exPhoto]], ∀ l ∈ h, LineOK E l := by
  intro h hh l hl
  simp only [List.mem_cons, List.not_mem_nil, or_false] at hh
  rcases hh with rfl | rfl
  · simp only [List.mem_cons, List.not_mem_nil, or_false] at hl
    rcases hl with rfl | rfl
    · exact exTel_ok E
    · exact exPhoto_ok E
  · simp only [List.mem_cons, List.not_mem_nil, or_false] at hl
    rw [hl]; exact exPhoto_ok E

end KC
