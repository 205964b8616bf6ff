import Verif.Lemmas.Card
/-
  C14: VERSION is the first property written; the others follow in ascending order; nothing twice, nothing omitted.
-/
namespace KC
open Spec

/-- C14. For every history `h` of lines added to a card, the written text is: the begin marker, then for each name in `names` the lines of
    that name in the order they were added, then the end marker. `names` lists each name of the card exactly once, VERSION first if the
    card has it, all other names in ascending order. -/
theorem C14_order (E : Codecs) (h : List VCardLine) :
    ∃ names : List QString,
      createVCardText E [cardAfter h] =
        b! "BEGIN:VCARD\r\n" ++ (names.flatMap fun n => (h.filter fun l => l.identifier = n).flatMap (writeLine E)) ++ b! "END:VCARD\r\n\r\n" ∧
      names.Nodup ∧ (∀ n, n ∈ names ↔ ∃ l ∈ h, l.identifier = n) ∧
      (q! "VERSION" ∈ names → ∃ rest, names = q! "VERSION" :: rest ∧ Ascending rest) ∧
      (q! "VERSION" ∉ names → Ascending names) := by
  refine ⟨writeOrder (cardAfter h), ?_, ?_, ?_, ?_, ?_⟩
  · simp only [createVCardText, List.flatMap_cons, List.flatMap_nil, List.append_nil, writeCard, C13_lines, List.append_assoc]
    rfl
  · exact (writeOrder_perm _).nodup_iff.2 (identifiers_nodup h)
  · intro n
    rw [(writeOrder_perm _).mem_iff]; exact (C13_names h).2 n
  · intro hv
    rw [(writeOrder_perm _).mem_iff] at hv
    refine ⟨(cardAfter h).identifiers.erase (q! "VERSION"), ?_, ?_⟩
    · simp [writeOrder, hv]
    · exact List.Pairwise.sublist (List.erase_sublist) (C13_names h).1
  · intro hv
    rw [(writeOrder_perm _).mem_iff] at hv
    have : writeOrder (cardAfter h) = (cardAfter h).identifiers := by simp [writeOrder, hv]
    rw [this]; exact (C13_names h).1

/-- Several cards are written one after another. -/
theorem C14_cards (E : Codecs) (a b : List VCard) : createVCardText E (a ++ b) = createVCardText E a ++ createVCardText E b := by
  simp [createVCardText]

/-- A text line with a non-empty value and no special encoding is never omitted: after unfolding it is the name and parameters, a colon
    and the escaped value. -/
theorem C14_text_line_written (E : Codecs) (l : VCardLine) (s : QString) (hv : l.value = .str s) (hs : s ≠ [])
    (hp : ∀ v, (q! "charset", v) ∉ l.params ∧ (q! "encoding", v) ∉ l.params) (hn : (10 : UInt8) ∉ writeHead l) :
    unfold (writeLine E l) = writeHead l ++ [58] ++ addEscapes (toUtf8 s) (excludesComma l) ∧ writeLine E l ≠ [] := by
  have h1 : l.parameter (q! "charset") = [] := by
    unfold VCardLine.parameter
    have : SMap.find l.params (q! "charset") = none := by
      rw [SMap.find_eq_none]; rintro ⟨k, v⟩ hk rfl; exact (hp v).1 hk
    rw [this]
  have h2 : q! "encoding" ∉ l.parameterList := by
    unfold VCardLine.parameterList
    intro hm
    obtain ⟨⟨k, v⟩, hk, e⟩ := List.mem_map.1 hm
    simp only at e; subst e; exact (hp v).2 hk
  have h3 : toUtf8 s ≠ [] := by
    cases s with
    | nil => exact absurd rfl hs
    | cons u t =>
      intro e
      cases t with
      | nil => simp only [toUtf8] at e; exact absurd e (by unfold utf8Unit; (repeat' split) <;> simp)
      | cons w t =>
        simp only [toUtf8] at e
        split at e
        · exact absurd e (by simp [utf8Pair])
        · exact absurd e (by unfold utf8Unit; (repeat' split) <;> simp)
  have h4 : addEscapes (toUtf8 s) (excludesComma l) ≠ [] := by
    have key : ∀ (c : UInt8) (r b : QByteArray), r ≠ [] → b ≠ [] → replaceChar c r b ≠ [] := by
      intro c r b hr hb
      cases b with
      | nil => exact absurd rfl hb
      | cons x t => simp only [replaceChar, List.flatMap_cons]; split <;> simp [hr]
    simp only [addEscapes]
    apply key _ _ _ (by decide)
    apply key _ _ _ (by decide)
    split
    · exact key _ _ _ (by decide) h3
    · exact key _ _ _ (by decide) (key _ _ _ (by decide) h3)
  have e : writeLine E l = fixLineSize (writeHead l ++ [c! ':'] ++ addEscapes (toUtf8 s) (excludesComma l)) true := by
    simp [writeLine, writeContent, writeValue, hv, h1, h2, h4, QVariant.toString]
  rw [e]
  constructor
  · apply C03_fold_unfold
    have := (C01_escaped_is_single_line (toUtf8 s) (excludesComma l)).1
    simp [hn, this]
  · obtain ⟨f, r, hf, _⟩ := C03_fold_shape (writeHead l ++ [c! ':'] ++ addEscapes (toUtf8 s) (excludesComma l)) true
    rw [hf]
    simp [physical]

/-- Conversely a line whose text is empty is left out (the reader could not tell it from an absent one). -/
theorem C14_empty_line_omitted (E : Codecs) (l : VCardLine) (hv : l.value = .str [])
    (hp : ∀ v, (q! "charset", v) ∉ l.params ∧ (q! "encoding", v) ∉ l.params) : writeLine E l = [] := by
  have h1 : l.parameter (q! "charset") = [] := by
    unfold VCardLine.parameter
    have : SMap.find l.params (q! "charset") = none := by
      rw [SMap.find_eq_none]; rintro ⟨k, v⟩ hk rfl; exact (hp v).1 hk
    rw [this]
  have h2 : q! "encoding" ∉ l.parameterList := by
    unfold VCardLine.parameterList
    intro hm
    obtain ⟨⟨k, v⟩, hk, e⟩ := List.mem_map.1 hm
    simp only at e; subst e; exact (hp v).2 hk
  simp [writeLine, writeContent, writeValue, hv, h1, h2, QVariant.toString, toUtf8, addEscapes, replaceChar]

/-- Names before and after VERSION in the alphabet. -/
example : writeOrder (cardAfter [{ identifier := q! "X-A" }, { identifier := q! "VERSION" }, { identifier := q! "N" }, { identifier := q! "X-A" },
    { identifier := q! "ADR" }]) = [q! "VERSION", q! "ADR", q! "N", q! "X-A"] := by decide

/-- The version of a card is the one its first VERSION line names: 2.1, 3.0, or 4.0 for every other text; without such a line 3.0. -/
theorem C14_version (h : List VCardLine) :
    (cardAfter h).version = match (h.filter fun l => l.identifier = q! "VERSION").head? with
      | none => .v3_0
      | some l => if l.value = .str (q! "2.1") then .v2_1 else if l.value = .str (q! "3.0") then .v3_0 else .v4_0 := by
  unfold VCard.version
  rw [card_find]
  cases e : h.filter (fun l => decide (l.identifier = q! "VERSION")) with
  | nil => simp
  | cons a t => simp

/-- Setting the version of a card does not work: the number is stored as the name of the line, so a new card set to 2.1 or 3.0 counts as
    4.0, and a card that has a version keeps it. -/
theorem C14_set_version_false : (∀ v, (VCard.setVersion [] v).version = .v4_0) ∧
    ∀ (h : List VCardLine) (v : Version), (∃ l ∈ h, l.identifier = q! "VERSION") →
      ((cardAfter h).setVersion v).version = (cardAfter h).version := by
  refine ⟨fun v => by cases v <;> decide, fun h v hl => ?_⟩
  obtain ⟨l, hl, hi⟩ := hl
  have hf := card_find h (q! "VERSION")
  cases e : h.filter (fun l => decide (l.identifier = q! "VERSION")) with
  | nil =>
    have := List.filter_eq_nil_iff.1 e l hl
    simp [hi] at this
  | cons a t =>
    rw [e] at hf
    simp only [reduceCtorEq, if_false] at hf
    unfold VCard.version VCard.setVersion
    simp only [hf, SMap.find_modify, if_true, Option.map_some, List.cons_append]

end KC
