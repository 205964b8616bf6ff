import Verif.Props.C99
/-
  C100: how the lines of a vCard are folded, and empty lines, do not matter.
-/
namespace KC
open Spec

namespace Spec

/-- The line starts with a begin or end marker, in upper or lower case. -/
def StartsWithMarker (l : List UInt8) : Prop := (l.map lowerByte).take 11 = b! "begin:vcard" ∨ (l.map lowerByte).take 9 = b! "end:vcard"

/-- No line that starts with a marker is folded: no continuation line is part of it. `acc` is the line being collected. -/
def MarkersWhole (acc : List UInt8) : List (List UInt8) → Prop
  | [] => True
  | l :: ls =>
    if l.head? = some 32 ∨ l.head? = some 9 then ¬ StartsWithMarker (acc ++ l.drop 1) ∧ MarkersWhole (acc ++ l.drop 1) ls
    else if l.all (fun c => c = 32 || (9 ≤ c && c ≤ 13)) then MarkersWhole acc ls
    else MarkersWhole l ls

instance : DecidablePred StartsWithMarker := fun _ => inferInstanceAs (Decidable (_ ∨ _))

instance decMarkersWhole : (acc : List UInt8) → (ls : List (List UInt8)) → Decidable (MarkersWhole acc ls)
  | _, [] => .isTrue trivial
  | acc, l :: ls =>
    have := decMarkersWhole (acc ++ l.drop 1) ls
    have := decMarkersWhole acc ls
    have := decMarkersWhole l ls
    inferInstanceAs (Decidable (if l.head? = some 32 ∨ l.head? = some 9 then ¬ StartsWithMarker (acc ++ l.drop 1) ∧ MarkersWhole (acc ++ l.drop 1) ls
      else if l.all (fun c => c = 32 || (9 ≤ c && c ≤ 13)) then MarkersWhole acc ls else MarkersWhole l ls))

/-- The lines of the text, without carriage returns before the line ends. -/
def physicalLines (text : List UInt8) : List (List UInt8) := (linesOf text).map dropCR

/-- The text has a line end, or does not start with an end marker. (A text of a single line is read twice, see C95_one_line_false.) -/
def Proper (text : List UInt8) : Prop := (10 : UInt8) ∈ text ∨ ¬ StartsWithEnd text

end Spec

/-! ### proof -/

theorem not_marker {l : QByteArray} (h : ¬ StartsWithMarker l) : startsWithCI (b! "begin:vcard") l = false ∧ startsWithCI (b! "end:vcard") l = false := by
  constructor
  · cases he : startsWithCI (b! "begin:vcard") l with
    | false => rfl
    | true => exact absurd (.inl ((startsWithCI_take _ _).1 he)) h
  · cases he : startsWithCI (b! "end:vcard") l with
    | false => rfl
    | true => exact absurd (.inr ((startsWithCI_take _ _).1 he)) h

theorem marker_mono {l r : QByteArray} (h : StartsWithMarker l) : StartsWithMarker (l ++ r) := by
  rcases h with h | h
  · exact .inl ((startsWithCI_take (b! "begin:vcard") _).1 (startsWithCI_mono (List.prefix_append l r) ((startsWithCI_take (b! "begin:vcard") _).2 h)))
  · exact .inr ((startsWithCI_take (b! "end:vcard") _).1 (startsWithCI_mono (List.prefix_append l r) ((startsWithCI_take (b! "end:vcard") _).2 h)))

theorem mark_plain {l : QByteArray} (h : ¬ StartsWithMarker l) (s : RS) : RS.mark l s = { s with currentLine := l } := by
  unfold RS.mark
  rw [(not_marker h).1, (not_marker h).2]
  rfl

/-- The line before is taken apart. -/
def RS.settle (E : Codecs) (s : RS) : Option RS :=
  if s.inVCard ∧ s.currentLine ≠ [] then (parsePure E s.currentLine).map fun l => { s with card := s.card.addLine l } else some s

/-- A whole logical line. -/
def feedL (E : Codecs) (s : RS) (l : QByteArray) : Option RS := (s.settle E).map (RS.mark l)

theorem feed_feedL (E : Codecs) (s : RS) (l : QByteArray) (h1 : isFolded l = false) (h2 : isBlank l = false) : feed E s l = feedL E s l := by
  unfold feed feedL RS.settle
  rw [h1, h2]
  simp only [Bool.false_eq_true, if_false]
  split
  · cases parsePure E s.currentLine <;> rfl
  · rfl

/-- The logical lines, one after the other. -/
def runL (E : Codecs) (s : RS) : List QByteArray → Option RS
  | [] => some s
  | l :: ls => ls.foldlM (feedL E) (RS.mark l s)

theorem logicalLines_ne (acc : QByteArray) (ls : List QByteArray) : logicalLines acc ls ≠ [] := by
  induction ls generalizing acc with
  | nil => simp [logicalLines]
  | cons l ls ih =>
    simp only [logicalLines]
    split
    · exact ih _
    · split
      · exact ih _
      · simp

theorem fold_logical (E : Codecs) (ls : List QByteArray) (acc : QByteArray) (s : RS) (h : MarkersWhole acc ls) :
    ls.foldlM (feed E) (RS.mark acc s) = runL E s (logicalLines acc ls) := by
  induction ls generalizing acc s with
  | nil => rfl
  | cons l ls ih =>
    rw [List.foldlM_cons]
    simp only [MarkersWhole] at h
    simp only [logicalLines]
    have hfold : isFolded l = decide (l.head? = some 32 ∨ l.head? = some 9) := by
      cases l with
      | nil => rfl
      | cons c t =>
        rw [Bool.eq_iff_iff]
        simp [isFolded]
    have hblank : isBlank l = l.all (fun c => c = 32 || (9 ≤ c && c ≤ 13)) := isBlank_all l
    by_cases h1 : l.head? = some 32 ∨ l.head? = some 9
    · rw [if_pos h1] at h ⊢
      have hna : ¬ StartsWithMarker acc := fun hm => h.1 (marker_mono hm)
      have : feed E (RS.mark acc s) l = some (RS.mark (acc ++ l.drop 1) s) := by
        rw [mark_plain hna, mark_plain h.1]
        unfold feed
        rw [if_pos (by rw [hfold]; simpa using h1)]
      rw [this]
      exact ih _ _ h.2
    · rw [if_neg h1] at h ⊢
      have hf : isFolded l = false := by rw [hfold]; simpa using h1
      by_cases h2 : l.all (fun c => c = 32 || (9 ≤ c && c ≤ 13)) = true
      · rw [if_pos h2] at h ⊢
        have : feed E (RS.mark acc s) l = some (RS.mark acc s) := by
          unfold feed
          rw [hf, hblank, h2]
          simp
        rw [this]
        exact ih _ _ h
      · rw [if_neg h2] at h ⊢
        rw [feed_feedL E _ l hf (by rw [hblank]; simpa using h2)]
        unfold feedL
        cases hl : logicalLines l ls with
        | nil => exact absurd hl (logicalLines_ne l ls)
        | cons a as =>
          simp only [runL, List.foldlM_cons]
          cases hs : (RS.mark acc s).settle E with
          | none =>
            have : feedL E (RS.mark acc s) a = none := by unfold feedL; rw [hs]; rfl
            rw [this]
            rfl
          | some s' =>
            have : feedL E (RS.mark acc s) a = some (RS.mark a s') := by unfold feedL; rw [hs]; rfl
            rw [this]
            show ls.foldlM (feed E) (RS.mark l s') = as.foldlM (feedL E) (RS.mark a s')
            rw [ih _ _ h, hl]
            rfl

theorem readText_logical (E : Codecs) (t : QByteArray) (hp : Proper t) (hq : NoSoftBreak t) (hm : MarkersWhole [] (physicalLines t)) :
    ∃ cards, readText E t = some cards ∧ (runL E {} (logicalLines [] (physicalLines t))).map RS.out = some cards := by
  have hs : (10 : UInt8) ∈ t ∨ startsWithCI (b! "end:vcard") t = false := by
    rcases hp with h | h
    · exact .inl h
    · rw [startsWithEnd_iff] at h; exact .inr (by simpa using h)
  obtain ⟨cards, hc⟩ := readText_nosoft E t hq hs
  refine ⟨cards, hc, ?_⟩
  have key := fold_logical E (physicalLines t) [] {} hm
  have e0 : RS.mark [] ({} : RS) = {} := rfl
  rw [e0] at key
  rw [← key]
  unfold physicalLines
  rw [mapped_lines]
  rcases hs with h | h
  · unfold readText fedLines at hc
    rw [if_neg (physLines_two h)] at hc
    exact hc
  · have h2 := readText_line_end E t cards h hc
    unfold readText fedLines at h2
    rw [if_neg (physLines_two (by simp))] at h2
    have : physLines (t ++ [10]) = physLines t ++ [[]] := by
      have : t ++ [10] = t ++ 10 :: [] := rfl
      unfold physLines rawLines
      rw [this, splitOn_append_sep, List.map_append]; rfl
    rw [this, List.foldlM_append] at h2
    cases hx : (physLines t).foldlM (feed E) {} with
    | none => rw [hx] at h2; cases h2
    | some s => rw [hx] at h2; exact h2

/-- C100. Two texts with the same logical lines are read as the same cards, however they are folded and wherever they have empty lines, as long as
    the begin and end markers are not folded. (No quoted-printable soft line breaks, see C58 for those.) -/
theorem C100 (E : Codecs) (t1 t2 : List UInt8) (h : logicalLines [] (physicalLines t1) = logicalLines [] (physicalLines t2)) (hq : NoSoftBreak t1)
    (m1 : MarkersWhole [] (physicalLines t1)) (m2 : MarkersWhole [] (physicalLines t2)) (p1 : Proper t1) (p2 : Proper t2) :
    ∃ cards, CardsOf E t1 cards ∧ CardsOf E t2 cards := by
  have hq2 : NoSoftBreak t2 := by
    unfold NoSoftBreak at *
    change ∀ l ∈ logicalLines [] (physicalLines t2), _
    rw [← h]
    exact hq
  obtain ⟨c1, a1, b1⟩ := readText_logical E t1 p1 hq m1
  obtain ⟨c2, a2, b2⟩ := readText_logical E t2 p2 hq2 m2
  rw [h, b2] at b1
  obtain rfl := Option.some.inj b1
  exact ⟨c2, cardsOf_readText a1, cardsOf_readText a2⟩

/-- C100 for contacts. -/
theorem C100_contacts (E : ToolEnv) (ids : IdKind → Nat → QString) (t1 t2 : List UInt8)
    (h : logicalLines [] (physicalLines t1) = logicalLines [] (physicalLines t2)) (hq : NoSoftBreak t1)
    (m1 : MarkersWhole [] (physicalLines t1)) (m2 : MarkersWhole [] (physicalLines t2)) (p1 : Proper t1) (p2 : Proper t2) :
    ∃ n, ∀ fuel ≥ n, parseContacts E ids fuel t1 = parseContacts E ids fuel t2 := by
  obtain ⟨cards, ⟨n1, h1⟩, n2, h2⟩ := C100 E.toCodecs t1 t2 h hq m1 m2 p1 p2
  refine ⟨max n1 n2, fun fuel hf => ?_⟩
  unfold parseContacts
  rw [h1 fuel (by omega), h2 fuel (by omega)]

/-- An empty line put between any two lines of any text, even within a folded line, makes no difference. -/
theorem C100_empty_line (E : Codecs) (before after : List UInt8) (hb : EndsLine before) (hq : NoSoftBreak (before ++ after))
    (hp : (10 : UInt8) ∈ before ++ after) (cr : Bool) :
    ∃ cards, CardsOf E (before ++ after) cards ∧ CardsOf E (before ++ (if cr then [13, 10] else [10]) ++ after) cards := by
  obtain ⟨cards, hc⟩ := readText_nosoft E _ hq (.inl hp)
  refine ⟨cards, cardsOf_readText hc, cardsOf_readText ?_⟩
  obtain ⟨I, e1, e2⟩ := linesOf_end before after hb
  have e3 : physLines (before ++ (if cr then [13, 10] else [10]) ++ after) = I ++ [] :: physLines after := by
    obtain ⟨I', e1', e2'⟩ := linesOf_end before ((if cr then [13, 10] else [10]) ++ after) hb
    rw [e1] at e1'
    rw [List.append_assoc, e2', ← List.append_cancel_right e1']
    congr 1
    cases cr with
    | false =>
      have := physLines_append [] after (by simp)
      exact this
    | true =>
      have := physLines_append [13] after (by decide)
      exact this
  unfold readText fedLines at hc ⊢
  rw [if_neg (physLines_two hp), e2, List.foldlM_append] at hc
  rw [if_neg (physLines_two (by cases cr <;> simp)), e3, List.foldlM_append]
  cases hx : I.foldlM (feed E) {} with
  | none => rw [hx] at hc; cases hc
  | some s =>
    rw [hx] at hc
    rw [← hc]
    rfl

/-! ### non-vacuity -/

/-- A text folded in one way, and in another with empty lines. -/
def foldedText : QByteArray := b! "BEGIN:VCARD\nNOTE:a long\n  note\nFN:Bo\nEND:VCARD\n"

def refoldedText : QByteArray := b! "\r\nBEGIN:VCARD\r\n\r\nNO\r\n TE:\r\n\ta\r\n  long note\r\nFN:B\r\n\r\n o\r\nEND:VCARD"

example (E : Codecs) : ∃ cards, CardsOf E foldedText cards ∧ CardsOf E refoldedText cards := by
  refine C100 E foldedText refoldedText (by decide +kernel) (nosoft_of_last _ (by decide +kernel)) ?_ ?_ (.inl (by decide)) (.inl (by decide))
  · decide +kernel
  · decide +kernel

example (E : Codecs) : ∃ cards, CardsOf E (b! "BEGIN:VCARD\nNOTE:a\n" ++ b! " b\nEND:VCARD\n") cards ∧
    CardsOf E (b! "BEGIN:VCARD\nNOTE:a\n" ++ b! "\r\n" ++ b! " b\nEND:VCARD\n") cards :=
  C100_empty_line E (b! "BEGIN:VCARD\nNOTE:a\n") (b! " b\nEND:VCARD\n") (.inr ⟨b! "BEGIN:VCARD\nNOTE:a", by decide⟩) (nosoft_of_last _ (by decide +kernel)) (by decide) true

/-! ### what is false -/

/-- A folded end marker is not seen: the card is lost. -/
theorem C100_marker_false : ∃ t1 t2 : List UInt8, logicalLines [] (physicalLines t1) = logicalLines [] (physicalLines t2) ∧ NoSoftBreak t1 ∧
    ∃ (E : Codecs) (c : VCard), CardsOf E t1 [c] ∧ CardsOf E t2 [] := by
  refine ⟨b! "BEGIN:VCARD\nFN:Bo\nEND:VCARD\n", b! "BEGIN:VCARD\nFN:Bo\nEND:VC\n ARD\n", by decide +kernel, nosoft_of_last _ (by decide +kernel),
    Sample.env.toCodecs, ((readText Sample.env.toCodecs (b! "BEGIN:VCARD\nFN:Bo\nEND:VCARD\n")).getD []).headD [], cardsOf_readText (by decide +kernel),
    cardsOf_readText (by decide +kernel)⟩

end KC
