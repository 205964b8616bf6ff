import Verif.Lemmas.Cut
import Verif.Props.C09
import Verif.Props.C24
/-
  C95: a vCard file that is cut off at any byte (a crash while it is written, a broken transfer).
-/
namespace KC
open Spec

namespace Spec

/-- The number of lines of a text that start with an end marker, in upper or lower case. -/
def endLines (text : List UInt8) : Nat :=
  ((linesOf text).filter fun l => decide ((l.map lowerByte).take 9 = b! "end:vcard")).length

/-- No logical line of the text both mentions "quoted-printable" and ends in '=' (there is no soft line break). -/
def NoSoftBreak (text : List UInt8) : Prop :=
  ∀ l ∈ logicalLines [] ((linesOf text).map dropCR), ¬ (MentionsQP l ∧ l.getLast? = some 61)

/-- The text starts with an end marker. -/
def StartsWithEnd (text : List UInt8) : Prop := (text.map lowerByte).take 9 = b! "end:vcard"

/-- Reading the text gives these cards. -/
def CardsOf (E : Codecs) (text : List UInt8) (cards : List VCard) : Prop := ∃ n, ∀ fuel ≥ n, parseVCards E fuel text = some cards

/-- Cut after `k` bytes, the text of these contacts still has the end markers of the first `j` cards, and not that of a further one. (After
    an end marker come two line ends: four bytes.) -/
structure Complete (E : ToolEnv) (v : Version) (cs : List Contact) (k j : Nat) : Prop where
  count : j ≤ cs.length
  within : (createContacts E v false (cs.take j)).length ≤ k + 4
  beyond : j < cs.length → k + 4 < (createContacts E v false (cs.take (j + 1))).length

end Spec

/-! ### any text -/

theorem cardsOf_readText {E : Codecs} {t : QByteArray} {cards : List VCard} (h : readText E t = some cards) : CardsOf E t cards :=
  ⟨_, fun fuel hf => parseVCards_of_readText E t cards h fuel hf⟩

theorem readText_nosoft (E : Codecs) (text : QByteArray) (h : NoSoftBreak text)
    (hs : (10 : UInt8) ∈ text ∨ startsWithCI (b! "end:vcard") text = false) : ∃ cards, readText E text = some cards := by
  by_cases hlf : (10 : UInt8) ∈ text
  · have hmap : (linesOf text).map dropCR = physLines text := by
      rw [linesOf_eq]
      unfold physLines rawLines
      congr 1
      funext l
      simp [dropCR, chopCR, endsWithChar, chop1]
    unfold NoSoftBreak at h
    rw [hmap] at h
    obtain ⟨s', hs⟩ := fold_feed_some E (physLines text) {} [] ⟨[], rfl⟩ h
    refine ⟨s'.out, ?_⟩
    unfold readText fedLines
    rw [if_neg (physLines_two hlf), hs]; rfl
  · exact ⟨[], readText_one E text hlf (hs.resolve_left hlf)⟩

theorem startsWithEnd_iff (t : QByteArray) : StartsWithEnd t ↔ startsWithCI (b! "end:vcard") t = true :=
  (startsWithCI_take (b! "end:vcard") t).symm

/-- C95 for any text, at any byte: reading the part before the cut gives the first cards of the whole text, unchanged; as many as the part has
    lines starting with an end marker. -/
theorem C95_cards (E : Codecs) (text : List UInt8) (k : Nat) (hq : NoSoftBreak text) (hs : (10 : UInt8) ∈ text.take k ∨ ¬ StartsWithEnd text) :
    ∃ cards, CardsOf E text cards ∧ CardsOf E (text.take k) (cards.take (endLines (text.take k))) := by
  have h1 : (10 : UInt8) ∈ text.take k ∨ startsWithCI (b! "end:vcard") (text.take k) = false := by
    rcases hs with h | h
    · exact .inl h
    · refine .inr ?_
      cases he : startsWithCI (b! "end:vcard") (text.take k) with
      | false => rfl
      | true => exact absurd ((startsWithEnd_iff _).2 (startsWithCI_mono (List.take_prefix k text) he)) h
  have h2 : (10 : UInt8) ∈ text ∨ startsWithCI (b! "end:vcard") text = false := by
    rcases hs with h | h
    · exact .inl (List.mem_of_mem_take h)
    · refine .inr ?_
      rw [startsWithEnd_iff] at h
      simpa using h
  obtain ⟨cards, hc⟩ := readText_nosoft E text hq h2
  obtain ⟨cards', hc', hp⟩ := readText_cut (q := text.drop k) h1 (by rw [List.take_append_drop]; exact hc)
  refine ⟨cards, cardsOf_readText hc, ?_⟩
  have e : cards' = cards.take (endLines (text.take k)) := by
    rw [List.prefix_iff_eq_take.1 hp]
    congr 1
    exact readText_count h1 hc'
  rw [← e]
  exact cardsOf_readText hc'

/-! ### contacts -/

theorem reads_cards_block (E : Codecs) (R : VCardLine → Option VCardLine) (cs : List VCard)
    (hL : ∀ c ∈ cs, ∀ l ∈ (writeOrder c).flatMap c.lines, Reads E l (R l)) :
    ∃ ls, createVCardText E cs = crlfText ls ∧ (∀ x ∈ ls, (10 : UInt8) ∉ x) ∧
      ∀ out, ls.foldlM (feed E) { out := out } =
        some { out := out ++ cs.map fun c => cardAfter (((writeOrder c).flatMap c.lines).filterMap R) } := by
  induction cs with
  | nil => exact ⟨[], rfl, by simp, by intro out; simp⟩
  | cons c cs ih =>
    obtain ⟨ls2, e2, n2, f2⟩ := ih (fun x hx => hL x (by simp [hx]))
    obtain ⟨ls1, e1, n1, f1⟩ := reads_card_block E R c (hL c (by simp))
    refine ⟨ls1 ++ ls2, ?_, ?_, ?_⟩
    · unfold createVCardText at e2 ⊢
      rw [List.flatMap_cons, e1, e2, crlfText_append]
    · intro x hx
      rcases List.mem_append.1 hx with h | h
      · exact n1 x h
      · exact n2 x h
    · intro out
      rw [List.foldlM_append, f1]
      show List.foldlM _ _ _ = _
      rw [f2]
      simp

theorem physLines_crlf_app (L : List QByteArray) (hL : ∀ x ∈ L, (10 : UInt8) ∉ x) (z : QByteArray) (hz : (10 : UInt8) ∉ z) :
    physLines (crlfText L ++ z) = L ++ [chopCR z] := by
  induction L with
  | nil => unfold physLines rawLines; rw [show crlfText [] ++ z = z from rfl, splitOn_none hz]; rfl
  | cons l t ih =>
    have e : crlfText (l :: t) ++ z = (l ++ [13]) ++ 10 :: (crlfText t ++ z) := by simp [crlfText]
    have hl := hL l (by simp)
    rw [e, physLines_append _ _ (by simpa using hl), ih (fun x hx => hL x (by simp [hx]))]
    have : chopCR (l ++ [13]) = l := by simp [chopCR, endsWithChar, chop1]
    rw [this]; rfl

/-- Cards followed by one that is cut off just after or just before the end of its end marker. -/
theorem cut_last (E : Codecs) (R : VCardLine → Option VCardLine) (cs : List VCard) (c : VCard)
    (hL : ∀ c ∈ cs, ∀ l ∈ (writeOrder c).flatMap c.lines, Reads E l (R l)) (hc : ∀ l ∈ (writeOrder c).flatMap c.lines, Reads E l (R l)) :
    ∃ X, writeCard E c = X ++ b! "END:VCARD\r\n\r\n" ∧
      readText E (createVCardText E cs ++ X ++ b! "END:VCARD") = some ((cs ++ [c]).map fun c => cardAfter (((writeOrder c).flatMap c.lines).filterMap R)) ∧
      readText E (createVCardText E cs ++ X ++ b! "END:VCAR") = some (cs.map fun c => cardAfter (((writeOrder c).flatMap c.lines).filterMap R)) := by
  obtain ⟨A, eA, nA, fA⟩ := reads_cards_block E R cs hL
  obtain ⟨ls, e, n, f⟩ := reads_lines_block E R _ hc
  have e1 : (writeOrder c).flatMap (fun id => (c.lines id).flatMap (writeLine E)) = crlfText ls := by
    rw [← e, List.flatMap_assoc]
  have nL : ∀ x ∈ A ++ b! "BEGIN:VCARD" :: ls, (10 : UInt8) ∉ x := by
    intro x hx
    simp only [List.mem_append, List.mem_cons] at hx
    rcases hx with h | rfl | h
    · exact nA x h
    · decide
    · exact n x h
  have f1 : ∀ out, feed E { out := out } (b! "BEGIN:VCARD") = some { inVCard := true, out := out } := by
    intro out
    have h1 : isFolded (b! "BEGIN:VCARD") = false := by decide
    have h2 : isBlank (b! "BEGIN:VCARD") = false := by decide
    have h3 : startsWithCI (b! "begin:vcard") (b! "BEGIN:VCARD") = true := by decide
    simp only [feed, h1, h2, RS.mark, h3]
    simp
  obtain ⟨s', g1, g2, g3, g4⟩ := f { inVCard := true, out := cs.map fun c => cardAfter (((writeOrder c).flatMap c.lines).filterMap R) } [] rfl (by simp [absorb])
  have fL : (A ++ b! "BEGIN:VCARD" :: ls).foldlM (feed E) {} = some s' := by
    rw [List.foldlM_append]
    have := fA []
    rw [show ({ out := [] } : RS) = {} from rfl] at this
    rw [this]
    show List.foldlM _ _ _ = _
    rw [List.nil_append, List.foldlM_cons, f1]
    exact g1
  have text : ∀ z, createVCardText E cs ++ crlfText (b! "BEGIN:VCARD" :: ls) ++ z = crlfText (A ++ b! "BEGIN:VCARD" :: ls) ++ z := by
    intro z
    rw [eA, crlfText_append]
  have read : ∀ z, (10 : UInt8) ∉ z → chopCR z = z → ∀ t, feed E s' z = some t →
      readText E (createVCardText E cs ++ crlfText (b! "BEGIN:VCARD" :: ls) ++ z) = some t.out := by
    intro z hz hcr t ht
    rw [text]
    unfold readText fedLines
    rw [physLines_crlf_app _ nL z hz, if_neg (by simp; omega), List.foldlM_append, fL]
    show (([chopCR z] : List QByteArray).foldlM (feed E) s').map RS.out = _
    rw [hcr, List.foldlM_cons, ht]
    rfl
  refine ⟨crlfText (b! "BEGIN:VCARD" :: ls), ?_, ?_, ?_⟩
  · unfold writeCard
    rw [e1]
    have e3 : crlfText (b! "BEGIN:VCARD" :: ls) = b! "BEGIN:VCARD\r\n" ++ crlfText ls := rfl
    have e4 : b! "END:VCARD\r\n\r\n" = b! "END:VCARD\r\n" ++ b! "\r\n" := rfl
    rw [e3, e4]
    simp only [List.append_assoc]
  · rw [read (b! "END:VCARD") (by decide) (by decide) _ (feed_plain E s' _ g2 _ g4 (by decide) (by decide))]
    have h3 : startsWithCI (b! "begin:vcard") (b! "END:VCARD") = false := by decide
    have h4 : startsWithCI (b! "end:vcard") (b! "END:VCARD") = true := by decide
    simp only [RS.mark, h3, h4, g3, List.map_append]
    rfl
  · rw [read (b! "END:VCAR") (by decide) (by decide) _ (feed_plain E s' _ g2 _ g4 (by decide) (by decide))]
    have h3 : startsWithCI (b! "begin:vcard") (b! "END:VCAR") = false := by decide
    have h4 : startsWithCI (b! "end:vcard") (b! "END:VCAR") = false := by decide
    simp only [RS.mark, h3, h4, g3]
    rfl

theorem text_start (E : Codecs) (cs : List VCard) (p : QByteArray) (hp : p <+: createVCardText E cs) : startsWithCI (b! "end:vcard") p = false := by
  cases he : startsWithCI (b! "end:vcard") p with
  | false => rfl
  | true =>
    have he := startsWithCI_mono hp he
    cases cs with
    | nil => cases he
    | cons c cs =>
      rw [startsWithCI_take] at he
      have h1 := congrArg List.head? he
      have e : ∃ t, createVCardText E (c :: cs) = 66 :: t := ⟨_, rfl⟩
      obtain ⟨t, ht⟩ := e
      rw [ht] at h1
      cases h1

theorem createVCardText_append (E : Codecs) (a b : List VCard) : createVCardText E (a ++ b) = createVCardText E a ++ createVCardText E b :=
  List.flatMap_append

/-- Reading the beginning of a written text. -/
theorem readText_cut_written (E : Codecs) (R : VCardLine → Option VCardLine) (cs : List VCard)
    (hL : ∀ c ∈ cs, ∀ l ∈ (writeOrder c).flatMap c.lines, Reads E l (R l)) (k j : Nat)
    (h1 : (createVCardText E (cs.take j)).length ≤ k + 4) (h2 : j < cs.length → k + 4 < (createVCardText E (cs.take (j + 1))).length) :
    readText E ((createVCardText E cs).take k) = readText E (createVCardText E (cs.take j)) := by
  have hLt : ∀ i, ∀ c ∈ cs.take i, ∀ l ∈ (writeOrder c).flatMap c.lines, Reads E l (R l) := fun i c hc => hL c (List.mem_of_mem_take hc)
  have hpT : (createVCardText E cs).take k <+: createVCardText E cs := List.take_prefix _ _
  have hpre : ∀ i, createVCardText E (cs.take i) <+: createVCardText E cs := by
    intro i
    refine ⟨createVCardText E (cs.drop i), ?_⟩
    rw [← createVCardText_append, List.take_append_drop]
  -- no more than the cards whose marker is there
  have upper : ∃ cards, readText E ((createVCardText E cs).take k) = some cards ∧
      cards <+: (cs.take j).map fun c => cardAfter (((writeOrder c).flatMap c.lines).filterMap R) := by
    by_cases hj : j < cs.length
    · have h2 := h2 hj
      obtain ⟨X, eX, -, r2⟩ := cut_last E R (cs.take j) cs[j] (hLt j) (hL _ (List.getElem_mem hj))
      have eT : createVCardText E (cs.take (j + 1)) = createVCardText E (cs.take j) ++ (X ++ b! "END:VCARD\r\n\r\n") := by
        rw [List.take_succ_eq_append_getElem hj, createVCardText_append, ← eX]
        congr 1
        show writeCard E cs[j] ++ [] = _
        rw [List.append_nil]
      have hp2 : createVCardText E (cs.take j) ++ X ++ b! "END:VCAR" <+: createVCardText E cs := by
        refine List.IsPrefix.trans ?_ (hpre (j + 1))
        rw [eT]
        refine ⟨b! "D\r\n\r\n", ?_⟩
        simp only [List.append_assoc]
        rfl
      have hlen : k ≤ (createVCardText E (cs.take j) ++ X ++ b! "END:VCAR").length := by
        rw [eT] at h2
        simp only [List.length_append] at h2 ⊢
        have a1 : (b! "END:VCARD\r\n\r\n").length = 13 := rfl
        have a2 : (b! "END:VCAR").length = 8 := rfl
        omega
      have hp3 : (createVCardText E cs).take k <+: createVCardText E (cs.take j) ++ X ++ b! "END:VCAR" :=
        List.prefix_of_prefix_length_le hpT hp2 (by rw [List.length_take]; omega)
      obtain ⟨q, hq⟩ := hp3
      exact readText_cut (q := q) (.inr (text_start E cs _ hpT)) (by rw [hq]; exact r2)
    · have e : cs.take j = cs := List.take_of_length_le (by omega)
      rw [e]
      refine readText_cut (q := (createVCardText E cs).drop k) (.inr (text_start E cs _ hpT)) ?_
      rw [List.take_append_drop]
      exact reads_text E R cs hL
  obtain ⟨cards, hr, hup⟩ := upper
  -- no fewer
  have lower : (cs.take j).map (fun c => cardAfter (((writeOrder c).flatMap c.lines).filterMap R)) <+: cards := by
    rcases List.eq_nil_or_concat (cs.take j) with e | ⟨a, c, e⟩
    · rw [e]; exact List.nil_prefix
    · rw [List.concat_eq_append] at e
      have hLa := hLt j
      rw [e] at hLa
      obtain ⟨X, eX, r1, -⟩ := cut_last E R a c (fun x hx => hLa x (by simp [hx])) (hLa c (by simp))
      have eT : createVCardText E (cs.take j) = createVCardText E a ++ (X ++ b! "END:VCARD\r\n\r\n") := by
        rw [e, createVCardText_append, ← eX]
        congr 1
        show writeCard E c ++ [] = _
        rw [List.append_nil]
      have hp2 : createVCardText E a ++ X ++ b! "END:VCARD" <+: createVCardText E cs := by
        refine List.IsPrefix.trans ?_ (hpre j)
        rw [eT]
        refine ⟨b! "\r\n\r\n", ?_⟩
        simp only [List.append_assoc]
        rfl
      have hle := hp2.length_le
      have hp3 : createVCardText E a ++ X ++ b! "END:VCARD" <+: (createVCardText E cs).take k := by
        refine List.prefix_of_prefix_length_le hp2 hpT ?_
        rw [eT] at h1
        simp only [List.length_append, List.length_take] at h1 hle ⊢
        have a1 : (b! "END:VCARD\r\n\r\n").length = 13 := rfl
        have a2 : (b! "END:VCARD").length = 9 := rfl
        omega
      obtain ⟨q, hq⟩ := hp3
      obtain ⟨cards', g1, g2⟩ := readText_cut (q := q) (.inr (text_start E cs _ hp2)) (by rw [hq]; exact hr)
      rw [r1] at g1
      obtain rfl := Option.some.inj g1
      rw [e]
      exact g2
  have e : cards = (cs.take j).map fun c => cardAfter (((writeOrder c).flatMap c.lines).filterMap R) :=
    hup.eq_of_length_le lower.length_le
  rw [hr, e, reads_text E R _ (hLt j)]

/-- C95: contacts that the version can carry are written as one text, and the text is cut off after any number of bytes. Reading the rest gives
    exactly the contacts whose end marker is still there, in order, each as in a whole file; nothing is made of the contact in which the cut
    falls. -/
theorem C95 (E : ToolEnv) (v : Version) (ids : IdKind → Nat → QString) (hinj : ∀ k i j, ids k i = ids k j → i = j) (cs : List Contact)
    (hR : ∀ c ∈ cs, Readable E v c) (hu : ∀ c ∈ cs, ∀ i, c.uid ≠ ids .contact i) (k j : Nat) (hj : Complete E v cs k j) :
    ∃ cs', ReadAs E v ids 0 0 0 (cs.take j) cs' ∧
      ∃ n, ∀ fuel ≥ n, parseContacts E ids fuel ((createContacts E v false cs).take k) = .ok cs' := by
  obtain ⟨cs', h1, h2⟩ := parseContacts_back ids hinj (cs.take j) (fun c hc => hR c (List.mem_of_mem_take hc)) (fun c hc => hu c (List.mem_of_mem_take hc))
  refine ⟨cs', h1, ?_⟩
  have hL : ∀ card ∈ cs.map (fun c => cardAfter (contactLines E v false c)), ∀ l ∈ (writeOrder card).flatMap card.lines, Reads E.toCodecs l (readBack l) := by
    intro card hc l hl
    obtain ⟨c, hcc, rfl⟩ := List.mem_map.1 hc
    exact lineFine_reads _ _ (fine_all (hR c hcc).carriable l (mem_flatMap_lines _ _ _ hl))
  have key := readText_cut_written E.toCodecs readBack (cs.map fun c => cardAfter (contactLines E v false c)) hL k j
    (by rw [← List.map_take]; exact hj.within) (by rw [← List.map_take, List.length_map]; exact hj.beyond)
  rw [← List.map_take] at key
  change readText E.toCodecs ((createContacts E v false cs).take k) = readText E.toCodecs (createContacts E v false (cs.take j)) at key
  have hr := reads_text E.toCodecs readBack ((cs.take j).map fun c => cardAfter (contactLines E v false c)) (fun card hc => hL card (by
    rw [List.map_take] at hc; exact List.mem_of_mem_take hc))
  change readText E.toCodecs (createContacts E v false (cs.take j)) = _ at hr
  refine ⟨max ((physLines ((createContacts E v false cs).take k)).length + 2) ((physLines (createContacts E v false (cs.take j))).length + 2), fun fuel hf => ?_⟩
  rw [← h2 fuel (by omega)]
  unfold parseContacts
  rw [parseVCards_of_readText _ _ _ (key.trans hr) fuel (by omega), parseVCards_of_readText _ _ _ hr fuel (by omega)]

/-- Wherever the text is cut, there is such a number of contacts. -/
theorem C95_every_cut (E : ToolEnv) (v : Version) (cs : List Contact) (k : Nat) : ∃ j, Complete E v cs k j := by
  have : ∀ n, ∃ j, j ≤ n ∧ j ≤ cs.length ∧ (createContacts E v false (cs.take j)).length ≤ k + 4 ∧
      (j < n → j < cs.length → k + 4 < (createContacts E v false (cs.take (j + 1))).length) := by
    intro n
    induction n with
    | zero => exact ⟨0, by omega, by omega, by simp [createContacts, createVCardText], by omega⟩
    | succ n ih =>
      obtain ⟨j, a, b, c, d⟩ := ih
      by_cases hjn : j < n
      · exact ⟨j, by omega, b, c, fun _ h => d hjn h⟩
      · by_cases hl : j < cs.length
        · by_cases hk : k + 4 < (createContacts E v false (cs.take (j + 1))).length
          · exact ⟨j, by omega, b, c, fun _ _ => hk⟩
          · exact ⟨j + 1, by omega, by omega, by omega, by omega⟩
        · exact ⟨j, by omega, b, c, fun _ h => absurd h hl⟩
  obtain ⟨j, a, b, c, d⟩ := this (cs.length + 1)
  exact ⟨j, b, c, fun h => d (by omega) h⟩

/-! ### a cut inside a quoted-printable soft line break -/

/-- a card with a note over two lines -/
def softText : QByteArray := b! "BEGIN:VCARD\nNOTE;QUOTED-PRINTABLE:a=\nb\nEND:VCARD\n"

def softLines : List QByteArray := [b! "BEGIN:VCARD", b! "NOTE;QUOTED-PRINTABLE:a=", b! "b"]

theorem soft_round (E : Codecs) (out : List VCard) (m : Nat) :
    areadLoop E softLines (m + 5) { idx := 1, ended := false, currentLine := [], inVCard := true, card := [], out := out } =
    areadLoop E softLines (m + 2) { idx := 1, ended := false, currentLine := [], inVCard := true, card := [], out := out } := by
  have h1 : ∀ m, areadBody E softLines m { idx := 1, ended := false, currentLine := [], inVCard := true, card := [], out := out } =
      some { idx := 1, ended := false, currentLine := b! "NOTE;QUOTED-PRINTABLE:a=", inVCard := true, card := [], out := out } := by
    intro m
    unfold areadBody amarkers
    have e1 : isFolded (softLines.getD 1 []) = false := by decide
    have e2 : isBlank (softLines.getD 1 []) = false := by decide
    have e3 : startsWithCI (b! "begin:vcard") (softLines.getD 1 []) = false := by decide
    have e4 : startsWithCI (b! "end:vcard") (softLines.getD 1 []) = false := by decide
    simp only [e1, e2, e3, e4]
    simp [softLines]
  have h2 : ∀ m, ∃ c, areadBody E softLines (m + 2)
      { idx := 2, ended := false, currentLine := b! "NOTE;QUOTED-PRINTABLE:a=", inVCard := true, card := [], out := out } =
      some { idx := 3, ended := true, currentLine := b! "b", inVCard := true, card := c, out := out } := by
    intro m
    obtain ⟨p, hp, he⟩ := loop_scan
    have e1 : isFolded (softLines.getD 2 []) = false := by decide
    have e2 : isBlank (softLines.getD 2 []) = false := by decide
    have e3 : startsWithCI (b! "begin:vcard") (softLines.getD 2 []) = false := by decide
    have e4 : startsWithCI (b! "end:vcard") (softLines.getD 2 []) = false := by decide
    have e5 : removeEscapes (b! "a=") = b! "a=" := by decide
    have hj : ajoinQP softLines (m + 2) (b! "a=") ⟨2, false, softLines.getD 2 []⟩ = some (b! "ab", ⟨3, true, softLines.getD 2 []⟩) := rfl
    have hpl : aparseLine E softLines (m + 2) (b! "NOTE;QUOTED-PRINTABLE:a=") ⟨2, false, softLines.getD 2 []⟩ =
        some (p.decodeValue E (b! "ab"), ⟨3, true, softLines.getD 2 []⟩) := by
      unfold aparseLine
      rw [hp]
      simp only [he, e5, hj, if_true]
    refine ⟨VCard.addLine [] (p.decodeValue E (b! "ab")), ?_⟩
    unfold areadBody
    simp only [e1, e2, hpl, amarkers, e3, e4]
    simp [softLines]
  have h3 : ∀ m c, areadBody E softLines (m + 1) { idx := 0, ended := false, currentLine := b! "b", inVCard := true, card := c, out := out } =
      some { idx := 0, ended := false, currentLine := [], inVCard := true, card := [], out := out } := by
    intro m c
    have e1 : isFolded (softLines.getD 0 []) = false := by decide
    have e2 : isBlank (softLines.getD 0 []) = false := by decide
    have e3 : startsWithCI (b! "begin:vcard") (softLines.getD 0 []) = true := by decide
    have hs : PL.scan {} (b! "b") = ((PL.scan {} (b! "b")).1, none) := by decide +kernel
    have hpl : aparseLine E softLines (m + 1) (b! "b") ⟨0, false, softLines.getD 0 []⟩ = some ((PL.scan {} (b! "b")).1.line, ⟨0, false, softLines.getD 0 []⟩) := by
      unfold aparseLine
      rw [hs]
    unfold areadBody
    simp only [e1, e2, hpl, amarkers, e3]
    simp
  obtain ⟨c, h2⟩ := h2 (m + 1)
  rw [show m + 5 = (m + 4) + 1 from rfl, areadLoop_step E softLines _ _ _ (by show (1 : Nat) ≠ 3; decide) (h1 _)]
  have n1 : areadNext { idx := 1, ended := false, currentLine := b! "NOTE;QUOTED-PRINTABLE:a=", inVCard := true, card := [], out := out } =
    { idx := 2, ended := false, currentLine := b! "NOTE;QUOTED-PRINTABLE:a=", inVCard := true, card := [], out := out } := rfl
  rw [n1, show m + 4 = (m + 3) + 1 from rfl, areadLoop_step E softLines _ _ _ (by show (2 : Nat) ≠ 3; decide) h2]
  have n2 : areadNext { idx := 3, ended := true, currentLine := b! "b", inVCard := true, card := c, out := out } =
    { idx := 0, ended := false, currentLine := b! "b", inVCard := true, card := c, out := out } := rfl
  rw [n2, show m + 3 = (m + 2) + 1 from rfl, areadLoop_step E softLines _ _ _ (by show (0 : Nat) ≠ 3; decide) (h3 _ _)]
  rfl

theorem soft_forever (E : Codecs) (n : Nat) (out : List VCard) :
    areadLoop E softLines (3 * n + 2) { idx := 1, ended := false, currentLine := [], inVCard := true, card := [], out := out } = none := by
  induction n with
  | zero =>
    have h := soft_round E out
    cases hx : areadLoop E softLines (3 * 0 + 2) { idx := 1, ended := false, currentLine := [], inVCard := true, card := [], out := out } with
    | none => rfl
    | some x =>
      exfalso
      have h1 : ∀ m, areadBody E softLines m { idx := 1, ended := false, currentLine := [], inVCard := true, card := [], out := out } =
          some { idx := 1, ended := false, currentLine := b! "NOTE;QUOTED-PRINTABLE:a=", inVCard := true, card := [], out := out } := by
        intro m
        unfold areadBody amarkers
        have e1 : isFolded (softLines.getD 1 []) = false := by decide
        have e2 : isBlank (softLines.getD 1 []) = false := by decide
        have e3 : startsWithCI (b! "begin:vcard") (softLines.getD 1 []) = false := by decide
        have e4 : startsWithCI (b! "end:vcard") (softLines.getD 1 []) = false := by decide
        simp only [e1, e2, e3, e4]
        simp [softLines]
      rw [show 3 * 0 + 2 = 1 + 1 from rfl, areadLoop_step E softLines _ _ _ (by show (1 : Nat) ≠ 3; decide) (h1 _)] at hx
      simp only [areadLoop] at hx
      split at hx
      · rename_i hi; exact absurd hi (by show ¬ (2 : Nat) = 3; decide)
      · split at hx <;> cases hx
  | succ n ih =>
    rw [show 3 * (n + 1) + 2 = 3 * n + 5 by omega, soft_round]
    exact ih

/-- C95 is false of a cut inside a quoted-printable value with a soft line break: the whole text is read, but reading never ends when the
    text is cut within the line after the break. -/
theorem C95_soft_break_false : ∃ (text : List UInt8) (k : Nat), ∀ E : Codecs,
    (∃ cards, CardsOf E text cards) ∧ ∀ fuel, parseVCards E fuel (text.take k) = none := by
  refine ⟨softText, 38, fun E => ⟨?_, fun fuel => ?_⟩⟩
  · have ne : ∀ l : List UInt8, l.getLast? ≠ some 61 → l.getLast? ≠ some 13 → ¬ EndsInEquals l := by
      intro l h1 h2 ⟨pre, h⟩
      rcases h with rfl | rfl
      · exact h1 (by simp)
      · exact h2 (by simp)
    obtain ⟨cards, h⟩ := C07_terminates_partial E (b! "BEGIN:VCARD\nNOTE;QUOTED-PRINTABLE:a=") (b! "b") (b! "END:VCARD") []
      (by decide) (by decide) (by decide) (fun hb => absurd (hb 98 (by decide)) (by decide)) (ne _ (by decide) (by decide)) (ne _ (by decide) (by decide))
    exact ⟨cards, _, h⟩
  · have e : physLines (softText.take 38) = softLines := by decide +kernel
    rw [parseVCards_eq, e]
    have : aparse E fuel softLines =
      areadLoop E softLines fuel { idx := 0, ended := false, currentLine := [], inVCard := false, card := [], out := [] } := rfl
    rw [this]
    cases h : areadLoop E softLines fuel { idx := 0, ended := false, currentLine := [], inVCard := false, card := [], out := [] } with
    | none => rfl
    | some x =>
      have h1 := areadLoop_mono E softLines fuel _ x (3 * fuel + 3) (by omega) h
      have h0 : ∀ m, areadBody E softLines m { idx := 0, ended := false, currentLine := [], inVCard := false, card := [], out := [] } =
          some { idx := 0, ended := false, currentLine := [], inVCard := true, card := [], out := [] } := by
        intro m
        unfold areadBody amarkers
        have e1 : isFolded (softLines.getD 0 []) = false := by decide
        have e2 : isBlank (softLines.getD 0 []) = false := by decide
        have e3 : startsWithCI (b! "begin:vcard") (softLines.getD 0 []) = true := by decide
        simp only [e1, e2, e3]
        simp
      rw [show 3 * fuel + 3 = (3 * fuel + 2) + 1 from rfl, areadLoop_step E softLines _ _ _ (by show (0 : Nat) ≠ 3; decide) (h0 _)] at h1
      have n0 : areadNext { idx := 0, ended := false, currentLine := [], inVCard := true, card := [], out := [] } =
        { idx := 1, ended := false, currentLine := [], inVCard := true, card := [], out := [] } := rfl
      rw [n0, soft_forever] at h1
      cases h1

/-! ### non-vacuity -/

/-- Two copies of the sample contact, cut within the end marker of the second: the first is read. -/
example (v : Version) : ∃ cs', ReadAs Sample.env v Sample.ids 0 0 0 [Sample.contact] cs' ∧ ∃ n, ∀ fuel ≥ n,
    parseContacts Sample.env Sample.ids fuel
      ((createContacts Sample.env v false [Sample.contact, Sample.contact]).take ((createContacts Sample.env v false [Sample.contact, Sample.contact]).length - 5)) = .ok cs' := by
  refine C95 Sample.env v Sample.ids Sample.ids_inj [Sample.contact, Sample.contact] (by intro c hc; simp at hc; subst hc; exact C24_sample_readable v)
    (by intro c hc; simp at hc; subst hc; exact C24_sample_uid) _ 1 ⟨by decide, ?_, fun _ => ?_⟩
  · cases v <;> decide +kernel
  · cases v <;> decide +kernel

/-- The same, cut right after the end marker of the second: both are read. -/
example (v : Version) : ∃ cs', ReadAs Sample.env v Sample.ids 0 0 0 [Sample.contact, Sample.contact] cs' ∧ ∃ n, ∀ fuel ≥ n,
    parseContacts Sample.env Sample.ids fuel
      ((createContacts Sample.env v false [Sample.contact, Sample.contact]).take ((createContacts Sample.env v false [Sample.contact, Sample.contact]).length - 4)) = .ok cs' := by
  refine C95 Sample.env v Sample.ids Sample.ids_inj [Sample.contact, Sample.contact] (by intro c hc; simp at hc; subst hc; exact C24_sample_readable v)
    (by intro c hc; simp at hc; subst hc; exact C24_sample_uid) _ 2 ⟨by decide, ?_, fun h => absurd h (by decide)⟩
  cases v <;> decide +kernel

/-- A foreign text, cut inside its second card. -/
example : NoSoftBreak (b! "BEGIN:VCARD\nNOTE;QUOTED-PRINTABLE:a=3D\nend:vcard\nBEGIN:VCARD\nFN:b\nEND:VCARD\n") ∧
    endLines ((b! "BEGIN:VCARD\nNOTE;QUOTED-PRINTABLE:a=3D\nend:vcard\nBEGIN:VCARD\nFN:b\nEND:VCARD\n").take 70) = 1 := by
  refine ⟨fun l hl h => ?_, by decide +kernel⟩
  have : ∀ l ∈ logicalLines [] ((linesOf (b! "BEGIN:VCARD\nNOTE;QUOTED-PRINTABLE:a=3D\nend:vcard\nBEGIN:VCARD\nFN:b\nEND:VCARD\n")).map dropCR), l.getLast? ≠ some 61 := by
    decide +kernel
  exact this l hl h.2

/-- The restriction to texts that have a line end before the cut, or do not start with an end marker: a text of one line is read twice. -/
theorem C95_one_line_false : ∃ E : Codecs, CardsOf E (b! "END:VCARD") [[], []] ∧ CardsOf E (b! "END:VCARD\n") [[]] :=
  ⟨Sample.env.toCodecs, cardsOf_readText (by decide +kernel), cardsOf_readText (by decide +kernel)⟩

end KC
