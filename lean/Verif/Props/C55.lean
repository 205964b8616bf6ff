import Verif.Lemmas.ReadLines
import Verif.Spec.Lines
/-
  C55: text without a begin marker produces no contact. False: an end marker alone yields an (empty) contact.
-/
namespace KC
open Spec

/-- The text contains a line starting with the given marker, in upper or lower case. -/
def HasLine (marker : List UInt8) (text : List UInt8) : Prop :=
  ∃ l ∈ linesOf text, (l.map lowerByte).take marker.length = marker

theorem startsWithCI_take (m cur : QByteArray) : startsWithCI m cur = true ↔ (cur.map lowerByte).take m.length = m := by
  have : toLowerB (cur.take m.length) = (cur.map lowerByte).take m.length := by
    unfold toLowerB
    rw [List.map_take]
    rfl
  unfold startsWithCI
  rw [this, beq_iff_eq]

theorem chopCR_prefix (l : QByteArray) : ∃ r, l = chopCR l ++ r := by
  unfold chopCR
  split
  · rename_i h
    unfold chop1
    have hne : l ≠ [] := by intro e; subst e; simp [endsWithChar] at h
    exact ⟨[l.getLast hne], (List.dropLast_concat_getLast hne).symm⟩
  · exact ⟨[], by simp⟩

theorem no_marker {m text : QByteArray} (h : ¬ HasLine m text) : ∀ i, startsWithCI m ((physLines text).getD i []) = true → m = [] := by
  intro i hs
  by_cases hi : i < (rawLines text).length
  · exfalso
    apply h
    have e : (physLines text).getD i [] = chopCR ((rawLines text).getD i []) := getD_map_chop _ _
    rw [e, startsWithCI_take] at hs
    refine ⟨(rawLines text).getD i [], ?_, ?_⟩
    · rw [linesOf_eq, List.getD_eq_getElem?_getD, List.getElem?_eq_getElem hi]; simp
    · obtain ⟨r, hr⟩ := chopCR_prefix ((rawLines text).getD i [])
      rw [hr]
      rw [List.map_append, List.take_append_of_le_length]
      · exact hs
      · have := congrArg List.length hs
        rw [List.length_take] at this
        omega
  · have : (physLines text).getD i [] = [] := by
      rw [List.getD_eq_getElem?_getD, List.getElem?_eq_none]; rfl
      simp [physLines]; omega
    rw [this] at hs
    simpa [startsWithCI, toLowerB] using hs

theorem loop_no_begin (E : Codecs) (lines : List QByteArray)
    (h : ∀ i, startsWithCI (b! "begin:vcard") (lines.getD i []) = false) (n : Nat) (r : AReader) (cards)
    (hr : r.inVCard = false ∧ r.card = [] ∧ ∀ c ∈ r.out, c = []) (hl : areadLoop E lines n r = some cards) :
    ∀ c ∈ cards, c = [] := by
  induction n generalizing r with
  | zero => simp [areadLoop] at hl
  | succ n ih =>
    simp only [areadLoop] at hl
    split at hl
    · simp only [Option.some.injEq] at hl; subst hl; exact hr.2.2
    · cases hb : areadBody E lines n r with
      | none => rw [hb] at hl; simp at hl
      | some r' =>
        rw [hb] at hl
        refine ih (areadNext r') ?_ hl
        show r'.inVCard = false ∧ r'.card = [] ∧ ∀ c ∈ r'.out, c = []
        unfold areadBody at hb
        simp only [hr.1] at hb
        split at hb
        · simp only [Option.some.injEq] at hb; subst hb; exact ⟨rfl, hr.2⟩
        · split at hb
          · simp only [Option.some.injEq] at hb; subst hb; exact hr
          · simp only [Bool.false_eq_true, false_and, if_false, Option.some.injEq] at hb
            subst hb
            unfold amarkers
            rw [h]
            simp only [Bool.false_eq_true, if_false]
            split
            · refine ⟨rfl, rfl, ?_⟩
              intro c hc
              simp only [List.mem_append, List.mem_singleton] at hc
              rcases hc with hc | hc
              · exact hr.2.2 c hc
              · rw [hc]; exact hr.2.1
            · exact hr

theorem amarkers_out (cur : QByteArray) (r : AReader) (h : startsWithCI (b! "end:vcard") cur = false) :
    (amarkers cur r).out = r.out := by
  unfold amarkers
  split
  · rfl
  · rw [h]; rfl

theorem cur_is_line (lines : List QByteArray) (n v a x) (h : ajoinQP lines n v a = some x)
    (ha : ∃ i, a.cur = lines.getD i []) : ∃ i, x.2.cur = lines.getD i [] := by
  induction n generalizing v a with
  | zero => simp [ajoinQP] at h
  | succ n ih =>
    simp only [ajoinQP] at h
    split at h
    · refine ih _ _ h ?_
      unfold afetch
      simp only
      generalize (if a.ended = true then 0 else a.idx + 1) = j
      split
      · exact ⟨_, rfl⟩
      · exact ha
    · simp only [Option.some.injEq] at h; subst h; exact ha

theorem loop_no_end (E : Codecs) (lines : List QByteArray)
    (h : ∀ i, startsWithCI (b! "end:vcard") (lines.getD i []) = false) (n : Nat) (r : AReader) (cards)
    (hr : r.out = []) (hl : areadLoop E lines n r = some cards) : cards = [] := by
  induction n generalizing r with
  | zero => simp [areadLoop] at hl
  | succ n ih =>
    simp only [areadLoop] at hl
    split at hl
    · simp only [Option.some.injEq] at hl; subst hl; exact hr
    · cases hb : areadBody E lines n r with
      | none => rw [hb] at hl; simp at hl
      | some r' =>
        rw [hb] at hl
        refine ih (areadNext r') ?_ hl
        show r'.out = []
        unfold areadBody at hb
        simp only at hb
        split at hb
        · simp only [Option.some.injEq] at hb; subst hb; exact hr
        · split at hb
          · simp only [Option.some.injEq] at hb; subst hb; exact hr
          · split at hb
            · cases hp : aparseLine E lines n r.currentLine ⟨r.idx, r.ended, lines.getD r.idx []⟩ with
              | none => rw [hp] at hb; simp at hb
              | some x =>
                rw [hp] at hb
                simp only [Option.some.injEq] at hb
                subst hb
                have hcur : ∃ i, x.2.cur = lines.getD i [] := by
                  unfold aparseLine at hp
                  cases hsc : PL.scan {} r.currentLine with
                  | mk p o =>
                    rw [hsc] at hp
                    cases o with
                    | none => simp at hp; subst hp; exact ⟨r.idx, by simp⟩
                    | some rest =>
                      simp only at hp
                      split at hp
                      · cases hj : ajoinQP lines n (removeEscapes rest) ⟨r.idx, r.ended, lines.getD r.idx []⟩ with
                        | none => rw [hj] at hp; simp at hp
                        | some y =>
                          rw [hj] at hp
                          simp only [Option.some.injEq] at hp
                          subst hp
                          exact cur_is_line lines n _ _ y hj ⟨r.idx, rfl⟩
                      · simp only [Option.some.injEq] at hp; subst hp; exact ⟨r.idx, rfl⟩
                obtain ⟨i, hi⟩ := hcur
                rw [amarkers_out _ _ (by rw [hi]; exact h i)]
                exact hr
            · simp only [Option.some.injEq] at hb
              subst hb
              rw [amarkers_out _ _ (h _)]
              exact hr

/-- C55, part: text without a begin marker never yields a card with any content: every returned card is empty (has no lines). -/
theorem C55_no_content_without_begin_partial (E : Codecs) (text : List UInt8) (h : ¬ HasLine (b! "begin:vcard") text)
    (fuel : Nat) (cards : List VCard) (hp : parseVCards E fuel text = some cards) : ∀ c ∈ cards, c = [] := by
  rw [parseVCards_eq] at hp
  refine loop_no_begin E _ ?_ fuel _ cards ⟨rfl, rfl, by simp⟩ hp
  intro i
  cases hx : startsWithCI (b! "begin:vcard") ((physLines text).getD i []) with
  | false => rfl
  | true => exact absurd (no_marker h i hx) (by decide)

/-- C55, part: text without an end marker yields no card at all. -/
theorem C55_no_card_without_end_partial (E : Codecs) (text : List UInt8) (h : ¬ HasLine (b! "end:vcard") text)
    (fuel : Nat) (cards : List VCard) (hp : parseVCards E fuel text = some cards) : cards = [] := by
  rw [parseVCards_eq] at hp
  refine loop_no_end E _ ?_ fuel _ cards rfl hp
  intro i
  cases hx : startsWithCI (b! "end:vcard") ((physLines text).getD i []) with
  | false => rfl
  | true => exact absurd (no_marker h i hx) (by decide)

/-- the hypotheses are met by arbitrary text, which is read to its end -/
example (E : Codecs) : parseVCards E 4 (b! "hello:world\nfoo") = some [] := rfl

instance (m t : List UInt8) : Decidable (HasLine m t) := by unfold HasLine; exact inferInstance

example : ¬ HasLine (b! "begin:vcard") (b! "hello:world\nfoo") := by decide

/-- C55 is false of the code: an end marker without a begin marker is returned as an empty card - here even twice, because a text
    without any line feed is processed twice. -/
theorem C55_no_cards_without_begin_false : ∃ text : List UInt8, ¬ HasLine (b! "begin:vcard") text ∧
    ∀ E : Codecs, parseVCards E 5 text = some [[], []] := by
  refine ⟨b! "END:VCARD", by decide, fun E => rfl⟩

end KC
