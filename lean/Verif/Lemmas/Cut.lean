import Verif.Lemmas.ReadBack
import Verif.Props.C07
import Verif.Props.C55
/-
  Reading a text that is cut off: the physical lines of a prefix, and what the fold over them gives.
-/
namespace KC
open Spec

theorem splitOn_prefix (sep : UInt8) (p q : QByteArray) :
    ∃ I x y rest, splitOn sep p = I ++ [x] ∧ splitOn sep q = y :: rest ∧ splitOn sep (p ++ q) = I ++ (x ++ y) :: rest := by
  induction p with
  | nil =>
    cases h : splitOn sep q with
    | nil => exact absurd h (splitOn_ne_nil sep q)
    | cons y rest => exact ⟨[], [], y, rest, rfl, rfl, by simpa using h⟩
  | cons c t ih =>
    obtain ⟨I, x, y, rest, h1, h2, h3⟩ := ih
    by_cases hc : c = sep
    · refine ⟨[] :: I, x, y, rest, ?_, h2, ?_⟩
      · simp only [splitOn, if_pos hc, h1, List.cons_append]
      · simp only [List.cons_append, splitOn, if_pos hc, h3]
    · cases I with
      | nil =>
        refine ⟨[], c :: x, y, rest, ?_, h2, ?_⟩
        · simp only [splitOn, if_neg hc, h1, List.nil_append]
        · simp only [List.cons_append, splitOn, if_neg hc, h3, List.nil_append]
      | cons i I =>
        refine ⟨(c :: i) :: I, x, y, rest, ?_, h2, ?_⟩
        · simp only [splitOn, if_neg hc, h1, List.cons_append]
        · simp only [List.cons_append, splitOn, if_neg hc, h3]

theorem chopCR_mono (x y : QByteArray) : chopCR x <+: chopCR (x ++ y) := by
  by_cases hy : y = []
  · subst hy; rw [List.append_nil]; exact List.prefix_rfl
  · have h1 : chopCR x <+: x := by obtain ⟨r, hr⟩ := chopCR_prefix x; exact ⟨r, hr.symm⟩
    have h2 : x <+: (x ++ y).dropLast := by rw [List.dropLast_append_of_ne_nil hy]; exact List.prefix_append _ _
    unfold chopCR at h1 ⊢
    by_cases he : endsWithChar 13 (x ++ y) = true
    · rw [if_pos he]; exact h1.trans h2
    · rw [if_neg he]; exact h1.trans (List.prefix_append _ _)

/-- The lines of a text that is cut off: the complete lines, and the beginning of the line in which it ends. -/
theorem physLines_cut (p q : QByteArray) : ∃ I z' z rest, physLines p = I ++ [z'] ∧ physLines (p ++ q) = I ++ z :: rest ∧ z' <+: z := by
  obtain ⟨I, x, y, rest, h1, -, h3⟩ := splitOn_prefix 10 p q
  refine ⟨I.map chopCR, chopCR x, chopCR (x ++ y), rest.map chopCR, ?_, ?_, chopCR_mono x y⟩
  · unfold physLines rawLines; rw [h1, List.map_append]; rfl
  · unfold physLines rawLines; rw [h3, List.map_append]; rfl

theorem mark_out_prefix (cur : QByteArray) (s : RS) : s.out <+: (RS.mark cur s).out := by
  unfold RS.mark
  split
  · exact List.prefix_rfl
  · split
    · exact List.prefix_append _ _
    · exact List.prefix_rfl

theorem feed_out_prefix {E : Codecs} {s t : RS} {cur : QByteArray} (h : feed E s cur = some t) : s.out <+: t.out := by
  unfold feed at h
  split at h
  · obtain rfl := Option.some.inj h; exact List.prefix_rfl
  · split at h
    · obtain rfl := Option.some.inj h; exact List.prefix_rfl
    · split at h
      · split at h
        · cases h
        · rename_i l _
          obtain rfl := Option.some.inj h
          exact mark_out_prefix cur { s with card := s.card.addLine l }
      · obtain rfl := Option.some.inj h; exact mark_out_prefix cur _

theorem fold_out_prefix {E : Codecs} (ls : List QByteArray) {s t : RS} (h : ls.foldlM (feed E) s = some t) : s.out <+: t.out := by
  induction ls generalizing s with
  | nil => obtain rfl := Option.some.inj h; exact List.prefix_rfl
  | cons l ls ih =>
    rw [List.foldlM_cons] at h
    cases hf : feed E s l with
    | none => rw [hf] at h; cases h
    | some u => rw [hf] at h; exact (feed_out_prefix hf).trans (ih h)

theorem startsWithCI_mono {m z' z : QByteArray} (hz : z' <+: z) (h : startsWithCI m z' = true) : startsWithCI m z = true := by
  rw [startsWithCI_take] at h ⊢
  obtain ⟨r, rfl⟩ := hz
  rw [List.map_append, List.take_append_of_le_length]
  · exact h
  · have := congrArg List.length h
    rw [List.length_take] at this
    omega

theorem begin_not_end {cur : QByteArray} (h : startsWithCI (b! "end:vcard") cur = true) : startsWithCI (b! "begin:vcard") cur = false := by
  cases hb : startsWithCI (b! "begin:vcard") cur with
  | false => rfl
  | true =>
    rw [startsWithCI_take] at h hb
    cases cur with
    | nil => cases h
    | cons c t =>
      have h1 := congrArg List.head? h
      have h2 := congrArg List.head? hb
      simp only [List.map_cons] at h1 h2
      have e1 : some (lowerByte c) = some (101 : UInt8) := h1
      have e2 : some (lowerByte c) = some (98 : UInt8) := h2
      rw [e1] at e2
      cases e2

/-- A line that is cut off gives no more than the whole line. -/
theorem feed_cut {E : Codecs} {s t : RS} {z z' : QByteArray} (hz : z' <+: z) (h : feed E s z = some t) :
    ∃ t', feed E s z' = some t' ∧ t'.out <+: t.out := by
  unfold feed
  by_cases h1 : isFolded z' = true
  · rw [if_pos h1]
    exact ⟨{ s with currentLine := s.currentLine ++ z'.drop 1 }, rfl, (feed_out_prefix h : s.out <+: t.out)⟩
  · rw [if_neg h1]
    by_cases h2 : isBlank z' = true
    · rw [if_pos h2]
      exact ⟨_, rfl, feed_out_prefix h⟩
    · rw [if_neg h2]
      have g1 : ¬ isFolded z = true := by
        obtain ⟨r, rfl⟩ := hz
        cases z' with
        | nil => exact absurd (by decide) h2
        | cons c t' => exact h1
      have g2 : ¬ isBlank z = true := by
        rw [isBlank_iff] at h2 ⊢
        intro hb
        exact h2 fun c hc => hb c (hz.subset hc)
      unfold feed at h
      rw [if_neg g1, if_neg g2] at h
      have mk : ∀ q : RS, (RS.mark z' q).out <+: (RS.mark z q).out := by
        intro q
        by_cases he : startsWithCI (b! "end:vcard") z' = true
        · have he' := startsWithCI_mono hz he
          have n1 := begin_not_end he
          have n2 := begin_not_end he'
          unfold RS.mark
          rw [n1, n2, he, he']
          exact List.prefix_rfl
        · have : (RS.mark z' q).out = q.out := by
            unfold RS.mark
            split
            · rfl
            · rfl
          rw [this]
          exact mark_out_prefix z q
      by_cases h3 : s.inVCard = true ∧ s.currentLine ≠ []
      · rw [if_pos h3] at h ⊢
        cases hp : parsePure E s.currentLine with
        | none => rw [hp] at h; cases h
        | some l =>
          rw [hp] at h
          obtain rfl := Option.some.inj h
          exact ⟨_, rfl, mk _⟩
      · rw [if_neg h3] at h ⊢
        obtain rfl := Option.some.inj h
        exact ⟨_, rfl, mk _⟩

theorem physLines_two {p : QByteArray} (h : (10 : UInt8) ∈ p) : ¬ (physLines p).length ≤ 1 := by
  obtain ⟨a, b, rfl⟩ := List.append_of_mem h
  have : splitOn (10 : UInt8) (a ++ 10 :: b) = splitOn 10 a ++ splitOn 10 b := splitOn_append_sep _ _ _
  have h1 := List.length_pos_iff.2 (splitOn_ne_nil (10 : UInt8) a)
  have h2 := List.length_pos_iff.2 (splitOn_ne_nil (10 : UInt8) b)
  simp [physLines, this]; omega

theorem splitOn_none {sep : UInt8} {p : QByteArray} (h : sep ∉ p) : splitOn sep p = [p] := by
  induction p with
  | nil => rfl
  | cons c t ih =>
    simp only [List.mem_cons, not_or] at h
    simp only [splitOn, if_neg (Ne.symm h.1), ih h.2]

theorem not_end_chop {p : QByteArray} (h : startsWithCI (b! "end:vcard") p = false) : startsWithCI (b! "end:vcard") (chopCR p) = false := by
  cases hc : startsWithCI (b! "end:vcard") (chopCR p) with
  | false => rfl
  | true =>
    have : chopCR p <+: p := by obtain ⟨r, hr⟩ := chopCR_prefix p; exact ⟨r, hr.symm⟩
    rw [startsWithCI_mono this hc] at h
    cases h

/-- A text of one line that is not an end marker has no card. -/
theorem readText_one (E : Codecs) (p : QByteArray) (h : (10 : UInt8) ∉ p) (he : startsWithCI (b! "end:vcard") p = false) : readText E p = some [] := by
  have e : physLines p = [chopCR p] := by unfold physLines rawLines; rw [splitOn_none h]; rfl
  have he' := not_end_chop he
  unfold readText fedLines
  rw [e]
  show ((([chopCR p, chopCR p] : List QByteArray).foldlM (feed E) {}).map RS.out) = _
  generalize chopCR p = z at he'
  by_cases h1 : isFolded z = true
  · simp [feed, h1]
  · by_cases h2 : isBlank z = true
    · simp [feed, h1, h2]
    · by_cases hb : startsWithCI (b! "begin:vcard") z = true
      · simp [feed, h1, h2, RS.mark, hb]
      · simp [feed, h1, h2, RS.mark, hb, he']

/-- What is read from the beginning of a text is the beginning of what is read from the text. -/
theorem readText_cut {E : Codecs} {p q : QByteArray} {cards : List VCard} (hs : (10 : UInt8) ∈ p ∨ startsWithCI (b! "end:vcard") p = false)
    (h : readText E (p ++ q) = some cards) : ∃ cards', readText E p = some cards' ∧ cards' <+: cards := by
  by_cases hlf : (10 : UInt8) ∈ p
  · obtain ⟨I, z', z, rest, e1, e2, hz⟩ := physLines_cut p q
    have l1 := physLines_two hlf
    have l2 := physLines_two (List.mem_append_left q hlf)
    unfold readText fedLines at h ⊢
    rw [if_neg l2, e2, List.foldlM_append] at h
    rw [if_neg l1, e1, List.foldlM_append]
    cases hI : I.foldlM (feed E) {} with
    | none => rw [hI] at h; cases h
    | some s =>
      rw [hI] at h
      change ((z :: rest).foldlM (feed E) s).map RS.out = _ at h
      rw [List.foldlM_cons] at h
      cases hf : feed E s z with
      | none => rw [hf] at h; cases h
      | some t =>
        rw [hf] at h
        change (rest.foldlM (feed E) t).map RS.out = _ at h
        cases hr : rest.foldlM (feed E) t with
        | none => rw [hr] at h; cases h
        | some u =>
          rw [hr] at h
          obtain rfl := Option.some.inj h
          obtain ⟨t', g1, g2⟩ := feed_cut hz hf
          refine ⟨t'.out, ?_, g2.trans (fold_out_prefix rest hr)⟩
          show (([z'] : List QByteArray).foldlM (feed E) s).map RS.out = _
          rw [List.foldlM_cons, g1]
          rfl
  · exact ⟨[], readText_one E p hlf (hs.resolve_left hlf), List.nil_prefix⟩

/-! ### How many cards -/

def isEndLine (l : QByteArray) : Bool := startsWithCI (b! "end:vcard") l

theorem end_not_blank {cur : QByteArray} (h : startsWithCI (b! "end:vcard") cur = true) : isFolded cur = false ∧ isBlank cur = false := by
  rw [startsWithCI_take] at h
  cases cur with
  | nil => cases h
  | cons c t =>
    have h1 := congrArg List.head? h
    have e1 : some (lowerByte c) = some (101 : UInt8) := h1
    have hc : lowerByte c = 101 := Option.some.inj e1
    constructor
    · cases hf : isFolded (c :: t) with
      | false => rfl
      | true =>
        have : c = 32 ∨ c = 9 := by simpa [isFolded] using hf
        rcases this with rfl | rfl <;> cases hc
    · cases hf : isBlank (c :: t) with
      | false => rfl
      | true =>
        rw [isBlank_iff] at hf
        have := hf c (by simp)
        rcases this with rfl | ⟨h1, h2⟩
        · cases hc
        · exfalso
          have : lowerByte c = c := by
            unfold lowerByte
            rw [if_neg]
            intro ⟨h3, _⟩
            have : (65 : UInt8) ≤ 13 := UInt8.le_trans h3 h2
            exact absurd this (by decide)
          rw [this] at hc
          subst hc
          exact absurd h2 (by decide)

theorem feed_count {E : Codecs} {s t : RS} {cur : QByteArray} (h : feed E s cur = some t) :
    t.out.length = s.out.length + (if isEndLine cur then 1 else 0) := by
  have mk : ∀ q : RS, (RS.mark cur q).out.length = q.out.length + (if isEndLine cur then 1 else 0) := by
    intro q
    unfold isEndLine
    by_cases he : startsWithCI (b! "end:vcard") cur = true
    · unfold RS.mark
      rw [begin_not_end he, he]
      simp
    · unfold RS.mark
      rw [if_neg (h := _) he]
      split <;> simp [he]
  unfold feed at h
  split at h
  · rename_i hf
    obtain rfl := Option.some.inj h
    have : isEndLine cur = false := by
      cases he : isEndLine cur with
      | false => rfl
      | true => have := (end_not_blank he).1; rw [this] at hf; cases hf
    simp [this]
  · split at h
    · rename_i hf
      obtain rfl := Option.some.inj h
      have : isEndLine cur = false := by
        cases he : isEndLine cur with
        | false => rfl
        | true => have := (end_not_blank he).2; rw [this] at hf; cases hf
      simp [this]
    · split at h
      · split at h
        · cases h
        · obtain rfl := Option.some.inj h; exact mk _
      · obtain rfl := Option.some.inj h; exact mk _

theorem fold_count {E : Codecs} (ls : List QByteArray) {s t : RS} (h : ls.foldlM (feed E) s = some t) :
    t.out.length = s.out.length + (ls.filter isEndLine).length := by
  induction ls generalizing s with
  | nil => obtain rfl := Option.some.inj h; rfl
  | cons l ls ih =>
    rw [List.foldlM_cons] at h
    cases hf : feed E s l with
    | none => rw [hf] at h; cases h
    | some u =>
      rw [hf] at h
      rw [ih h, feed_count hf, List.filter_cons]
      split <;> simp <;> omega

theorem isEnd_chop (l : QByteArray) : isEndLine (chopCR l) = ((l.map lowerByte).take 9 = b! "end:vcard") := by
  have h : (startsWithCI (b! "end:vcard") l = true) ↔ (l.map lowerByte).take 9 = b! "end:vcard" := startsWithCI_take (b! "end:vcard") l
  rw [← h]
  apply propext
  constructor
  · intro hc
    have : chopCR l <+: l := by obtain ⟨r, hr⟩ := chopCR_prefix l; exact ⟨r, hr.symm⟩
    exact startsWithCI_mono this hc
  · intro hl
    unfold isEndLine chopCR
    split
    · rename_i hcr
      rw [startsWithCI_take] at hl ⊢
      have hne : l ≠ [] := by intro e; subst e; cases hcr
      have hd : l = chop1 l ++ [13] := by
        have : l.getLast? = some 13 := by simpa [endsWithChar] using hcr
        unfold chop1
        obtain ⟨ys, hys⟩ := List.getLast?_eq_some_iff.1 this
        rw [hys]; simp
      rw [hd, List.map_append] at hl
      by_cases hlen : 9 ≤ (chop1 l).length
      · rw [List.take_append_of_le_length (by simpa using hlen)] at hl
        exact hl
      · exfalso
        rw [List.take_append] at hl
        have hl' := congrArg List.getLast? hl
        have hz : ∃ m, 9 - (chop1 l).length = m + 1 := ⟨9 - (chop1 l).length - 1, by omega⟩
        obtain ⟨m, hm⟩ := hz
        have hlen9 : (b! "end:vcard").length = 9 := rfl
        simp only [List.length_map, hlen9, hm, List.map_cons, List.map_nil, List.take_succ_cons, List.take_nil, List.getLast?_append, List.getLast?_singleton, Option.some_or] at hl'
        cases hl'
    · exact hl

/-- Reading gives one card for every line that starts with an end marker. -/
theorem readText_count {E : Codecs} {t : QByteArray} {cards : List VCard} (hs : (10 : UInt8) ∈ t ∨ startsWithCI (b! "end:vcard") t = false)
    (h : readText E t = some cards) :
    cards.length = ((linesOf t).filter fun l => decide ((l.map lowerByte).take 9 = b! "end:vcard")).length := by
  have key : ((physLines t).filter isEndLine).length = ((linesOf t).filter fun l => decide ((l.map lowerByte).take 9 = b! "end:vcard")).length := by
    rw [linesOf_eq]
    unfold physLines rawLines
    rw [List.filter_map, List.length_map]
    congr 1
    apply List.filter_congr
    intro l _
    rw [Bool.eq_iff_iff, decide_eq_true_iff]
    show isEndLine (chopCR l) = true ↔ _
    rw [isEnd_chop]
  rw [← key]
  by_cases hlf : (10 : UInt8) ∈ t
  · have l1 := physLines_two hlf
    unfold readText fedLines at h
    rw [if_neg l1] at h
    cases hr : (physLines t).foldlM (feed E) {} with
    | none => rw [hr] at h; cases h
    | some u =>
      rw [hr] at h
      obtain rfl := Option.some.inj h
      rw [fold_count _ hr]
      simp
  · have he := hs.resolve_left hlf
    rw [readText_one E t hlf he] at h
    obtain rfl := Option.some.inj h
    have e : physLines t = [chopCR t] := by unfold physLines rawLines; rw [splitOn_none hlf]; rfl
    rw [e, List.filter_cons, show isEndLine (chopCR t) = false from not_end_chop he]
    rfl

end KC
