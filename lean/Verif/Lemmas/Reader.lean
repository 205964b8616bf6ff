import Verif.Model.Parser
import Verif.Spec.Fold
/-
  The reader loop only depends on the list of physical lines: a bisimulation between the loop over byte positions and a loop over
  line numbers.
-/
namespace KC

/-- the lines of a text without their LF -/
abbrev rawLines (text : QByteArray) : List QByteArray := splitOn 10 text

/-- the lines the reader sees: LF and one trailing CR removed -/
def physLines (text : QByteArray) : List QByteArray := (rawLines text).map chopCR

section split
variable {α : Type} [DecidableEq α]

theorem splitOn_ne_nil (sep : α) (s : List α) : splitOn sep s ≠ [] := by
  cases s with
  | nil => simp [splitOn]
  | cons c t =>
    simp only [splitOn]
    split
    · simp
    · split <;> simp

theorem join_splitOn (sep : α) (s : List α) : join [sep] (splitOn sep s) = s := by
  induction s with
  | nil => simp [splitOn, join]
  | cons c t ih =>
    simp only [splitOn]
    split
    · rename_i h
      cases hs : splitOn sep t with
      | nil => exact absurd hs (splitOn_ne_nil sep t)
      | cons a b => rw [hs] at ih; simp [join, ih, h]
    · cases hs : splitOn sep t with
      | nil => exact absurd hs (splitOn_ne_nil sep t)
      | cons a b =>
        rw [hs] at ih
        cases b with
        | nil => simp only [join] at ih ⊢; rw [ih]
        | cons d e => simp only [join] at ih ⊢; simp [← ih]

theorem sep_not_mem_splitOn (sep : α) (s : List α) : ∀ l ∈ splitOn sep s, sep ∉ l := by
  induction s with
  | nil => simp [splitOn]
  | cons c t ih =>
    simp only [splitOn]
    split
    · intro l hl
      simp only [List.mem_cons] at hl
      rcases hl with rfl | hl
      · simp
      · exact ih l hl
    · rename_i hc
      cases hs : splitOn sep t with
      | nil => exact absurd hs (splitOn_ne_nil sep t)
      | cons a b =>
        rw [hs] at ih
        intro l hl
        simp only [List.mem_cons] at hl
        rcases hl with rfl | hl
        · have := ih a (by simp)
          simp [this, Ne.symm hc]
        · exact ih l (by simp [hl])

theorem splitOn_append (sep : α) (l rest : List α) (h : sep ∉ l) :
    splitOn sep (l ++ sep :: rest) = l :: splitOn sep rest := by
  induction l with
  | nil => simp [splitOn]
  | cons c t ih =>
    have hc : c ≠ sep := fun e => h (by simp [e])
    have := ih (fun e => h (by simp [e]))
    simp [splitOn, hc, this]

theorem splitOn_append_sep (sep : α) (a b : List α) : splitOn sep (a ++ sep :: b) = splitOn sep a ++ splitOn sep b := by
  induction a with
  | nil => simp [splitOn]
  | cons c t ih =>
    simp only [List.cons_append, splitOn]
    split
    · rw [ih]; rfl
    · rw [ih]
      cases hs : splitOn sep t with
      | nil => exact absurd hs (splitOn_ne_nil sep t)
      | cons a b => simp

theorem splitOn_of_not_mem (sep : α) (l : List α) (h : sep ∉ l) : splitOn sep l = [l] := by
  induction l with
  | nil => simp [splitOn]
  | cons c t ih =>
    have hc : c ≠ sep := fun e => h (by simp [e])
    have := ih (fun e => h (by simp [e]))
    simp [splitOn, hc, this]

theorem indexOf?_append (sep : α) (l rest : List α) (h : sep ∉ l) : indexOf? sep (l ++ sep :: rest) = some l.length := by
  induction l with
  | nil => simp [indexOf?]
  | cons c t ih =>
    have hc : c ≠ sep := fun e => h (by simp [e])
    have := ih (fun e => h (by simp [e]))
    simp [indexOf?, hc, this]

theorem indexOf?_none (sep : α) (l : List α) (h : sep ∉ l) : indexOf? sep l = none := by
  induction l with
  | nil => simp [indexOf?]
  | cons c t ih =>
    have hc : c ≠ sep := fun e => h (by simp [e])
    have := ih (fun e => h (by simp [e]))
    simp [indexOf?, hc, this]
end split

theorem linesOf_eq (s : QByteArray) : Spec.linesOf s = splitOn 10 s := by
  induction s with
  | nil => rfl
  | cons c t ih =>
    simp only [Spec.linesOf, splitOn, ih]
    split
    · rfl
    · cases splitOn 10 t <;> rfl

/-- byte position where line `i` starts -/
def startOf : List QByteArray → Nat → Nat
  | _, 0 => 0
  | [], _ + 1 => 0
  | l :: ls, i + 1 => l.length + 1 + startOf ls i

theorem drop_startOf (ls : List QByteArray) (i : Nat) (h : i < ls.length) :
    (join [10] ls).drop (startOf ls i) = join [10] (ls.drop i) := by
  induction ls generalizing i with
  | nil => simp at h
  | cons l ls ih =>
    cases i with
    | zero => simp [startOf]
    | succ i =>
      simp only [List.length_cons] at h
      cases ls with
      | nil => simp at h
      | cons m ls =>
        have := ih i (by omega)
        simp only [startOf, join, List.drop_succ_cons]
        rw [← this]
        have e : l ++ [10] ++ join [10] (m :: ls) = (l ++ [10]) ++ join [10] (m :: ls) := by simp
        rw [e, ← List.drop_drop]
        congr 1
        rw [List.drop_append_of_le_length (by simp)]
        simp

theorem length_join (ls : List QByteArray) (h : ls ≠ []) : (join [10] ls).length + 1 = startOf ls ls.length := by
  induction ls with
  | nil => exact absurd rfl h
  | cons l ls ih =>
    cases ls with
    | nil => simp [join, startOf]
    | cons m ls =>
      have := ih (by simp)
      simp only [join, startOf, List.length_append, List.length_cons, List.length_nil] at this ⊢
      omega

theorem startOf_lt (ls : List QByteArray) (i j : Nat) (h : i < j) (hj : j ≤ ls.length) :
    startOf ls i + (ls.getD i []).length + 1 ≤ startOf ls j := by
  induction ls generalizing i j with
  | nil => simp at hj; omega
  | cons l ls ih =>
    cases j with
    | zero => omega
    | succ j =>
      cases i with
      | zero => simp [startOf]
      | succ i =>
        simp only [startOf, List.getD_cons_succ]
        have := ih i j (by omega) (by simp at hj; omega)
        omega

theorem startOf_succ (ls : List QByteArray) (i : Nat) (h : i < ls.length) :
    startOf ls (i + 1) = startOf ls i + (ls.getD i []).length + 1 := by
  induction ls generalizing i with
  | nil => simp at h
  | cons l ls ih =>
    cases i with
    | zero => simp [startOf]
    | succ i =>
      simp only [List.length_cons] at h
      have := ih i (by omega)
      rw [startOf, this]
      simp [startOf]; omega

/-- where line `i` ends (position of its LF, or the end of the text) -/
def endOf (ls : List QByteArray) (i : Nat) : Nat := startOf ls i + (ls.getD i []).length

theorem indexOfI_start (ls : List QByteArray) (hls : ∀ l ∈ ls, (10 : UInt8) ∉ l) (i : Nat) (h : i ≤ ls.length)
    (hne : ls ≠ []) :
    indexOfI (join [10] ls) 10 (startOf ls i) = if i + 1 < ls.length then (endOf ls i : Int) else -1 := by
  unfold indexOfI indexOfFrom?
  simp only [Int.toNat_natCast]
  by_cases hi : i = ls.length
  · subst hi
    have := length_join ls hne
    rw [List.drop_of_length_le (by omega)]
    simp [indexOf?]
  · rw [drop_startOf ls i (by omega)]
    have hi' : i < ls.length := by omega
    have hmem : ls.getD i [] ∈ ls := by
      rw [List.getD_eq_getElem?_getD, List.getElem?_eq_getElem hi']; simp
    have hd : ls.drop i = ls.getD i [] :: ls.drop (i + 1) := by
      rw [List.drop_eq_getElem_cons hi', List.getD_eq_getElem?_getD, List.getElem?_eq_getElem hi']; simp
    rw [hd]
    by_cases hl : i + 1 < ls.length
    · rw [if_pos hl]
      have : ∃ m r, ls.drop (i + 1) = m :: r := by
        cases hh : ls.drop (i + 1) with
        | nil => rw [List.drop_eq_nil_iff] at hh; omega
        | cons m r => exact ⟨m, r, rfl⟩
      obtain ⟨m, r, hmr⟩ := this
      rw [hmr, join]
      have e : ls.getD i [] ++ [10] ++ join [10] (m :: r) = ls.getD i [] ++ 10 :: join [10] (m :: r) := by simp
      rw [e, indexOf?_append _ _ _ (hls _ hmem)]
      simp only [Option.map_some, endOf]; omega
    · rw [if_neg hl]
      have : ls.drop (i + 1) = [] := by rw [List.drop_eq_nil_iff]; omega
      rw [this]
      simp only [join, indexOf?_none _ _ (hls _ hmem), Option.map_none]

theorem midI_line (ls : List QByteArray) (i : Nat) (h : i < ls.length) :
    midI (join [10] ls) (startOf ls i) ((endOf ls i : Int) - startOf ls i) = ls.getD i [] := by
  have e : (endOf ls i : Int) - startOf ls i = ((ls.getD i []).length : Nat) := by unfold endOf; omega
  rw [e]
  unfold midI
  rw [if_neg (by omega)]
  simp only [Int.toNat_natCast]
  rw [drop_startOf ls i h]
  have hd : ls.drop i = ls.getD i [] :: ls.drop (i + 1) := by
    rw [List.drop_eq_getElem_cons h, List.getD_eq_getElem?_getD, List.getElem?_eq_getElem h]; simp
  rw [hd]
  cases ls.drop (i + 1) with
  | nil => simp [join]
  | cons m r => simp [join]

/-- Line-number cursor: `ended` stands for `lineEnd == -1`. -/
structure ACursor where
  idx : Nat
  ended : Bool
  cur : QByteArray

/-- `fetchAnotherLine` on line numbers. -/
def afetch (lines : List QByteArray) (a : ACursor) : QByteArray × ACursor :=
  let i := if a.ended then 0 else a.idx + 1
  if i + 1 < lines.length then (a.cur, ⟨i, false, lines.getD i []⟩) else (a.cur, ⟨i, true, a.cur⟩)

def ajoinQP (lines : List QByteArray) : Nat → QByteArray → ACursor → Option (QByteArray × ACursor)
  | 0, _, _ => none
  | n + 1, value, a =>
    if endsWithChar (c! '=') value then
      ajoinQP lines n (chop1 value ++ (afetch lines a).1) (afetch lines a).2
    else some (value, a)

def aparseLine (E : Codecs) (lines : List QByteArray) (fuel : Nat) (currentLine : QByteArray) (a : ACursor) :
    Option (VCardLine × ACursor) :=
  match PL.scan {} currentLine with
  | (p, none) => some (p.line, a)
  | (p, some rest) =>
    let value := removeEscapes rest
    if p.enc = b! "quoted-printable" then
      match ajoinQP lines fuel value a with
      | none => none
      | some (v, a') => some (p.decodeValue E v, a')
    else some (p.decodeValue E value, a)

/-- Reader state on line numbers. -/
structure AReader where
  idx : Nat
  ended : Bool
  currentLine : QByteArray
  inVCard : Bool
  card : VCard
  out : List VCard

def amarkers (cur : QByteArray) (r : AReader) : AReader :=
  if startsWithCI (b! "begin:vcard") cur then { r with inVCard := true, currentLine := [], card := [] }
  else if startsWithCI (b! "end:vcard") cur then
    { r with inVCard := false, out := r.out ++ [r.card], currentLine := [], card := [] }
  else { r with currentLine := cur }

def areadBody (E : Codecs) (lines : List QByteArray) (fuel : Nat) (r : AReader) : Option AReader :=
  let cur := lines.getD r.idx []
  if isFolded cur then some { r with currentLine := r.currentLine ++ cur.drop 1 }
  else if isBlank cur then some r
  else if r.inVCard ∧ r.currentLine ≠ [] then
    match aparseLine E lines fuel r.currentLine ⟨r.idx, r.ended, cur⟩ with
    | none => none
    | some (l, a) => some (amarkers a.cur { r with idx := a.idx, ended := a.ended, card := r.card.addLine l })
  else some (amarkers cur r)

def areadNext (r : AReader) : AReader := { r with idx := if r.ended then 0 else r.idx + 1, ended := false }

def areadLoop (E : Codecs) (lines : List QByteArray) : Nat → AReader → Option (List VCard)
  | 0, _ => none
  | n + 1, r =>
    if r.idx = lines.length then some r.out
    else match areadBody E lines n r with
      | none => none
      | some r' => areadLoop E lines n (areadNext r')

/-- The reader as a function of the physical lines. -/
def aparse (E : Codecs) (fuel : Nat) (lines : List QByteArray) : Option (List VCard) :=
  areadLoop E lines fuel
    { idx := 0, ended := lines.length ≤ 1, currentLine := [], inVCard := false, card := [], out := [] }

/-! ### The bisimulation -/

/-- `lineEnd` for a line-number cursor -/
def leOf (raw : List QByteArray) (i : Nat) (ended : Bool) : Int := if ended then -1 else endOf raw i

structure CRel (raw : List QByteArray) (σ : Cursor) (a : ACursor) : Prop where
  le : a.idx ≤ raw.length
  hs : σ.lineStart = startOf raw a.idx
  he : σ.lineEnd = leOf raw a.idx a.ended
  hc : σ.cur = a.cur
  hlt : a.ended = false → a.idx < raw.length

structure RRel (raw : List QByteArray) (r : Reader) (a : AReader) : Prop where
  le : a.idx ≤ raw.length
  hs : r.lineStart = startOf raw a.idx
  he : (a.ended = false → a.idx < raw.length) → r.lineEnd = leOf raw a.idx a.ended
  h1 : r.currentLine = a.currentLine
  h2 : r.inVCard = a.inVCard
  h3 : r.card = a.card
  h4 : r.out = a.out

variable {raw : List QByteArray}

theorem getD_map_chop (raw : List QByteArray) (i : Nat) : (raw.map chopCR).getD i [] = chopCR (raw.getD i []) := by
  have : chopCR [] = [] := rfl
  rw [List.getD_eq_getElem?_getD, List.getD_eq_getElem?_getD, List.getElem?_map]
  cases raw[i]? <;> simp [this]

theorem fetch_rel (hne : raw ≠ []) (hls : ∀ l ∈ raw, (10 : UInt8) ∉ l) {σ : Cursor} {a : ACursor} (h : CRel raw σ a) :
    (fetchAnotherLine (join [10] raw) σ).1 = (afetch (raw.map chopCR) a).1 ∧
    CRel raw (fetchAnotherLine (join [10] raw) σ).2 (afetch (raw.map chopCR) a).2 := by
  have hpos : 0 < raw.length := List.length_pos_iff.2 hne
  obtain ⟨i, ended, cur⟩ := a
  have hi : ∃ j, j ≤ raw.length ∧ (if ended then 0 else i + 1) = j ∧ σ.lineEnd + 1 = startOf raw j := by
    refine ⟨if ended then 0 else i + 1, ?_, rfl, ?_⟩
    · have := h.hlt
      cases ended with
      | true => simp
      | false => have := this rfl; simp at this ⊢; omega
    · rw [h.he]
      cases ended with
      | true => simp [leOf, startOf]
      | false =>
        have := h.hlt rfl
        simp only [leOf]
        simp only [Bool.false_eq_true, if_false]
        rw [startOf_succ raw i this]; simp [endOf]
  obtain ⟨j, hj, hji, hjs⟩ := hi
  unfold fetchAnotherLine afetch
  simp only [hji, hjs, List.length_map]
  rw [indexOfI_start raw hls j hj hne]
  have hc : σ.cur = cur := h.hc
  by_cases hl : j + 1 < raw.length
  · simp only [hl, if_true]
    refine ⟨hc, ⟨by show j ≤ _; omega, rfl, rfl, ?_, fun _ => by show j < _; omega⟩⟩
    have : ¬ ((endOf raw j : Int) = -1) := by omega
    simp only [this, ne_eq, not_false_eq_true, if_true]
    rw [midI_line raw j (by omega), getD_map_chop]
  · simp only [hl, if_false]
    exact ⟨hc, ⟨by show j ≤ _; omega, rfl, rfl, by simp [hc], by simp⟩⟩

theorem joinQP_rel (hne : raw ≠ []) (hls : ∀ l ∈ raw, (10 : UInt8) ∉ l) (n : Nat) (v : QByteArray) {σ : Cursor} {a : ACursor}
    (h : CRel raw σ a) :
    (joinQP (join [10] raw) n v σ = none ∧ ajoinQP (raw.map chopCR) n v a = none) ∨
    ∃ v' σ' a', joinQP (join [10] raw) n v σ = some (v', σ') ∧ ajoinQP (raw.map chopCR) n v a = some (v', a') ∧
      CRel raw σ' a' := by
  induction n generalizing v σ a with
  | zero => left; exact ⟨rfl, rfl⟩
  | succ n ih =>
    simp only [joinQP, ajoinQP]
    split
    · obtain ⟨e, hr⟩ := fetch_rel hne hls h
      rw [e]
      exact ih _ hr
    · right; exact ⟨v, σ, a, rfl, rfl, h⟩

theorem parseLine_rel (E : Codecs) (hne : raw ≠ []) (hls : ∀ l ∈ raw, (10 : UInt8) ∉ l) (n : Nat) (v : QByteArray)
    {σ : Cursor} {a : ACursor} (h : CRel raw σ a) :
    (parseLine E (join [10] raw) n v σ = none ∧ aparseLine E (raw.map chopCR) n v a = none) ∨
    ∃ v' σ' a', parseLine E (join [10] raw) n v σ = some (v', σ') ∧ aparseLine E (raw.map chopCR) n v a = some (v', a') ∧
      CRel raw σ' a' := by
  unfold parseLine aparseLine
  cases hsc : PL.scan {} v with
  | mk p o =>
    cases o with
    | none => right; exact ⟨p.line, σ, a, rfl, rfl, h⟩
    | some rest =>
      simp only
      split
      · rcases joinQP_rel hne hls n (removeEscapes rest) h with ⟨h1, h2⟩ | ⟨v', σ', a', h1, h2, h3⟩
        · left; simp [h1, h2]
        · right; exact ⟨p.decodeValue E v', σ', a', by simp [h1], by simp [h2], h3⟩
      · right; exact ⟨_, σ, a, rfl, rfl, h⟩

theorem markers_rel (cur : QByteArray) {r : Reader} {a : AReader} (h : RRel raw r a) :
    RRel raw (markers cur r) (amarkers cur a) ∧ (amarkers cur a).idx = a.idx ∧ (amarkers cur a).ended = a.ended := by
  unfold markers amarkers
  split
  · exact ⟨⟨h.le, h.hs, h.he, rfl, rfl, rfl, h.h4⟩, rfl, rfl⟩
  · split
    · refine ⟨⟨h.le, h.hs, h.he, rfl, rfl, rfl, ?_⟩, rfl, rfl⟩
      show r.out ++ [r.card] = a.out ++ [a.card]
      rw [h.h3, h.h4]
    · exact ⟨⟨h.le, h.hs, h.he, rfl, h.h2, h.h3, h.h4⟩, rfl, rfl⟩

/-- invariant of the loop head: a line is available, and `lineEnd == -1` only for a text of one line -/
def HeadOK (raw : List QByteArray) (a : AReader) : Prop := a.idx < raw.length ∧ (a.ended = true → a.idx = 0 ∧ raw.length = 1)

theorem body_rel (E : Codecs) (hne : raw ≠ []) (hls : ∀ l ∈ raw, (10 : UInt8) ∉ l) (n : Nat)
    {r : Reader} {a : AReader} (h : RRel raw r a) (hh : HeadOK raw a) :
    (readBody E (join [10] raw) n r = none ∧ areadBody E (raw.map chopCR) n a = none) ∨
    ∃ r' a', readBody E (join [10] raw) n r = some r' ∧ areadBody E (raw.map chopCR) n a = some a' ∧
      RRel raw r' a' ∧ (a'.ended = false → a'.idx < raw.length) := by
  have hcur : chopCR (midI (join [10] raw) r.lineStart (r.lineEnd - r.lineStart)) = (raw.map chopCR).getD a.idx [] := by
    rw [getD_map_chop, h.hs, h.he (fun _ => hh.1)]
    unfold leOf
    split
    · rename_i he
      obtain ⟨h0, h1⟩ := hh.2 he
      rw [h0]
      obtain ⟨l, hl⟩ : ∃ l, raw = [l] := by
        cases raw with
        | nil => exact absurd rfl hne
        | cons l t => cases t with
          | nil => exact ⟨l, rfl⟩
          | cons _ _ => simp at h1
      subst hl
      simp [midI, startOf, join]
    · rw [midI_line raw a.idx hh.1]
  unfold readBody areadBody
  simp only [hcur]
  split
  · right
    exact ⟨_, _, rfl, rfl, ⟨h.le, h.hs, h.he, by simp [h.h1], h.h2, h.h3, h.h4⟩, fun _ => hh.1⟩
  · split
    · right; exact ⟨r, a, rfl, rfl, h, fun _ => hh.1⟩
    · rw [h.h1, h.h2]
      split
      · have hc : CRel raw ⟨r.lineStart, r.lineEnd, (raw.map chopCR).getD a.idx []⟩
            ⟨a.idx, a.ended, (raw.map chopCR).getD a.idx []⟩ := ⟨h.le, h.hs, h.he (fun _ => hh.1), rfl, fun _ => hh.1⟩
        rcases parseLine_rel E hne hls n a.currentLine hc with ⟨h1, h2⟩ | ⟨v', σ', a', h1, h2, h3⟩
        · left; simp only [h1, h2]; trivial
        · right
          simp only [h1, h2]
          have hr : RRel raw { r with lineStart := σ'.lineStart, lineEnd := σ'.lineEnd, card := r.card.addLine v' }
              { a with idx := a'.idx, ended := a'.ended, card := a.card.addLine v' } :=
            ⟨h3.le, h3.hs, fun _ => h3.he, h.h1, h.h2, by simp [h.h3], h.h4⟩
          have hm := markers_rel a'.cur hr
          refine ⟨_, _, rfl, rfl, ?_, ?_⟩
          · rw [h3.hc]; have := hm.1; rw [h.h1, h.h2] at this; simpa [h.h1, h.h2] using this
          · intro he
            have e1 := hm.2.1
            have e2 := hm.2.2
            rw [e2] at he
            rw [e1]
            exact h3.hlt he
      · right
        have hm := markers_rel ((raw.map chopCR).getD a.idx []) h
        refine ⟨_, _, rfl, rfl, hm.1, ?_⟩
        intro _; rw [hm.2.1]; exact hh.1

theorem next_rel (hne : raw ≠ []) (hls : ∀ l ∈ raw, (10 : UInt8) ∉ l) {r : Reader} {a : AReader} (h : RRel raw r a)
    (hlt : a.ended = false → a.idx < raw.length) :
    RRel raw (readNext (join [10] raw) r) (areadNext a) ∧
      ((areadNext a).idx < raw.length → HeadOK raw (areadNext a)) := by
  have hpos : 0 < raw.length := List.length_pos_iff.2 hne
  have hj : ∃ j, j ≤ raw.length ∧ (if a.ended then 0 else a.idx + 1) = j ∧ r.lineEnd + 1 = startOf raw j := by
    refine ⟨if a.ended then 0 else a.idx + 1, ?_, rfl, ?_⟩
    · cases he : a.ended with
      | true => simp
      | false => have := hlt he; simp; omega
    · rw [h.he hlt]
      cases he : a.ended with
      | true => simp [leOf, startOf]
      | false =>
        simp only [leOf, Bool.false_eq_true, if_false]
        rw [startOf_succ raw a.idx (hlt he)]; simp [endOf]
  obtain ⟨j, hjle, hji, hjs⟩ := hj
  unfold readNext areadNext
  simp only [hji, hjs]
  rw [indexOfI_start raw hls j hjle hne]
  refine ⟨⟨hjle, rfl, ?_, h.h1, h.h2, h.h3, h.h4⟩, fun hl => ⟨hl, by simp⟩⟩
  intro hlt'
  have hjlt : j < raw.length := hlt' rfl
  simp only [leOf, Bool.false_eq_true, if_false]
  have hlen := length_join raw hne
  by_cases hl : j + 1 < raw.length
  · simp only [hl, if_true]
    rw [if_neg (by omega)]
  · simp only [hl, if_false, if_true]
    have hj1 : j + 1 = raw.length := by omega
    have := startOf_succ raw j (by omega)
    rw [hj1] at this
    unfold endOf
    omega

theorem loop_rel (E : Codecs) (hne : raw ≠ []) (hls : ∀ l ∈ raw, (10 : UInt8) ∉ l) (n : Nat) {r : Reader} {a : AReader}
    (h : RRel raw r a) (hh : a.idx < raw.length → HeadOK raw a) :
    readLoop E (join [10] raw) n r = areadLoop E (raw.map chopCR) n a := by
  induction n generalizing r a with
  | zero => rfl
  | succ n ih =>
    have hlen := length_join raw hne
    simp only [readLoop, areadLoop, List.length_map]
    by_cases hi : a.idx = raw.length
    · have e : r.lineStart = ((join [10] raw).length : Int) + 1 := by rw [h.hs, hi]; omega
      rw [if_pos hi, if_pos e, h.h4]
    · have hlt : a.idx < raw.length := by have := h.le; omega
      rw [if_neg hi, if_neg]
      · rcases body_rel E hne hls n h (hh hlt) with ⟨h1, h2⟩ | ⟨r', a', h1, h2, h3, h4⟩
        · simp only [h1, h2]
        · simp only [h1, h2]
          have := next_rel hne hls h3 h4
          exact ih this.1 this.2
      · rw [h.hs]
        have := startOf_lt raw a.idx raw.length hlt (by omega)
        omega

/-- The reader is a function of the physical lines. -/
theorem parseVCards_eq (E : Codecs) (n : Nat) (text : QByteArray) : parseVCards E n text = aparse E n (physLines text) := by
  have hne := splitOn_ne_nil (10 : UInt8) text
  have hls := sep_not_mem_splitOn (10 : UInt8) text
  have hpos : 0 < (rawLines text).length := List.length_pos_iff.2 hne
  have hi := indexOfI_start (rawLines text) hls 0 (by omega) hne
  have := @loop_rel (rawLines text) E hne hls n
    { lineStart := 0, lineEnd := indexOfI text 10 0, currentLine := [], inVCard := false, card := [], out := [] }
    { idx := 0, ended := (physLines text).length ≤ 1, currentLine := [], inVCard := false, card := [], out := [] }
    ⟨by simp, by simp [startOf], ?_, rfl, rfl, rfl, rfl⟩ ?_
  · rw [join_splitOn] at this
    exact this
  · intro _
    rw [join_splitOn] at hi
    simp only [startOf] at hi
    have e : ((0 : Nat) : Int) = 0 := rfl
    rw [e] at hi
    show indexOfI text 10 0 = _
    rw [hi]
    unfold leOf physLines
    simp only [List.length_map]
    by_cases h : (rawLines text).length ≤ 1
    · rw [if_neg (by omega)]; simp [h]
    · rw [if_pos (by omega)]; simp [h]
  · intro _
    refine ⟨hpos, ?_⟩
    intro h
    simp [physLines] at h
    exact ⟨rfl, by omega⟩

end KC
