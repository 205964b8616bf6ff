import Verif.Lemmas.Messaging
import Verif.Props.C58
/-
  C65. The order of the properties in a vCard
-/
namespace KC
namespace Spec

/-- A property as it stands in a text: its first physical line and its continuation lines. -/
structure WrittenProperty where
  first : List UInt8
  rest : List (List UInt8)

/-- the text of one vCard: BEGIN, the properties, END, every line ended by CR LF -/
def cardText (ps : List WrittenProperty) : List UInt8 :=
  ((b! "BEGIN:VCARD" :: ps.flatMap fun p => p.first :: p.rest) ++ [b! "END:VCARD"]).flatMap (· ++ [13, 10])

/-- the unfolded line: the first character of every continuation line is dropped -/
def WrittenProperty.unfolded (p : WrittenProperty) : List UInt8 := p.first ++ p.rest.flatMap (·.drop 1)

/-- A line starts with something other than white space, it is not one of the markers, continuation lines start with a blank or a
    tab, no line contains a line feed, and a property that mentions "quoted-printable" does not end in the '=' of a soft line break. -/
structure WrittenProperty.Good (p : WrittenProperty) : Prop where
  start : ∃ c t, p.first = c :: t ∧ c ≠ 32 ∧ ¬ (9 ≤ c ∧ c ≤ 13)
  nobegin : (p.first.map lowerByte).take 11 ≠ b! "begin:vcard"
  noend : (p.first.map lowerByte).take 9 ≠ b! "end:vcard"
  oneLine : 10 ∉ p.first
  folded : ∀ l ∈ p.rest, (l.head? = some 32 ∨ l.head? = some 9) ∧ 10 ∉ l
  nosoft : ¬ (MentionsQP p.unfolded ∧ p.unfolded.getLast? = some (c! '='))

/-- what stands before the first ':' or ';' -/
def WrittenProperty.head (p : WrittenProperty) : List UInt8 := p.unfolded.takeWhile fun c => c ≠ c! ':' ∧ c ≠ c! ';'

/-- The name of a property: what stands between the last '.' (the end of the group) and the first ':' or ';'. Without ':' and ';' the line
    has no name. -/
def WrittenProperty.name (p : WrittenProperty) : List UInt8 :=
  if c! ':' ∈ p.unfolded ∨ c! ';' ∈ p.unfolded then (p.head.reverse.takeWhile (· ≠ c! '.')).reverse else []

/-- the names the library knows -/
def knownNames : List (List UInt8) :=
  [b! "adr", b! "anniversary", b! "bday", b! "deathdate", b! "categories", b! "fburl", b! "caladruri", b! "caluri", b! "impp",
   b! "class", b! "gender", b! "lang", b! "email", b! "kind",
   b! "fn", b! "geo", b! "key", b! "label", b! "logo", b! "mailer", b! "n", b! "name", b! "nickname",
   b! "note", b! "org", b! "photo", b! "prodid", b! "rev", b! "role", b! "sort-string",
   b! "sound", b! "tel", b! "title", b! "tz", b! "uid", b! "url", b! "source", b! "member", b! "related", b! "clientpidmap"]

/-- A property without a group whose name, in any case, is neither known nor starts with "x-". -/
def WrittenProperty.Unknown (p : WrittenProperty) : Prop :=
  c! '.' ∉ p.head ∧ (∀ k ∈ knownNames, p.name.map lowerByte ≠ k) ∧ (p.name.map lowerByte).take 2 ≠ b! "x-"

end Spec
open Spec

/-! ### The parsed line -/

/-- the line object made from an unfolded line -/
def lineOf (E : Codecs) (L : QByteArray) : VCardLine :=
  match PL.scan {} L with
  | (p, none) => p.line
  | (p, some rest) => p.decodeValue E (removeEscapes rest)

theorem parsePure_lineOf (E : Codecs) (L : QByteArray) (h : ¬ (MentionsQP L ∧ L.getLast? = some (c! '='))) : parsePure E L = some (lineOf E L) := by
  have hn : parsePure E L ≠ none := fun hn => h (parsePure_none hn)
  revert hn
  unfold parsePure lineOf
  cases hs : PL.scan {} L with
  | mk p o =>
    cases o with
    | none => exact fun _ => rfl
    | some rest =>
      simp only
      split
      · exact fun hn => absurd rfl hn
      · exact fun _ => rfl

theorem decodeValue_id (E : Codecs) (p : PL) (v : QByteArray) : (p.decodeValue E v).identifier = p.line.identifier ∧ (p.decodeValue E v).group = p.line.group := by
  unfold PL.decodeValue
  simp only
  split
  · split <;> exact ⟨rfl, rfl⟩
  · split <;> exact ⟨rfl, rfl⟩

/-- behind the name the name and the group stay -/
theorem step_id (p : PL) (c : UInt8) (h : p.st ≠ .initial) : (p.step c).st ≠ .initial ∧ (p.step c).line.identifier = p.line.identifier ∧ (p.step c).line.group = p.line.group := by
  unfold PL.step
  cases hs : p.st with
  | initial => exact absurd hs h
  | paramKey => simp only; (repeat' split) <;> simp_all [PL.addParameter, VCardLine.addParameter]
  | quotedValue => simp only; (repeat' split) <;> simp_all [PL.addParameter, VCardLine.addParameter]
  | paramValue => simp only; (repeat' split) <;> simp_all [PL.addParameter, VCardLine.addParameter]
  | afterParamValue => simp only; (repeat' split) <;> simp_all [PL.addParameter, VCardLine.addParameter]
  | value => simp_all

theorem scan_id (p : PL) (L : QByteArray) (h : p.st ≠ .initial) : (PL.scan p L).1.line.identifier = p.line.identifier ∧ (PL.scan p L).1.line.group = p.line.group := by
  induction L generalizing p with
  | nil => exact ⟨rfl, rfl⟩
  | cons c t ih =>
    obtain ⟨h1, h2, h3⟩ := step_id p c h
    rw [PL.scan]
    split
    · exact ⟨h2, h3⟩
    · obtain ⟨a, b⟩ := ih _ h1
      exact ⟨a.trans h2, b.trans h3⟩

theorem lineOf_id (E : Codecs) (L : QByteArray) : (lineOf E L).identifier = (PL.scan {} L).1.line.identifier ∧ (lineOf E L).group = (PL.scan {} L).1.line.group := by
  unfold lineOf
  cases hs : PL.scan {} L with
  | mk p o =>
    cases o with
    | none => exact ⟨rfl, rfl⟩
    | some rest => exact decodeValue_id E p _

theorem takeWhile_self {α : Type} (P : α → Bool) (l : List α) (h : ∀ x ∈ l, P x = true) : l.takeWhile P = l := by
  induction l with
  | nil => rfl
  | cons x l ih => rw [List.takeWhile_cons_of_pos (h x (by simp)), ih fun y hy => h y (List.mem_cons_of_mem _ hy)]

/-- the part of the scanned bytes behind the last '.', with the bytes collected before -/
def lastPart (tok : QByteArray) : QByteArray → QByteArray
  | [] => tok
  | c :: t => if c = c! '.' then lastPart [] t else lastPart (tok ++ [c]) t

theorem lastPart_eq (h tok : QByteArray) (ht : c! '.' ∉ tok) : lastPart tok h = ((tok ++ h).reverse.takeWhile (· ≠ c! '.')).reverse := by
  induction h generalizing tok with
  | nil =>
    rw [lastPart, List.append_nil, takeWhile_self]
    · simp
    · intro c hc
      simp only [ne_eq, decide_not, Bool.not_eq_true', decide_eq_false_iff_not]
      intro e
      exact ht (e ▸ List.mem_reverse.1 hc)
  | cons c t ih =>
    rw [lastPart]
    split
    · rename_i e
      rw [ih [] (by simp), List.nil_append]
      subst e
      rw [List.reverse_append, List.reverse_cons, List.append_assoc]
      congr 1
      by_cases hd : c! '.' ∈ t
      · rw [List.takeWhile_append, if_neg]
        intro e
        have h2 := (List.takeWhile_prefix (p := fun x : UInt8 => decide (x ≠ c! '.')) (l := t.reverse)).eq_of_length e
        have h3 : c! '.' ∈ t.reverse.takeWhile fun x => decide (x ≠ c! '.') := by rw [h2]; exact List.mem_reverse.2 hd
        have h4 : ∀ l : QByteArray, c! '.' ∉ l.takeWhile fun x => decide (x ≠ c! '.') := by
          intro l
          induction l with
          | nil => simp
          | cons x l ih =>
            rw [List.takeWhile_cons]
            split
            · rename_i hx
              intro hm
              rcases List.mem_cons.1 hm with e | e
              · rw [← e] at hx; simp at hx
              · exact ih e
            · simp
        exact h4 _ h3
      · have hall : ∀ x ∈ t.reverse, decide (x ≠ c! '.') = true := by
          intro x hx
          simp only [ne_eq, decide_not, Bool.not_eq_true', decide_eq_false_iff_not]
          rintro rfl
          exact hd (List.mem_reverse.1 hx)
        rw [List.takeWhile_append_of_pos hall, takeWhile_self _ _ hall]
        simp
    · rename_i hc
      rw [ih _ (by simp [ht]; exact fun e => hc e.symm)]
      simp

theorem scan_propertyName (p : PL) (hp : p.st = .initial) (L : QByteArray) :
    (PL.scan p L).1.line.identifier =
      (if c! ':' ∈ L ∨ c! ';' ∈ L then fromLatin1 (lastPart p.tok (L.takeWhile fun c => c ≠ c! ':' ∧ c ≠ c! ';')) else p.line.identifier) ∧
    ((c! '.') ∉ (L.takeWhile fun c => c ≠ c! ':' ∧ c ≠ c! ';') → (PL.scan p L).1.line.group = p.line.group) := by
  induction L generalizing p with
  | nil => simp [PL.scan]
  | cons c t ih =>
    rw [PL.scan]
    by_cases h1 : c = c! ';'
    · subst h1
      have hst : p.step (c! ';') = { p with line := { p.line with identifier := fromLatin1 p.tok }, tok := [], st := .paramKey } := by
        simp [PL.step, hp]
      rw [hst, if_neg (by simp)]
      obtain ⟨a, b⟩ := scan_id { p with line := { p.line with identifier := fromLatin1 p.tok }, tok := [], st := .paramKey } t (by simp)
      rw [a, b]
      simp [lastPart]
    · by_cases h2 : c = c! ':'
      · subst h2
        have hst : p.step (c! ':') = { p with line := { p.line with identifier := fromLatin1 p.tok }, tok := [], st := .value } := by
          simp [PL.step, hp]
        rw [hst, if_pos rfl]
        simp [lastPart]
      · have htw : List.takeWhile (fun c => decide (c ≠ c! ':' ∧ c ≠ c! ';')) (c :: t) = c :: List.takeWhile (fun c => decide (c ≠ c! ':' ∧ c ≠ c! ';')) t := by
          rw [List.takeWhile_cons_of_pos (by simp [h1, h2])]
        have hmem : (c! ':' ∈ c :: t ∨ c! ';' ∈ c :: t) ↔ (c! ':' ∈ t ∨ c! ';' ∈ t) := by
          simp only [List.mem_cons]
          constructor
          · rintro ((e | e) | (e | e))
            · exact absurd e.symm h2
            · exact .inl e
            · exact absurd e.symm h1
            · exact .inr e
          · rintro (e | e)
            · exact .inl (.inr e)
            · exact .inr (.inr e)
        rw [htw, lastPart]
        simp only [hmem]
        by_cases h3 : c = c! '.'
        · subst h3
          have hst : p.step (c! '.') = { p with line := { p.line with group := fromLatin1 p.tok }, tok := [] } := by
            simp [PL.step, hp]
          rw [hst, if_neg (by simp [hp])]
          obtain ⟨a, b⟩ := ih { p with line := { p.line with group := fromLatin1 p.tok }, tok := [] } hp
          rw [a]
          simp
        · have hst : p.step c = { p with tok := p.tok ++ [c] } := by
            simp [PL.step, hp, h1, h2, h3]
          rw [hst, if_neg (by simp [hp])]
          obtain ⟨a, b⟩ := ih { p with tok := p.tok ++ [c] } hp
          rw [a, if_neg h3]
          refine ⟨rfl, fun hd => b fun hm => hd (List.mem_cons_of_mem _ hm)⟩

theorem lineOf_name (E : Codecs) (p : WrittenProperty) : (lineOf E p.unfolded).identifier = fromLatin1 p.name := by
  rw [(lineOf_id E _).1, (scan_propertyName {} rfl _).1]
  unfold WrittenProperty.name WrittenProperty.head
  split
  · rw [lastPart_eq _ _ (by simp)]
    rfl
  · rfl

theorem fromLatin1_inj {a b : QByteArray} (h : fromLatin1 a = fromLatin1 b) : a = b := by
  rw [← toLatin1_fromLatin1 a, h, toLatin1_fromLatin1]

/-! ### Reading the text -/

theorem feed_property (E : Codecs) (p : WrittenProperty) (hg : p.Good) (s : RS) (hi : s.inVCard = true) (c : VCard) (ha : absorb E s = some c) :
    (p.first :: p.rest).foldlM (feed E) s = some { currentLine := p.unfolded, inVCard := true, card := c, out := s.out } := by
  obtain ⟨c0, r, hh, hw1, hw2⟩ := hg.start
  obtain ⟨f1, f2⟩ := goodStart_line (r := r) hw1 hw2
  have f := feed_plain E s p.first hi c ha (by rw [hh]; exact f1) (by rw [hh]; exact f2)
  have hm : RS.mark p.first { s with card := c } = { currentLine := p.first, inVCard := true, card := c, out := s.out } := by
    unfold RS.mark
    rw [if_neg, if_neg]
    · simp [hi]
    · rw [startsWithCI_take]; exact hg.noend
    · rw [startsWithCI_take]; exact hg.nobegin
  rw [List.foldlM_cons, f, hm]
  show p.rest.foldlM (feed E) _ = _
  unfold WrittenProperty.unfolded
  have hf := hg.folded
  generalize p.first = cl
  generalize p.rest = ls at hf
  induction ls generalizing cl with
  | nil => simp
  | cons l ls ih =>
    rw [List.foldlM_cons]
    have hfo : isFolded l = true := by
      unfold isFolded
      rcases (hf l (by simp)).1 with e | e <;> rw [e] <;> rfl
    have : feed E { currentLine := cl, inVCard := true, card := c, out := s.out } l =
        some { currentLine := cl ++ l.drop 1, inVCard := true, card := c, out := s.out } := by
      unfold feed; rw [if_pos hfo]
    rw [this]
    show ls.foldlM (feed E) _ = _
    rw [ih _ fun x hx => hf x (List.mem_cons_of_mem _ hx)]
    simp

theorem feed_properties (E : Codecs) (ps : List WrittenProperty) (hg : ∀ p ∈ ps, p.Good) (s : RS) (hi : s.inVCard = true) (c : VCard)
    (ha : absorb E s = some c) : ∃ s', (ps.flatMap fun p => p.first :: p.rest).foldlM (feed E) s = some s' ∧ s'.inVCard = true ∧ s'.out = s.out ∧
      absorb E s' = some ((ps.map fun p => lineOf E p.unfolded).foldl VCard.addLine c) := by
  induction ps generalizing s c with
  | nil => exact ⟨s, rfl, hi, rfl, ha⟩
  | cons p ps ih =>
    rw [List.flatMap_cons, List.foldlM_append, feed_property E p (hg p (by simp)) s hi c ha]
    have hne : p.unfolded ≠ [] := by
      obtain ⟨c0, r, hh, _⟩ := (hg p (by simp)).start
      unfold WrittenProperty.unfolded
      rw [hh]; simp
    obtain ⟨s', h1, h2, h3, h4⟩ := ih (fun q hq => hg q (List.mem_cons_of_mem _ hq))
      { currentLine := p.unfolded, inVCard := true, card := c, out := s.out } rfl (c.addLine (lineOf E p.unfolded)) (by
        unfold absorb
        rw [if_pos hne, parsePure_lineOf E _ (hg p (by simp)).nosoft]
        rfl)
    exact ⟨s', h1, h2, h3, h4⟩

theorem cardText_cards (E : Codecs) (ps : List WrittenProperty) (hg : ∀ p ∈ ps, p.Good) :
    ∃ n, ∀ m ≥ n, parseVCards E m (cardText ps) = some [cardAfter (ps.map fun p => lineOf E p.unfolded)] := by
  have hlf : ∀ l ∈ (b! "BEGIN:VCARD" :: ps.flatMap fun p => p.first :: p.rest) ++ [b! "END:VCARD"], (10 : UInt8) ∉ l := by
    intro l hl
    simp only [List.cons_append, List.mem_cons, List.mem_append, List.mem_flatMap, List.not_mem_nil, or_false] at hl
    rcases hl with rfl | ⟨p, hp, rfl | hr⟩ | rfl
    · decide
    · exact (hg p hp).oneLine
    · exact ((hg p hp).folded l hr).2
    · decide
  have hpl := physLines_crlfText _ hlf
  refine ⟨_, fun m hm => parseVCards_of_readText E _ _ ?_ m hm⟩
  unfold readText
  have e : cardText ps = crlfText ((b! "BEGIN:VCARD" :: ps.flatMap fun p => p.first :: p.rest) ++ [b! "END:VCARD"]) := rfl
  rw [e, hpl]
  unfold fedLines
  rw [if_neg (by simp)]
  rw [List.append_assoc, List.cons_append, List.foldlM_cons]
  have hb : feed E {} (b! "BEGIN:VCARD") = some { currentLine := [], inVCard := true, card := [], out := [] } := by
    unfold feed
    rw [if_neg (by decide), if_neg (by decide), if_neg (by simp)]
    unfold RS.mark
    rw [if_pos (by decide)]
  rw [hb]
  show ((_ ++ _ : List QByteArray).foldlM (feed E) _).map RS.out = _
  obtain ⟨s', h1, h2, h3, h4⟩ := feed_properties E ps hg { currentLine := [], inVCard := true, card := [], out := [] } rfl [] rfl
  rw [List.foldlM_append, h1]
  show (([b! "END:VCARD"] ++ [[]] : List QByteArray).foldlM (feed E) s').map RS.out = _
  have he := feed_plain E s' (b! "END:VCARD") h2 _ h4 (by decide) (by decide)
  have hme : RS.mark (b! "END:VCARD") { s' with card := (ps.map fun p => lineOf E p.unfolded).foldl VCard.addLine [] } =
      { currentLine := [], inVCard := false, card := [], out := [(ps.map fun p => lineOf E p.unfolded).foldl VCard.addLine []] } := by
    unfold RS.mark
    rw [if_neg (by decide), if_pos (by decide), h3]
    rfl
  rw [List.cons_append, List.foldlM_cons, he, hme]
  rfl

/-! ### Order -/

theorem cardAfter_eq (A B : List VCardLine) (h : ∀ n, (A.filter fun l => l.identifier = n) = B.filter fun l => l.identifier = n) : cardAfter A = cardAfter B := by
  apply SMap.ext_find (cardAfter_sorted A) (cardAfter_sorted B)
  intro k
  rw [card_find, card_find, h k]

theorem filter_lineOf (E : Codecs) (ps : List WrittenProperty) (k : QString) :
    ((ps.map fun p => lineOf E p.unfolded).filter fun l => l.identifier = k) = (ps.filter fun p => fromLatin1 p.name = k).map fun p => lineOf E p.unfolded := by
  rw [List.filter_map]
  congr 1
  apply List.filter_congr
  intro p _
  simp only [Function.comp, lineOf_name]

/-- **C65.** Two texts of a vCard with the same properties, in which the properties of each name stand in the same order, give the same
    card, whatever the order of different names is. -/
theorem C65_order (E : Codecs) (ps qs : List WrittenProperty) (hp : ∀ p ∈ ps, p.Good) (hq : ∀ q ∈ qs, q.Good)
    (h : ∀ n, (ps.filter fun p => p.name = n) = qs.filter fun q => q.name = n) :
    ∃ N card, ∀ m ≥ N, parseVCards E m (cardText ps) = some [card] ∧ parseVCards E m (cardText qs) = some [card] := by
  obtain ⟨n1, h1⟩ := cardText_cards E ps hp
  obtain ⟨n2, h2⟩ := cardText_cards E qs hq
  refine ⟨max n1 n2, cardAfter (ps.map fun p => lineOf E p.unfolded), fun m hm => ⟨h1 m (by omega), ?_⟩⟩
  rw [h2 m (by omega)]
  congr 2
  apply cardAfter_eq
  intro k
  rw [filter_lineOf, filter_lineOf]
  congr 1
  by_cases hk : ∃ n, fromLatin1 n = k
  · obtain ⟨n, rfl⟩ := hk
    have e : ∀ p : WrittenProperty, decide (fromLatin1 p.name = fromLatin1 n) = decide (p.name = n) := by
      intro p
      exact decide_eq_decide.2 ⟨fromLatin1_inj, fun e => e ▸ rfl⟩
    simp only [e]
    exact (h n).symm
  · have e : ∀ p : WrittenProperty, decide (fromLatin1 p.name = k) = false := by
      intro p
      exact decide_eq_false fun e => hk ⟨_, e⟩
    simp only [e, List.filter_false]

/-- **C65.** They give the same contact. -/
theorem C65_order_contacts (E : ToolEnv) (ids : IdKind → Nat → QString) (ps qs : List WrittenProperty) (hp : ∀ p ∈ ps, p.Good) (hq : ∀ q ∈ qs, q.Good)
    (h : ∀ n, (ps.filter fun p => p.name = n) = qs.filter fun q => q.name = n) :
    ∃ N, ∀ m ≥ N, parseContacts E ids m (cardText ps) = parseContacts E ids m (cardText qs) := by
  obtain ⟨N, card, h⟩ := C65_order E.toCodecs ps qs hp hq h
  refine ⟨N, fun m hm => ?_⟩
  unfold parseContacts
  rw [(h m hm).1, (h m hm).2]

/-! ### Unknown properties -/

theorem readLine_other (E : ToolEnv) (ids : IdKind → Nat → QString) (s : RState) (l : VCardLine) (h : tagOf l = .other) : readLine E ids s l = s := by
  unfold readLine; rw [h]

theorem foldl_skip (E : ToolEnv) (ids : IdKind → Nat → QString) (P : VCardLine → Bool) (ls : List VCardLine) (h : ∀ l ∈ ls, P l = false → tagOf l = .other) (s : RState) :
    ls.foldl (readLine E ids) s = (ls.filter P).foldl (readLine E ids) s := by
  induction ls generalizing s with
  | nil => rfl
  | cons l ls ih =>
    rw [List.foldl_cons]
    cases hp : P l with
    | true => rw [List.filter_cons_of_pos hp, List.foldl_cons]; exact ih (fun x hx => h x (List.mem_cons_of_mem _ hx)) _
    | false =>
      rw [readLine_other E ids s l (h l (by simp) hp), List.filter_cons_of_neg (by simp [hp])]
      exact ih (fun x hx => h x (List.mem_cons_of_mem _ hx)) _

theorem readingOrder_filter_any (M : List VCardLine) (P : VCardLine → Bool) : (readingOrder (cardAfter M)).filter P = readingOrder (cardAfter (M.filter P)) := by
  have hn := (C13_names (M.filter P)).2
  have e : (readingOrder (cardAfter M)).filter P = _ :=
    sorted_flatMap (cardAfter M).lines (cardAfter M).identifiers (SMap.sorted_iff_keys.1 (cardAfter_sorted M)) P
    (cardAfter (M.filter P)).identifiers (SMap.sorted_iff_keys.1 (cardAfter_sorted _)) (lines_id M) (by
      intro n _ l hl hp
      rw [C13_lines, List.mem_filter] at hl
      refine (hn n).2 ⟨l, List.mem_filter.2 ⟨hl.1, hp⟩, by simpa using hl.2⟩)
  rw [e]
  unfold readingOrder
  congr 1
  funext n
  rw [C13_lines, List.filter_filter]
  have : ∀ l : VCardLine, (decide (l.identifier = n) && P l) = (P l && decide (l.identifier = n)) := fun l => Bool.and_comm _ _
  simp only [this]
  rw [← List.filter_filter, filter_names M _ (identifiers_nodup M) (identifiers_all M), List.filter_filter, List.filter_filter]
  simp only [this]

theorem lowerQ_latin1 : ∀ n : Fin 256, (lowerQ (UInt16.ofNat (UInt8.ofNat n.val).toNat)).toNat < 128 →
    UInt8.ofNat (lowerQ (UInt16.ofNat (UInt8.ofNat n.val).toNat)).toNat = lowerByte (UInt8.ofNat n.val) := by decide +kernel

theorem lower_latin1 (b : QByteArray) (a : QByteArray) (ha : ∀ x ∈ a, x.toNat < 128) (h : toLowerQ (fromLatin1 b) = fromLatin1 a) : b.map lowerByte = a := by
  induction b generalizing a with
  | nil =>
    cases a with
    | nil => rfl
    | cons y a => simp [toLowerQ, fromLatin1] at h
  | cons x b ih =>
    cases a with
    | nil => simp [toLowerQ, fromLatin1] at h
    | cons y a =>
      simp only [toLowerQ, fromLatin1, List.map_cons, List.cons.injEq] at h
      have hx : UInt8.ofNat x.toNat = x := by simp
      have hy := ha y (by simp)
      have hyy : (UInt16.ofNat y.toNat).toNat = y.toNat := by simp [UInt16.toNat_ofNat']
      have k := lowerQ_latin1 ⟨x.toNat, UInt8.toNat_lt x⟩
      simp only [hx] at k
      rw [h.1, hyy] at k
      rw [List.map_cons, ih a (fun z hz => ha z (List.mem_cons_of_mem _ hz)) h.2, ← k hy]
      simp

theorem unknown_other (E : Codecs) (p : WrittenProperty) (h : p.Unknown) : tagOf (lineOf E p.unfolded) = .other := by
  obtain ⟨h1, h2, h3⟩ := h
  have hid := lineOf_name E p
  have hgr : (lineOf E p.unfolded).group = [] := by
    rw [(lineOf_id E _).2, (scan_propertyName {} rfl _).2 h1]
  unfold tagOf
  rw [hid, hgr]
  simp only [ne_eq, not_true_eq_false, decide_false, Bool.false_and, Bool.false_eq_true, if_false]
  have hk : tagTable.find? (fun q => q.1 = toLowerQ (fromLatin1 p.name)) = none := by
    rw [List.find?_eq_none]
    intro q hq
    simp only [decide_eq_true_eq]
    intro e
    have hall : ∀ q ∈ tagTable, ∃ k ∈ knownNames, q.1 = fromLatin1 k ∧ ∀ x ∈ k, x.toNat < 128 := by decide +kernel
    obtain ⟨k, hk, e2, ha⟩ := hall q hq
    exact h2 k hk (lower_latin1 _ _ ha (by rw [← e, e2]))
  rw [hk]
  simp only
  rw [if_neg]
  intro hx
  apply h3
  have hx2 : (toLowerQ (fromLatin1 p.name)).take 2 = fromLatin1 (b! "x-") := by
    unfold startsWith at hx
    exact eq_of_beq hx
  rw [← List.map_take]
  apply lower_latin1 _ _ (by decide)
  rw [← hx2]
  simp [toLowerQ, fromLatin1, List.map_take]

/-- **C65.** A property without a group whose name the library does not know makes no difference to the contact, wherever it stands. -/
theorem C65_unknown (E : ToolEnv) (ids : IdKind → Nat → QString) (a b : List WrittenProperty) (p : WrittenProperty) (hu : p.Unknown)
    (hg : ∀ q ∈ a ++ p :: b, q.Good) :
    ∃ N, ∀ m ≥ N, parseContacts E ids m (cardText (a ++ p :: b)) = parseContacts E ids m (cardText (a ++ b)) := by
  obtain ⟨n1, h1⟩ := cardText_cards E.toCodecs _ hg
  obtain ⟨n2, h2⟩ := cardText_cards E.toCodecs (a ++ b) fun q hq => hg q (by
    rcases List.mem_append.1 hq with h | h
    · exact List.mem_append.2 (.inl h)
    · exact List.mem_append.2 (.inr (List.mem_cons_of_mem _ h)))
  refine ⟨max n1 n2, fun m hm => ?_⟩
  unfold parseContacts
  rw [h1 m (by omega), h2 m (by omega)]
  simp only [readCards]
  have key : ∀ s, (readingOrder (cardAfter ((a ++ p :: b).map fun p => lineOf E.toCodecs p.unfolded))).foldl (readLine E ids) s =
      (readingOrder (cardAfter ((a ++ b).map fun p => lineOf E.toCodecs p.unfolded))).foldl (readLine E ids) s := by
    intro s
    have hP : ∀ ls : List VCardLine, ∀ l ∈ ls, decide (tagOf l ≠ .other) = false → tagOf l = .other := by
      intro ls l _ h
      simpa using h
    rw [foldl_skip E ids (fun l => decide (tagOf l ≠ .other)) _ (hP _), foldl_skip E ids (fun l => decide (tagOf l ≠ .other)) (readingOrder (cardAfter ((a ++ b).map _))) (hP _),
      readingOrder_filter_any, readingOrder_filter_any]
    congr 3
    rw [List.map_append, List.map_append, List.map_cons, List.filter_append, List.filter_append, List.filter_cons_of_neg]
    simp [unknown_other E.toCodecs p hu]
  rw [key]

/-! ### Instances -/

/-- a card with two TEL lines, one of them folded -/
def orderSample : List WrittenProperty :=
  [⟨b! "VERSION:3.0", []⟩, ⟨b! "FN:John", []⟩, ⟨b! "TEL;TYPE=HOME:1", []⟩, ⟨b! "item1.TEL:2", []⟩, ⟨b! "NOTE:abc", [b! " def"]⟩]

-- a property that ends in the '=' of base64
example : (⟨b! "PHOTO;ENCODING=b;TYPE=PNG:aGVs", [b! " bA=="]⟩ : WrittenProperty).Good :=
  ⟨⟨_, _, rfl, by decide, by decide⟩, by decide, by decide, by decide, by decide, by
    rintro ⟨⟨pre, post, h⟩, _⟩
    have : c! 'q' ∈ (⟨b! "PHOTO;ENCODING=b;TYPE=PNG:aGVs", [b! " bA=="]⟩ : WrittenProperty).unfolded.map lowerByte := by rw [h]; simp
    revert this; decide⟩

/-- the same with names in another order -/
def orderSample' : List WrittenProperty :=
  [⟨b! "NOTE:abc", [b! " def"]⟩, ⟨b! "TEL;TYPE=HOME:1", []⟩, ⟨b! "FN:John", []⟩, ⟨b! "item1.TEL:2", []⟩, ⟨b! "VERSION:3.0", []⟩]

theorem orderSample_good : ∀ p ∈ orderSample ++ orderSample', p.Good := by
  intro p hp
  simp only [orderSample, orderSample', List.cons_append, List.nil_append, List.mem_cons, List.not_mem_nil, or_false] at hp
  rcases hp with rfl | rfl | rfl | rfl | rfl | rfl | rfl | rfl | rfl | rfl <;>
    exact ⟨⟨_, _, rfl, by decide, by decide⟩, by decide, by decide, by decide, by decide, fun h => absurd h.2 (by decide)⟩

example : ∀ n, (orderSample.filter fun p => p.name = n) = orderSample'.filter fun p => p.name = n := by
  intro n
  by_cases h1 : b! "VERSION" = n
  · subst h1; rfl
  · by_cases h2 : b! "FN" = n
    · subst h2; rfl
    · by_cases h3 : b! "TEL" = n
      · subst h3; rfl
      · by_cases h4 : b! "NOTE" = n
        · subst h4; rfl
        · have e : ∀ p ∈ orderSample ++ orderSample', p.name ≠ n := by
            intro p hp
            have hall : ∀ p ∈ (orderSample ++ orderSample').map (·.name), p = b! "VERSION" ∨ p = b! "FN" ∨ p = b! "TEL" ∨ p = b! "NOTE" := by decide
            rcases hall p.name (List.mem_map_of_mem hp) with h | h | h | h <;> rw [h] <;> assumption
          rw [List.filter_eq_nil_iff.2, List.filter_eq_nil_iff.2]
          · intro p hp; simpa using e p (List.mem_append.2 (.inr hp))
          · intro p hp; simpa using e p (List.mem_append.2 (.inl hp))

example : (⟨b! "FooBar;A=B:1", []⟩ : WrittenProperty).Unknown := by
  unfold WrittenProperty.Unknown; decide

/-- the order within one name matters: exchanging the two TEL lines exchanges the numbers -/
example : (parseContacts Sample.env Sample.ids 20 (cardText [⟨b! "TEL:1", []⟩, ⟨b! "TEL:2", []⟩])) ≠
    (parseContacts Sample.env Sample.ids 20 (cardText [⟨b! "TEL:2", []⟩, ⟨b! "TEL:1", []⟩])) := by
  decide +kernel

end KC
