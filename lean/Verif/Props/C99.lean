import Verif.Props.C92
import Verif.Props.C95
/-
  C99: a broken card does not damage the cards after it.
-/
namespace KC
open Spec

namespace Spec

/-- The text starts with a begin marker, in upper or lower case. -/
def StartsWithBegin (text : List UInt8) : Prop := (text.map lowerByte).take 11 = b! "begin:vcard"

/-- The text is empty or ends with a line end. -/
def EndsLine (text : List UInt8) : Prop := text = [] ∨ ∃ p, text = p ++ [10]

end Spec

/-! ### proof -/

theorem begin_not_blank {cur : QByteArray} (h : startsWithCI (b! "begin:vcard") cur = true) : isFolded cur = false ∧ isBlank cur = false := by
  rw [startsWithCI_take] at h
  cases cur with
  | nil => cases h
  | cons c t =>
    have h1 := congrArg List.head? h
    simp at h1
    apply goodStart_line
    · rintro rfl; exact absurd h1 (by decide)
    · rintro ⟨a, b⟩
      have : ∀ n : Fin 256, 9 ≤ UInt8.ofNat n.val → UInt8.ofNat n.val ≤ 13 → lowerByte (UInt8.ofNat n.val) ≠ 98 := by decide +kernel
      have := this ⟨c.toNat, c.toNat_lt⟩
      simp only [UInt8.ofNat_toNat] at this
      exact this a b h1

def RS.behind (o : List VCard) (s : RS) : RS := { s with out := o ++ s.out }

theorem mark_behind (o : List VCard) (cur : QByteArray) (s : RS) : RS.mark cur (s.behind o) = (RS.mark cur s).behind o := by
  unfold RS.mark RS.behind
  split
  · rfl
  · split
    · simp
    · rfl

theorem feed_behind (E : Codecs) (o : List VCard) (s : RS) (cur : QByteArray) : feed E (s.behind o) cur = (feed E s cur).map (RS.behind o) := by
  unfold feed
  split
  · rfl
  · split
    · rfl
    · have e1 : (s.behind o).inVCard = s.inVCard := rfl
      have e2 : (s.behind o).currentLine = s.currentLine := rfl
      rw [e1, e2]
      split
      · cases parsePure E s.currentLine with
        | none => rfl
        | some l => exact congrArg some (mark_behind o cur { s with card := s.card.addLine l })
      · exact congrArg some (mark_behind o cur s)

theorem fold_behind (E : Codecs) (o : List VCard) (ls : List QByteArray) (s : RS) :
    ls.foldlM (feed E) (s.behind o) = (ls.foldlM (feed E) s).map (RS.behind o) := by
  induction ls generalizing s with
  | nil => rfl
  | cons l ls ih =>
    rw [List.foldlM_cons, List.foldlM_cons, feed_behind]
    cases feed E s l with
    | none => rfl
    | some t => exact ih t

theorem logicalLines_app (acc : QByteArray) (I : List QByteArray) :
    logicalLines acc (I ++ [[]]) = logicalLines acc I ∧ logicalLines acc (I ++ [b! "BEGIN:VCARD"]) = logicalLines acc I ++ [b! "BEGIN:VCARD"] := by
  induction I generalizing acc with
  | nil => exact ⟨rfl, rfl⟩
  | cons l I ih =>
    simp only [List.cons_append, logicalLines]
    split
    · exact ih _
    · split
      · exact ih _
      · rw [(ih l).1, (ih l).2]; exact ⟨rfl, rfl⟩

theorem first_line_begin {B : QByteArray} (h : startsWithCI (b! "begin:vcard") B = true) :
    ∃ b rest, physLines B = b :: rest ∧ startsWithCI (b! "begin:vcard") b = true := by
  have h0 := h
  rw [startsWithCI_take] at h0
  have hl : (B.take 11).map lowerByte = b! "begin:vcard" := by rw [List.map_take]; exact h0
  have hno : (10 : UInt8) ∉ B.take 11 := by
    intro hm
    have : lowerByte 10 ∈ (B.take 11).map lowerByte := List.mem_map_of_mem hm
    rw [hl] at this
    exact absurd this (by decide)
  obtain ⟨I, x, y, rest, e1, e2, e3⟩ := splitOn_prefix 10 (B.take 11) (B.drop 11)
  rw [splitOn_none hno] at e1
  have : I = [] ∧ x = B.take 11 := by
    cases I with
    | nil => exact ⟨rfl, (List.singleton_inj.1 e1).symm⟩
    | cons a I => simp at e1
  obtain ⟨rfl, rfl⟩ := this
  rw [List.take_append_drop] at e3
  refine ⟨chopCR (B.take 11 ++ y), rest.map chopCR, ?_, ?_⟩
  · unfold physLines rawLines; rw [e3]; rfl
  · have hc : chopCR (B.take 11) = B.take 11 := by
      unfold chopCR
      rw [if_neg]
      intro hcr
      unfold endsWithChar at hcr
      have : ((B.take 11).map lowerByte).getLast? = some 13 := by
        rw [List.getLast?_map]
        simp only [beq_iff_eq] at hcr
        rw [hcr]; rfl
      rw [hl] at this
      exact absurd this (by decide)
    apply startsWithCI_mono (chopCR_mono (B.take 11) y)
    rw [hc, startsWithCI_take]
    have : (b! "begin:vcard").length = 11 := rfl
    rw [List.map_take, this, List.take_take] at *
    exact h0

theorem mapped_lines (text : QByteArray) : (linesOf text).map dropCR = physLines text := by
  rw [linesOf_eq]
  unfold physLines rawLines
  congr 1
  funext l
  simp [dropCR, chopCR, endsWithChar, chop1]

/-- Reading a text with no soft line break, ended by a line end, and then a text that starts with a begin marker. -/
theorem readText_after (E : Codecs) (A B : QByteArray) (hA : EndsLine A) (nA : NoSoftBreak A) (hB : startsWithCI (b! "begin:vcard") B = true)
    (cb : List VCard) (hcb : readText E B = some cb) : ∃ ca, readText E A = some ca ∧ readText E (A ++ B) = some (ca ++ cb) := by
  rcases hA with rfl | ⟨p, rfl⟩
  · exact ⟨[], by rfl, hcb⟩
  have hlf : (10 : UInt8) ∈ p ++ [10] := by simp
  obtain ⟨I, e1, e2⟩ := linesOf_end (p ++ [10]) B (.inr ⟨p, rfl⟩)
  unfold NoSoftBreak at nA
  rw [mapped_lines, e1, (logicalLines_app [] I).1] at nA
  obtain ⟨b, rest, eB, hb⟩ := first_line_begin hB
  -- the first text, and a begin marker behind it
  obtain ⟨s1, hs1⟩ := fold_feed_some E (I ++ [b! "BEGIN:VCARD"]) {} [] ⟨[], rfl⟩ (by
    rw [(logicalLines_app [] I).2]
    intro l hl
    rcases List.mem_append.1 hl with h | h
    · exact nA l h
    · rw [List.mem_singleton] at h
      subst h
      exact fun h => absurd h.2 (by decide))
  rw [List.foldlM_append] at hs1
  cases hI : I.foldlM (feed E) {} with
  | none => rw [hI] at hs1; cases hs1
  | some s =>
    rw [hI] at hs1
    change ([b! "BEGIN:VCARD"] : List QByteArray).foldlM (feed E) s = some s1 at hs1
    have hfirst : ∀ s : RS, (s.inVCard = true ∧ s.currentLine ≠ [] → ∃ l, parsePure E s.currentLine = some l) →
        feed E s b = some (RS.behind s.out { inVCard := true }) := by
      intro s hp
      have hm : ∀ q : RS, RS.mark b q = RS.behind q.out { inVCard := true } := by
        intro q; unfold RS.mark RS.behind; rw [if_pos hb, List.append_nil]
      unfold feed
      rw [(begin_not_blank hb).1, (begin_not_blank hb).2]
      simp only [Bool.false_eq_true, if_false]
      split
      · rename_i h
        obtain ⟨l, hl⟩ := hp h
        rw [hl]
        exact congrArg some (hm _)
      · exact congrArg some (hm _)
    have hp : s.inVCard = true ∧ s.currentLine ≠ [] → ∃ l, parsePure E s.currentLine = some l := by
      intro h
      cases hx : parsePure E s.currentLine with
      | some l => exact ⟨l, rfl⟩
      | none =>
        rw [List.foldlM_cons] at hs1
        have k1 : isFolded (b! "BEGIN:VCARD") = false := by decide
        have k2 : isBlank (b! "BEGIN:VCARD") = false := by decide
        unfold feed at hs1
        rw [k1, k2, if_neg (by simp), if_neg (by simp), if_pos h, hx] at hs1
        cases hs1
    -- the second text alone
    have hcb' : ∃ t, rest.foldlM (feed E) { inVCard := true } = some t ∧ t.out = cb := by
      have h0 := hfirst {} (fun h => by cases h.1)
      have e0 : RS.behind ({} : RS).out { inVCard := true } = { inVCard := true } := rfl
      rw [e0] at h0
      unfold readText fedLines at hcb
      rw [eB] at hcb
      split at hcb
      · rename_i hl
        have : rest = [] := by
          cases rest with
          | nil => rfl
          | cons _ _ => simp at hl
        subst this
        have h1 := hfirst { inVCard := true } (fun h => absurd rfl h.2)
        simp only [List.cons_append, List.nil_append, List.foldlM_cons, List.foldlM_nil, h0, h1, Option.bind_eq_bind, Option.bind_some] at hcb
        exact ⟨_, rfl, Option.some.inj hcb⟩
      · rw [List.foldlM_cons, h0] at hcb
        change (rest.foldlM (feed E) { inVCard := true }).map RS.out = some cb at hcb
        cases hx : rest.foldlM (feed E) { inVCard := true } with
        | none => rw [hx] at hcb; cases hcb
        | some t => rw [hx] at hcb; exact ⟨t, rfl, Option.some.inj hcb⟩
    obtain ⟨t, ht, rfl⟩ := hcb'
    refine ⟨s.out, ?_, ?_⟩
    · unfold readText fedLines
      rw [if_neg (physLines_two hlf), e1, List.foldlM_append, hI]
      rfl
    · unfold readText fedLines
      rw [if_neg (physLines_two (by simp)), e2, eB, List.foldlM_append, hI]
      show ((b :: rest).foldlM (feed E) s).map RS.out = _
      rw [List.foldlM_cons, hfirst s hp]
      show (rest.foldlM (feed E) (RS.behind s.out { inVCard := true })).map RS.out = _
      rw [fold_behind, ht]
      rfl

theorem startsWithBegin_iff (t : QByteArray) : StartsWithBegin t ↔ startsWithCI (b! "begin:vcard") t = true :=
  (startsWithCI_take (b! "begin:vcard") t).symm

theorem not_end_of_begin {t : QByteArray} (h : startsWithCI (b! "begin:vcard") t = true) : startsWithCI (b! "end:vcard") t = false := by
  cases he : startsWithCI (b! "end:vcard") t with
  | false => rfl
  | true => rw [begin_not_end he] at h; cases h

/-- C99. Any text that ends with a line end — it may end in the middle of a card, or of many cards begun and never ended — followed by any text
    that starts with a begin marker: the cards of the first are read and then those of the second, all as on their own. What was left open
    is not mixed into what follows. -/
theorem C99 (E : Codecs) (broken next : List UInt8) (hA : EndsLine broken) (nA : NoSoftBreak broken) (hB : StartsWithBegin next)
    (nB : NoSoftBreak next) :
    ∃ ca cb, CardsOf E broken ca ∧ CardsOf E next cb ∧ CardsOf E (broken ++ next) (ca ++ cb) := by
  rw [startsWithBegin_iff] at hB
  obtain ⟨cb, hcb⟩ := readText_nosoft E next nB (.inr (not_end_of_begin hB))
  obtain ⟨ca, h1, h2⟩ := readText_after E broken next hA nA hB cb hcb
  exact ⟨ca, cb, cardsOf_readText h1, cardsOf_readText hcb, cardsOf_readText h2⟩

theorem begin_written (E : Codecs) (cs : List VCard) (h : cs ≠ []) : startsWithCI (b! "begin:vcard") (createVCardText E cs) = true := by
  cases cs with
  | nil => exact absurd rfl h
  | cons c cs =>
    rw [startsWithCI_take]
    rfl

theorem nosoft_line_end (t : QByteArray) (h : NoSoftBreak t) : NoSoftBreak (t ++ [10]) := by
  unfold NoSoftBreak at *
  rw [mapped_lines] at *
  have : physLines (t ++ [10]) = physLines t ++ [[]] := by
    have : t ++ [10] = t ++ 10 :: [] := rfl
    unfold physLines rawLines
    rw [this, splitOn_append_sep, List.map_append]; rfl
  rw [this, (logicalLines_app [] _).1]
  exact h

theorem readText_line_end (E : Codecs) (t : QByteArray) (cards : List VCard) (hs : startsWithCI (b! "end:vcard") t = false)
    (h : readText E t = some cards) : readText E (t ++ [10]) = some cards := by
  have : physLines (t ++ [10]) = physLines t ++ [[]] := by
    have : t ++ [10] = t ++ 10 :: [] := rfl
    unfold physLines rawLines
    rw [this, splitOn_append_sep, List.map_append]; rfl
  have key : ∀ s, (physLines t).foldlM (feed E) {} = some s → readText E (t ++ [10]) = some s.out := by
    intro s hs
    unfold readText fedLines
    rw [if_neg (physLines_two (by simp)), this, List.foldlM_append, hs]
    rfl
  by_cases hlf : (10 : UInt8) ∈ t
  · unfold readText fedLines at h
    rw [if_neg (physLines_two hlf)] at h
    cases hx : (physLines t).foldlM (feed E) {} with
    | none => rw [hx] at h; cases h
    | some s =>
      rw [hx] at h
      rw [key s hx]; exact h
  · rw [readText_one E t hlf hs] at h
    obtain rfl := Option.some.inj h
    have e : physLines t = [chopCR t] := by unfold physLines rawLines; rw [splitOn_none hlf]; rfl
    have hout : ∃ s, (physLines t).foldlM (feed E) {} = some s ∧ s.out = [] := by
      rw [e, List.foldlM_cons]
      unfold feed
      split
      · exact ⟨_, rfl, rfl⟩
      · split
        · exact ⟨_, rfl, rfl⟩
        · rw [if_neg (fun h => by cases h.1)]
          refine ⟨_, rfl, ?_⟩
          unfold RS.mark
          rw [not_end_chop hs]
          split <;> rfl
    obtain ⟨s, h1, h2⟩ := hout
    rw [key s h1, h2]

/-- C99 for exported files: the export of some contacts breaks off after any number of bytes; a line end and another export follow (of any
    version). The contacts whose end marker was written are read, and then all of the other export, each as from its own file. -/
theorem C99_contacts (E : ToolEnv) (ids : IdKind → Nat → QString) (hinj : ∀ k i j, ids k i = ids k j → i = j) (v v' : Version)
    (cs next : List Contact) (hR : ∀ c ∈ cs, Readable E v c) (hR' : ∀ c ∈ next, Readable E v' c)
    (hu : ∀ c ∈ cs, ∀ i, c.uid ≠ ids .contact i) (hu' : ∀ c ∈ next, ∀ i, c.uid ≠ ids .contact i)
    (k j : Nat) (hj : Complete E v cs k j) (hq : NoSoftBreak ((createContacts E v false cs).take k)) :
    ∃ cs', EachReadAs E ids 0 0 0 ((cs.take j).map (fun c => (v, c)) ++ next.map (fun c => (v', c))) cs' ∧
      ∃ n, ∀ fuel ≥ n, parseContacts E ids fuel ((createContacts E v false cs).take k ++ [10] ++ createContacts E v' false next) = .ok cs' := by
  obtain ⟨cs', h1, n1, h2⟩ := C92 E ids hinj [⟨v, cs.take j⟩, ⟨v', next⟩] (by
      intro f hf c hc
      simp only [List.mem_cons, List.not_mem_nil, or_false] at hf
      rcases hf with rfl | rfl
      · exact hR c (List.mem_of_mem_take hc)
      · exact hR' c hc) (by
      intro f hf c hc
      simp only [List.mem_cons, List.not_mem_nil, or_false] at hf
      rcases hf with rfl | rfl
      · exact hu c (List.mem_of_mem_take hc)
      · exact hu' c hc)
  refine ⟨cs', by simpa [allContacts] using h1, ?_⟩
  have hL : ∀ (v : Version) (cs : List Contact), (∀ c ∈ cs, Readable E v c) →
      ∀ card ∈ cs.map (fun c => cardAfter (contactLines E v false c)), ∀ l ∈ (writeOrder card).flatMap card.lines, Reads E.toCodecs l (readBack l) := by
    intro v cs hR card hc l hl
    obtain ⟨c, hcc, rfl⟩ := List.mem_map.1 hc
    exact lineFine_reads _ _ (fine_all (hR c hcc).carriable l (mem_flatMap_lines _ _ _ hl))
  have key := readText_cut_written E.toCodecs readBack (cs.map fun c => cardAfter (contactLines E v false c)) (hL v cs hR) k j
    (by rw [← List.map_take]; exact hj.within) (by rw [← List.map_take, List.length_map]; exact hj.beyond)
  rw [← List.map_take] at key
  change readText E.toCodecs ((createContacts E v false cs).take k) = readText E.toCodecs (createContacts E v false (cs.take j)) at key
  have hra := reads_text E.toCodecs readBack _ (hL v (cs.take j) (fun c hc => hR c (List.mem_of_mem_take hc)))
  have hrb := reads_text E.toCodecs readBack _ (hL v' next hR')
  change readText E.toCodecs (createContacts E v false (cs.take j)) = some _ at hra
  change readText E.toCodecs (createContacts E v' false next) = some _ at hrb
  have hse : startsWithCI (b! "end:vcard") ((createContacts E v false cs).take k) = false :=
    text_start E.toCodecs _ _ (List.take_prefix _ _)
  have hcut := readText_line_end E.toCodecs _ _ hse (key.trans hra)
  -- both texts give the same cards
  have hboth : readText E.toCodecs ((createContacts E v false cs).take k ++ [10] ++ createContacts E v' false next) =
      some (((cs.take j).map (fun c => cardAfter (contactLines E v false c)) ++ next.map (fun c => cardAfter (contactLines E v' false c))).map
        fun c => cardAfter (((writeOrder c).flatMap c.lines).filterMap readBack)) := by
    rw [List.map_append]
    by_cases hn : next = []
    · subst hn
      change readText E.toCodecs (_ ++ []) = _
      rw [List.append_nil, hcut]
      simp
    · obtain ⟨ca, g1, g2⟩ := readText_after E.toCodecs _ (createContacts E v' false next) (.inr ⟨_, rfl⟩) (nosoft_line_end _ hq)
        (begin_written _ _ (by simpa using hn)) _ hrb
      rw [hcut] at g1
      obtain rfl := Option.some.inj g1
      exact g2
  have hjoin : readText E.toCodecs ([(⟨v, cs.take j⟩ : Export), ⟨v', next⟩].flatMap fun f => createContacts E f.version false f.contacts) =
      some (((cs.take j).map (fun c => cardAfter (contactLines E v false c)) ++ next.map (fun c => cardAfter (contactLines E v' false c))).map
        fun c => cardAfter (((writeOrder c).flatMap c.lines).filterMap readBack)) := by
    have e : ([(⟨v, cs.take j⟩ : Export), ⟨v', next⟩].flatMap fun f => createContacts E f.version false f.contacts) =
        createVCardText E.toCodecs ((cs.take j).map (fun c => cardAfter (contactLines E v false c)) ++ next.map (fun c => cardAfter (contactLines E v' false c))) := by
      rw [createVCardText_append]
      simp only [List.flatMap_cons, List.flatMap_nil, List.append_nil]
      rfl
    rw [e]
    apply reads_text E.toCodecs readBack
    intro card hc
    rcases List.mem_append.1 hc with h | h
    · exact hL v _ (fun c hc => hR c (List.mem_of_mem_take hc)) card h
    · exact hL v' _ hR' card h
  refine ⟨max n1 (max ((physLines ((createContacts E v false cs).take k ++ [10] ++ createContacts E v' false next)).length + 2)
    ((physLines ([(⟨v, cs.take j⟩ : Export), ⟨v', next⟩].flatMap fun f => createContacts E f.version false f.contacts)).length + 2)), fun fuel hf => ?_⟩
  rw [← h2 fuel (by omega)]
  unfold parseContacts
  rw [parseVCards_of_readText _ _ _ hboth fuel (by omega), parseVCards_of_readText _ _ _ hjoin fuel (by omega)]

theorem complete_after (A B : QByteArray) (h : CompleteText B) : CompleteText (A ++ B) := by
  obtain ⟨pre, L, M, tail, rfl, hpre, hL, hLb, hLe, hM, hMm, htb, htl⟩ := h
  rcases hpre with rfl | ⟨p, rfl⟩
  · -- the last, partial line of `A` is joined to `L`
    have : ∃ a z, A = a ++ z ∧ (a = [] ∨ ∃ p, a = p ++ [10]) ∧ (10 : UInt8) ∉ z := by
      clear * -
      induction A with
      | nil => exact ⟨[], [], rfl, .inl rfl, by simp⟩
      | cons c A ih =>
        obtain ⟨a, z, rfl, ha, hz⟩ := ih
        rcases ha with rfl | ⟨p, rfl⟩
        · by_cases hc : c = 10
          · subst hc
            exact ⟨[10], z, rfl, .inr ⟨[], rfl⟩, hz⟩
          · exact ⟨[], c :: z, rfl, .inl rfl, by simp [hz, Ne.symm hc]⟩
        · exact ⟨c :: (p ++ [10]), z, rfl, .inr ⟨c :: p, rfl⟩, hz⟩
    obtain ⟨a, z, rfl, ha, hz⟩ := this
    refine ⟨a, z ++ L, M, tail, by simp, ha, by simp [hz, hL], ?_, ?_, hM, hMm, htb, htl⟩
    · intro hb; exact hLb fun c hc => hb c (by simp [hc])
    · have hne : L ≠ [] := by rintro rfl; exact hLb (fun _ h => by simp at h)
      rintro ⟨q, hq⟩
      apply hLe
      rcases hq with hq | hq
      · rcases List.eq_nil_or_concat L with e | ⟨L', x, rfl⟩
        · exact absurd e hne
        · have := congrArg List.getLast? hq
          simp at this
          exact ⟨L', .inl (by simp [this])⟩
      · rcases List.eq_nil_or_concat L with e | ⟨L', x, rfl⟩
        · exact absurd e hne
        · have h1 := congrArg List.getLast? hq
          simp at h1
          subst h1
          rcases List.eq_nil_or_concat L' with rfl | ⟨L'', y, rfl⟩
          · exfalso; exact hLb (fun c hc => by simp at hc; subst hc; decide)
          · have h2 := congrArg (fun l => l.reverse) hq
            simp at h2
            exact ⟨L'', .inr (by simp [h2])⟩
  · exact ⟨A ++ (p ++ [10]), L, M, tail, by simp, .inr ⟨A ++ p, by simp⟩, hL, hLb, hLe, hM, hMm, htb, htl⟩

/-- C99 without a line end: if the broken text ends anywhere, even within a line or a soft line break, whatever becomes of the first complete
    text after it, the second one is read as on its own. -/
theorem C99_glued (E : Codecs) (broken first second : List UInt8) (h1 : CompleteText first) (h2 : CompleteText second) :
    ∃ x cs, CardsOf E (broken ++ first) x ∧ CardsOf E second cs ∧ CardsOf E (broken ++ first ++ second) (x ++ cs) := by
  obtain ⟨cards, n, h⟩ := C09_concatenation E [broken ++ first, second] (by
    intro t ht
    simp only [List.mem_cons, List.not_mem_nil, or_false] at ht
    rcases ht with rfl | rfl
    · exact complete_after _ _ h1
    · exact h2)
  refine ⟨cards (broken ++ first), cards second, ⟨n, fun f hf => (h f hf).1 _ (by simp)⟩, ⟨n, fun f hf => (h f hf).1 _ (by simp)⟩,
    n, fun f hf => ?_⟩
  have := (h f hf).2
  simpa using this

/-- How much of what comes before the second text is kept, then: every card of the broken text, unchanged, and one more for every further line
    that starts with an end marker. So if the first text has one card, at most that one is damaged. -/
theorem C99_glued_before (E : Codecs) (broken first : List UInt8) (hq : NoSoftBreak (broken ++ first)) (hs : ¬ StartsWithEnd (broken ++ first)) :
    ∃ x cb, CardsOf E (broken ++ first) x ∧ CardsOf E broken cb ∧ cb <+: x ∧ cb.length = endLines broken ∧ x.length = endLines (broken ++ first) := by
  have e1 : startsWithCI (b! "end:vcard") (broken ++ first) = false := by
    rw [startsWithEnd_iff] at hs
    simpa using hs
  have e2 : startsWithCI (b! "end:vcard") broken = false := by
    cases he : startsWithCI (b! "end:vcard") broken with
    | false => rfl
    | true => rw [startsWithCI_mono (List.prefix_append _ _) he] at e1; cases e1
  obtain ⟨x, hx⟩ := readText_nosoft E _ hq (.inr e1)
  obtain ⟨cb, h1, h2⟩ := readText_cut (.inr e2) hx
  exact ⟨x, cb, cardsOf_readText hx, cardsOf_readText h1, h2, readText_count (.inr e2) h1, readText_count (.inr e1) hx⟩

/-- a card broken off within a line -/
def brokenText : QByteArray := b! "BEGIN:VCARD\nNOTE:x\nFN:An"

/-- another text -/
def nextText : QByteArray := b! "BEGIN:VCARD\nFN:Bo\nEND:VCARD\n"

theorem nosoft_of_last (t : QByteArray) (h : ∀ l ∈ logicalLines [] ((linesOf t).map dropCR), l.getLast? ≠ some 61) : NoSoftBreak t :=
  fun l hl hh => h l hl hh.2

/-- Without a line end the card after the break is mixed with the broken one: C99 needs it. -/
theorem C99_mixed_false : ∃ broken next : List UInt8, NoSoftBreak broken ∧ NoSoftBreak next ∧ StartsWithBegin next ∧ ∃ (E : Codecs) (ca cb c : List VCard),
    CardsOf E broken ca ∧ CardsOf E next cb ∧ CardsOf E (broken ++ next) c ∧
    ca = [] ∧ cb.map VCard.identifiers = [[q! "FN"]] ∧ c.map VCard.identifiers = [[q! "FN", q! "NOTE"]] := by
  refine ⟨brokenText, nextText, nosoft_of_last _ (by decide +kernel), nosoft_of_last _ (by decide +kernel), by unfold StartsWithBegin; decide +kernel,
    Sample.env.toCodecs, (readText Sample.env.toCodecs brokenText).getD [], (readText Sample.env.toCodecs nextText).getD [],
    (readText Sample.env.toCodecs (brokenText ++ nextText)).getD [], cardsOf_readText (by decide +kernel), cardsOf_readText (by decide +kernel),
    cardsOf_readText (by decide +kernel), by decide +kernel, by decide +kernel, by decide +kernel⟩

/-! ### non-vacuity -/

/-- The same two texts with a line end between them. -/
example (E : Codecs) : ∃ ca cb, CardsOf E (brokenText ++ [10]) ca ∧ CardsOf E nextText cb ∧ CardsOf E (brokenText ++ [10] ++ nextText) (ca ++ cb) :=
  C99 E (brokenText ++ [10]) nextText (.inr ⟨_, rfl⟩) (nosoft_of_last _ (by decide +kernel)) (by unfold StartsWithBegin; decide +kernel)
    (nosoft_of_last _ (by decide +kernel))

/-- Two copies of the sample contact in one version, broken off within the second, and then a copy in another version: two contacts are read. -/
example (v v' : Version) : ∃ cs', EachReadAs Sample.env Sample.ids 0 0 0 [(v, Sample.contact), (v', Sample.contact)] cs' ∧ ∃ n, ∀ fuel ≥ n,
    parseContacts Sample.env Sample.ids fuel
      ((createContacts Sample.env v false [Sample.contact, Sample.contact]).take ((createContacts Sample.env v false [Sample.contact, Sample.contact]).length - 20) ++
        [10] ++ createContacts Sample.env v' false [Sample.contact]) = .ok cs' := by
  refine C99_contacts Sample.env Sample.ids Sample.ids_inj v v' [Sample.contact, Sample.contact] [Sample.contact]
    (by intro c hc; simp at hc; subst hc; exact C24_sample_readable v) (by intro c hc; simp at hc; subst hc; exact C24_sample_readable v')
    (by intro c hc; simp at hc; subst hc; exact C24_sample_uid) (by intro c hc; simp at hc; subst hc; exact C24_sample_uid) _ 1 ⟨by decide, ?_, fun _ => ?_⟩ ?_
  · cases v <;> decide +kernel
  · cases v <;> decide +kernel
  · apply nosoft_of_last
    cases v <;> decide +kernel

/-- Two complete texts, and a text broken off within a soft line break. -/
example (E : Codecs) : ∃ x cs, CardsOf E (softText.take 37 ++ nextText) x ∧ CardsOf E nextText cs ∧ CardsOf E (softText.take 37 ++ nextText ++ nextText) (x ++ cs) := by
  have h : CompleteText nextText := by
    refine ⟨b! "BEGIN:VCARD\n", b! "FN:Bo", b! "END:VCARD", [], by decide, .inr ⟨b! "BEGIN:VCARD", by decide⟩, by decide, ?_, ?_, by decide, by decide, ?_, .inl rfl⟩
    · intro h; have := h 70 (by decide); revert this; decide
    · rintro ⟨pre, h | h⟩ <;> have := congrArg List.reverse h <;> simp at this
    · intro c hc; cases hc
  exact C99_glued E _ _ _ h h

example : NoSoftBreak (brokenText ++ nextText) ∧ ¬ StartsWithEnd (brokenText ++ nextText) ∧ endLines brokenText = 0 ∧ endLines (brokenText ++ nextText) = 1 :=
  ⟨nosoft_of_last _ (by decide +kernel), by unfold StartsWithEnd; decide +kernel, by decide +kernel, by decide +kernel⟩

end KC
