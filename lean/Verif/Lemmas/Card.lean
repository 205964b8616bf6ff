import Verif.Lemmas.Content
import Verif.Props.C55
/- Helper lemmas: reading a whole written text. -/
namespace KC
open Spec

/-! ### Texts given as lists of physical lines -/

/-- every line followed by CR LF -/
def crlfText (ls : List QByteArray) : QByteArray := ls.flatMap (· ++ [13, 10])

theorem crlfText_append (a b : List QByteArray) : crlfText (a ++ b) = crlfText a ++ crlfText b := by simp [crlfText]

theorem physLines_crlfText (ls : List QByteArray) (h : ∀ l ∈ ls, (10 : UInt8) ∉ l) : physLines (crlfText ls) = ls ++ [[]] := by
  induction ls with
  | nil => rfl
  | cons l t ih =>
    have e : crlfText (l :: t) = (l ++ [13]) ++ 10 :: crlfText t := by simp [crlfText]
    rw [e, physLines_append _ _ (by
      have := h l (by simp)
      simp [this]), ih (fun x hx => h x (by simp [hx]))]
    simp [chopCR, endsWithChar, chop1]

/-- the physical lines of a folded content line -/
def physList (h : QByteArray) (t : List QByteArray) : List QByteArray := h :: t.map (32 :: ·)

theorem physical_eq (h : QByteArray) (t : List QByteArray) : physical h t = crlfText (physList h t) := by
  simp [physical, crlfText, physList, List.flatMap_map]

theorem pieces_head (s : QByteArray) (mb : Bool) (hs : s ≠ []) (h : QByteArray) (t) (hp : pieces s mb = h :: t) : ∃ c r, h = c :: r ∧ s.head? = some c := by
  cases s with
  | nil => exact absurd rfl hs
  | cons c s =>
    unfold pieces at hp
    split at hp
    · split at hp
      · simp only [piecesMb] at hp
        have key : ∀ l, addHead c l = h :: t → ∃ c' r, h = c' :: r ∧ (c :: s).head? = some c' := by
          intro l hl
          cases l with
          | nil => simp [addHead] at hl; exact ⟨c, [], hl.1.symm, rfl⟩
          | cons a b => simp [addHead] at hl; exact ⟨c, a, hl.1.symm, rfl⟩
        split at hp
        · split at hp
          · rename_i hlen
            exfalso
            have : sequenceLength c ≤ 6 := by unfold sequenceLength; (repeat' split) <;> decide
            simp only [FOLD_WIDTH] at hlen; omega
          · exact key _ hp
        · split at hp <;> exact key _ hp
      · unfold piecesFixed at hp
        rw [List.range_succ_eq_map] at hp
        simp only [List.map_cons, List.cons.injEq] at hp
        refine ⟨c, s.take (FOLD_WIDTH - 1), ?_, rfl⟩
        rw [← hp.1]
        simp [mid, FOLD_WIDTH]
    · simp at hp; exact ⟨c, s, hp.1.symm, rfl⟩

/-- A content line whose first byte is not white space and which is not a marker. -/
structure GoodStart (t : QByteArray) : Prop where
  head : ∃ c, t.head? = some c ∧ c ≠ 32 ∧ ¬ (9 ≤ c ∧ c ≤ 13)
  nobegin : startsWithCI (b! "begin:vcard") t = false
  noend : startsWithCI (b! "end:vcard") t = false

theorem startsWithCI_prefix (m a b : QByteArray) (h : startsWithCI m a = true) : startsWithCI m (a ++ b) = true := by
  rw [startsWithCI_take] at *
  rw [List.map_append, List.take_append_of_le_length]
  · exact h
  · have := congrArg List.length h
    rw [List.length_take] at this
    omega

/-- what the reader has collected so far, once the pending line is parsed -/
def absorb (E : Codecs) (s : RS) : Option VCard :=
  if s.currentLine ≠ [] then (parsePure E s.currentLine).map (s.card.addLine ·) else some s.card

theorem feed_plain (E : Codecs) (s : RS) (cur : QByteArray) (hi : s.inVCard = true) (c : VCard) (ha : absorb E s = some c)
    (h1 : isFolded cur = false) (h2 : isBlank cur = false) :
    feed E s cur = some (RS.mark cur { s with card := c }) := by
  unfold feed
  rw [if_neg (by simp [h1]), if_neg (by simp [h2])]
  unfold absorb at ha
  by_cases hc : s.currentLine = []
  · rw [if_neg (by simp [hc])]
    simp [hc] at ha
    rw [← ha]
  · rw [if_pos ⟨hi, hc⟩]
    rw [if_pos hc] at ha
    cases hp : parsePure E s.currentLine with
    | none => rw [hp] at ha; simp at ha
    | some l => rw [hp] at ha; simp at ha; simp [ha]

theorem goodStart_line {c : UInt8} {r : QByteArray} (h1 : c ≠ 32) (h2 : ¬ (9 ≤ c ∧ c ≤ 13)) :
    isFolded (c :: r) = false ∧ isBlank (c :: r) = false := by
  constructor
  · simp only [isFolded, List.head?_cons, Bool.or_eq_false_iff, beq_eq_false_iff_ne, ne_eq, Option.some.injEq]
    refine ⟨h1, ?_⟩
    rintro rfl
    exact h2 (by decide)
  · cases hb : isBlank (c :: r) with
    | false => rfl
    | true =>
      rw [isBlank_iff] at hb
      have := hb c (by simp)
      rcases this with h | h
      · exact absurd h h1
      · exact absurd h h2

theorem feed_content (E : Codecs) (t : QByteArray) (mb : Bool) (hg : GoodStart t) (s : RS) (hi : s.inVCard = true) (c : VCard)
    (ha : absorb E s = some c) (h : QByteArray) (ps : List QByteArray) (hp : pieces t mb = h :: ps) :
    (physList h ps).foldlM (feed E) s = some { currentLine := t, inVCard := true, card := c, out := s.out } := by
  have hfl := flatten_pieces t mb
  rw [hp, List.flatten_cons] at hfl
  obtain ⟨c0, hc0, hw1, hw2⟩ := hg.head
  have hne : t ≠ [] := by intro e; rw [e] at hc0; cases hc0
  obtain ⟨c1, r, hh, hc1⟩ := pieces_head t mb hne h ps hp
  rw [hc0] at hc1
  cases hc1
  obtain ⟨f1, f2⟩ := goodStart_line (r := r) hw1 hw2
  have f := feed_plain E s h hi c ha (by rw [hh]; exact f1) (by rw [hh]; exact f2)
  have hm : RS.mark h { s with card := c } = { currentLine := h, inVCard := true, card := c, out := s.out } := by
    unfold RS.mark
    rw [if_neg, if_neg]
    · simp [hi]
    · intro hs
      have := startsWithCI_prefix _ _ ps.flatten hs
      rw [hfl, hg.noend] at this; cases this
    · intro hs
      have := startsWithCI_prefix _ _ ps.flatten hs
      rw [hfl, hg.nobegin] at this; cases this
  have rest : ∀ (ps : List QByteArray) (cl : QByteArray), (ps.map ((32 : UInt8) :: ·)).foldlM (feed E) { currentLine := cl, inVCard := true, card := c, out := s.out } =
      some { currentLine := cl ++ ps.flatten, inVCard := true, card := c, out := s.out } := by
    intro ps
    induction ps with
    | nil => intro cl; simp
    | cons p ps ih =>
      intro cl
      rw [List.map_cons, List.foldlM_cons]
      have : feed E { currentLine := cl, inVCard := true, card := c, out := s.out } (32 :: p) =
          some { currentLine := cl ++ p, inVCard := true, card := c, out := s.out } := by
        simp [feed, isFolded]
      rw [this]
      show List.foldlM _ _ _ = _
      rw [ih]
      simp
  unfold physList
  rw [List.foldlM_cons, f, hm]
  show List.foldlM _ _ _ = _
  rw [rest ps h, hfl]

/-! ### The start of a written line -/

theorem marker_name (a b name rest : QByteArray) (sep : UInt8) (hsep : sep = c! ';' ∨ sep = c! ':')
    (hn : (c! ';') ∉ name ∧ (c! ':') ∉ name) (ha : (c! ';') ∉ a ∧ (c! ':') ∉ a)
    (h : startsWithCI (a ++ c! ':' :: b) (name ++ sep :: rest) = true) : toLowerB name = a := by
  induction a generalizing name with
  | nil =>
    cases name with
    | nil => rfl
    | cons x n =>
      exfalso
      simp only [startsWithCI, List.nil_append, List.length_cons, List.cons_append, List.take_succ_cons, toLowerB, List.map_cons, beq_iff_eq, List.cons.injEq] at h
      have : lowerB x = c! ':' → x = c! ':' := by
        intro hx
        have key : ∀ n : Fin 256, lowerB (UInt8.ofNat n.val) = 58 → UInt8.ofNat n.val = 58 := by decide +kernel
        have := key ⟨x.toNat, x.toNat_lt⟩
        simp only [UInt8.ofNat_toNat] at this
        exact this hx
      exact hn.2 (by rw [this h.1]; simp)
  | cons y a ih =>
    cases name with
    | nil =>
      exfalso
      simp only [startsWithCI, List.nil_append, List.length_cons, List.cons_append, List.take_succ_cons, toLowerB, List.map_cons, beq_iff_eq, List.cons.injEq] at h
      rcases hsep with rfl | rfl
      · exact ha.1 (by rw [← h.1]; exact List.mem_cons_self)
      · exact ha.2 (by rw [← h.1]; exact List.mem_cons_self)
    | cons x n =>
      simp only [startsWithCI, List.length_cons, List.cons_append, List.take_succ_cons, toLowerB, List.map_cons, beq_iff_eq, List.cons.injEq] at h
      have hx := h.1
      have := ih n ⟨fun m => hn.1 (by simp [m]), fun m => hn.2 (by simp [m])⟩ ⟨fun m => ha.1 (by simp [m]), fun m => ha.2 (by simp [m])⟩
        (by simp only [startsWithCI, beq_iff_eq]; exact h.2)
      simp only [toLowerB, List.map_cons] at this ⊢
      rw [hx, this]

theorem nameBytes_ok (E : Codecs) (l : VCardLine) (hl : LineOK E l) :
    (c! ';') ∉ nameBytes l ∧ (c! ':') ∉ nameBytes l ∧ (10 : UInt8) ∉ nameBytes l := by
  have n : ∀ s, NameOK s → (c! ';') ∉ toLatin1 s ∧ (c! ':') ∉ toLatin1 s ∧ (10 : UInt8) ∉ toLatin1 s := by
    intro s h
    exact ⟨not_mem_toLatin1 s h.latin _ h.sep.1, not_mem_toLatin1 s h.latin _ h.sep.2.1, not_mem_toLatin1 s h.latin _ h.sep.2.2.2⟩
  obtain ⟨a1, a2, a3⟩ := n _ hl.name
  obtain ⟨b1, b2, b3⟩ := n _ hl.group
  unfold nameBytes
  split
  · simp [a1, a2, a3, b1, b2, b3]
  · exact ⟨a1, a2, a3⟩

theorem nameBytes_marker (E : Codecs) (l : VCardLine) (hl : LineOK E l) :
    toLowerB (nameBytes l) ≠ b! "begin" ∧ toLowerB (nameBytes l) ≠ b! "end" := by
  unfold nameBytes
  split
  · have : ∀ a b : QByteArray, (46 : UInt8) ∈ toLowerB (a ++ [c! '.'] ++ b) := by
      intro a b; simp [toLowerB, lowerB]
    constructor
    · intro e
      have := this (toLatin1 l.group) (toLatin1 l.identifier)
      rw [e] at this; revert this; decide
    · intro e
      have := this (toLatin1 l.group) (toLatin1 l.identifier)
      rw [e] at this; revert this; decide
  · exact hl.marker

theorem writeHead_form (E : Codecs) (l : VCardLine) (hl : LineOK E l) :
    (∃ segs, writeHead l = nameBytes l ++ segs ∧ (segs = [] ∨ ∃ r, segs = c! ';' :: r)) ∧ (10 : UInt8) ∉ writeHead l := by
  obtain ⟨h, hp, hok, hv⟩ := hl.params
  have hs : Sorted l.params := by rw [hp]; exact paramsAfter_sorted h
  have hne : ∀ p ∈ l.params, ∀ v ∈ p.2, v ≠ [] := by
    intro p hpm v hvm
    rw [hp] at hpm
    exact (hok _ ((paramsAfter_mem hpm).2 v hvm)).neV
  rw [writeHead_eq l hs hne]
  refine ⟨⟨_, rfl, ?_⟩, ?_⟩
  · cases flatParams l.params with
    | nil => simp
    | cons a t => right; simp [paramSeg]
  · simp only [List.mem_append, not_or, List.mem_flatMap, not_exists, not_and]
    refine ⟨(nameBytes_ok E l hl).2.2, ?_⟩
    intro kv hkv
    rw [hp] at hkv
    have ok := hok kv (flatParams_mem hkv)
    have k1 : (10 : UInt8) ∉ toUpperB (toLatin1 kv.1) := by
      intro hm
      simp only [toUpperB, List.mem_map] at hm
      obtain ⟨c, hc, he⟩ := hm
      have := upper_special c 10 (by decide) he
      subst this
      exact not_mem_toLatin1 _ ok.latinK 10 ok.sepK.2.2.2 hc
    have v1 : (10 : UInt8) ∉ toLatin1 kv.2 := not_mem_toLatin1 _ ok.latinV 10 ok.sepV.2.2.2
    simp [paramSeg, k1, v1]

theorem head_ok (s : QString) (hs : Latin1 s) (hst : ∀ c, s.head? = some c → c.toNat ≠ 32 ∧ ¬ (9 ≤ c.toNat ∧ c.toNat ≤ 13)) :
    ∀ c, (toLatin1 s).head? = some c → c ≠ 32 ∧ ¬ (9 ≤ c ∧ c ≤ 13) := by
  intro c hc
  cases s with
  | nil => simp [toLatin1] at hc
  | cons u t =>
    have hu := hs u (by simp)
    obtain ⟨h1, h2⟩ := hst u rfl
    simp only [toLatin1, List.map_cons, List.head?_cons, Option.some.injEq] at hc
    rw [if_pos hu] at hc
    have e : c.toNat = u.toNat := by rw [← hc, toNat_ofNat8 _ hu]
    constructor
    · rintro rfl; exact h1 e.symm
    · rintro ⟨a, b⟩
      rw [UInt8.le_iff_toNat_le] at a b
      apply h2
      rw [← e]; exact ⟨a, b⟩

theorem content_start (E : Codecs) (l : VCardLine) (hl : LineOK E l) (val : QByteArray) : GoodStart (writeHead l ++ [c! ':'] ++ val) := by
  obtain ⟨⟨segs, hseg, hform⟩, _⟩ := writeHead_form E l hl
  obtain ⟨n1, n2, _⟩ := nameBytes_ok E l hl
  obtain ⟨m1, m2⟩ := nameBytes_marker E l hl
  have hsplit : ∃ sep rest, (sep = c! ';' ∨ sep = c! ':') ∧ writeHead l ++ [c! ':'] ++ val = nameBytes l ++ sep :: rest := by
    rw [hseg]
    rcases hform with rfl | ⟨r, rfl⟩
    · exact ⟨c! ':', val, .inr rfl, by simp⟩
    · exact ⟨c! ';', r ++ [c! ':'] ++ val, .inl rfl, by simp⟩
  obtain ⟨sep, rest, hsep, e⟩ := hsplit
  rw [e]
  refine ⟨?_, ?_, ?_⟩
  · cases hn : nameBytes l with
    | nil =>
      refine ⟨sep, by simp, ?_, ?_⟩ <;> rcases hsep with rfl | rfl <;> decide
    | cons c r =>
      refine ⟨c, by simp, ?_⟩
      unfold nameBytes at hn
      split at hn
      · rename_i hg
        refine head_ok l.group hl.group.latin ?_ c ?_
        · intro c hc; exact hl.start c (by rw [if_neg hg]; exact hc)
        · cases hgr : l.group with
          | nil => exact absurd hgr hg
          | cons u t => rw [hgr] at hn; simp [toLatin1] at hn ⊢; exact hn.1
      · rename_i hg
        simp only [ne_eq, Decidable.not_not] at hg
        refine head_ok l.identifier hl.name.latin ?_ c (by rw [hn]; rfl)
        intro c hc; exact hl.start c (by rw [if_pos hg]; exact hc)
  · cases hb : startsWithCI (b! "begin:vcard") (nameBytes l ++ sep :: rest) with
    | false => rfl
    | true => exact absurd (marker_name (b! "begin") (b! "vcard") _ _ _ hsep ⟨n1, n2⟩ (by decide) hb) m1
  · cases hb : startsWithCI (b! "end:vcard") (nameBytes l ++ sep :: rest) with
    | false => rfl
    | true => exact absurd (marker_name (b! "end") (b! "vcard") _ _ _ hsep ⟨n1, n2⟩ (by decide) hb) m2

/-! ### Lines, cards, texts -/

/-- A written line: physical lines that the reader turns into the line. -/
theorem line_block (E : Codecs) (l : VCardLine) (hl : LineOK E l) :
    ∃ ls t, writeLine E l = crlfText ls ∧ (∀ x ∈ ls, (10 : UInt8) ∉ x) ∧ t ≠ [] ∧ parsePure E t = some l ∧
      ∀ (s : RS) (c : VCard), s.inVCard = true → absorb E s = some c →
        ls.foldlM (feed E) s = some { currentLine := t, inVCard := true, card := c, out := s.out } := by
  obtain ⟨t, mb, hw, hp, val, ht, hval⟩ := content_roundtrip E l hl
  obtain ⟨h, ps, hpc, hfix⟩ := fixLineSize_eq t mb
  have hstart : GoodStart t := by rw [ht]; exact content_start E l hl val
  have hnl : (10 : UInt8) ∉ t := by
    rw [ht]
    have := (writeHead_form E l hl).2
    simp [this, hval]
  refine ⟨physList h ps, t, ?_, ?_, ?_, hp, ?_⟩
  · unfold writeLine
    rw [← physical_eq, ← hfix]
    have : l.value ≠ .invalid := by
      intro e
      obtain ⟨hh, _, _, hv⟩ := hl.params
      rw [e] at hv; cases hv
    cases hval : l.value with
    | invalid => exact absurd hval this
    | str s => simp [hw]
    | bytes b => simp [hw]
  · have hfl := flatten_pieces t mb
    rw [hpc] at hfl
    intro x hx
    have hsub : ∀ y ∈ h :: ps, (10 : UInt8) ∉ y := by
      intro y hy hm
      apply hnl
      rw [← hfl]
      exact List.mem_flatten.2 ⟨y, hy, hm⟩
    simp only [physList, List.mem_cons, List.mem_map] at hx
    rcases hx with rfl | ⟨y, hy, rfl⟩
    · exact hsub _ (by simp)
    · have := hsub y (by simp [hy])
      simp [this]
  · intro e
    obtain ⟨c, hc, _⟩ := hstart.head
    rw [e] at hc; cases hc
  · intro s c hi ha
    exact feed_content E t mb hstart s hi c ha h ps hpc

theorem lines_block (E : Codecs) (L : List VCardLine) (hL : ∀ l ∈ L, LineOK E l) :
    ∃ ls, L.flatMap (writeLine E) = crlfText ls ∧ (∀ x ∈ ls, (10 : UInt8) ∉ x) ∧
      ∀ (s : RS) (c : VCard), s.inVCard = true → absorb E s = some c →
        ∃ s', ls.foldlM (feed E) s = some s' ∧ s'.inVCard = true ∧ s'.out = s.out ∧ absorb E s' = some (L.foldl VCard.addLine c) := by
  induction L with
  | nil => exact ⟨[], rfl, by simp, fun s c hi ha => ⟨s, rfl, hi, rfl, ha⟩⟩
  | cons l L ih =>
    obtain ⟨ls2, e2, n2, f2⟩ := ih (fun x hx => hL x (by simp [hx]))
    obtain ⟨ls1, t, e1, n1, tne, hp, f1⟩ := line_block E l (hL l (by simp))
    refine ⟨ls1 ++ ls2, ?_, ?_, ?_⟩
    · rw [List.flatMap_cons, e1, e2, crlfText_append]
    · intro x hx
      simp only [List.mem_append] at hx
      rcases hx with h | h
      · exact n1 x h
      · exact n2 x h
    · intro s c hi ha
      obtain ⟨s', g1, g2, g3, g4⟩ := f2 { currentLine := t, inVCard := true, card := c, out := s.out } (c.addLine l) rfl
        (by simp [absorb, tne, hp])
      refine ⟨s', ?_, g2, g3, g4⟩
      rw [List.foldlM_append, f1 s c hi ha]
      exact g1

/-- Reading what was written for one card, from a state between cards. -/
theorem card_block (E : Codecs) (c : VCard) (hL : ∀ l ∈ (writeOrder c).flatMap c.lines, LineOK E l) :
    ∃ ls, writeCard E c = crlfText ls ∧ (∀ x ∈ ls, (10 : UInt8) ∉ x) ∧
      ∀ out, ls.foldlM (feed E) { out := out } =
        some { out := out ++ [cardAfter ((writeOrder c).flatMap c.lines)] } := by
  obtain ⟨ls, e, n, f⟩ := lines_block E _ hL
  refine ⟨b! "BEGIN:VCARD" :: (ls ++ [b! "END:VCARD", []]), ?_, ?_, ?_⟩
  · unfold writeCard
    have e1 : (writeOrder c).flatMap (fun id => (c.lines id).flatMap (writeLine E)) = crlfText ls := by
      rw [← e, List.flatMap_assoc]
    rw [e1]
    show _ = b! "BEGIN:VCARD" ++ [13, 10] ++ crlfText (ls ++ [b! "END:VCARD", []])
    rw [crlfText_append]
    have : crlfText [b! "END:VCARD", []] = b! "END:VCARD\r\n" ++ b! "\r\n" := by decide
    rw [this]
    have e3 : b! "BEGIN:VCARD" ++ [13, 10] = b! "BEGIN:VCARD\r\n" := by decide
    rw [e3]
    simp only [List.append_assoc]
  · intro x hx
    simp only [List.mem_cons, List.mem_append, List.not_mem_nil, or_false] at hx
    rcases hx with rfl | h | rfl | rfl
    · decide
    · exact n x h
    · decide
    · decide
  · intro out
    rw [List.foldlM_cons]
    have f1 : feed E { out := out } (b! "BEGIN:VCARD") = some { inVCard := true, out := out } := by
      have h1 : isFolded (b! "BEGIN:VCARD") = false := by decide
      have h2 : isBlank (b! "BEGIN:VCARD") = false := by decide
      have h3 : startsWithCI (b! "begin:vcard") (b! "BEGIN:VCARD") = true := by decide
      simp only [feed, h1, h2, RS.mark, h3]
      simp
    rw [f1]
    obtain ⟨s', g1, g2, g3, g4⟩ := f { inVCard := true, out := out } [] rfl (by simp [absorb])
    show List.foldlM _ _ _ = _
    rw [List.foldlM_append, g1]
    show List.foldlM _ _ _ = _
    rw [List.foldlM_cons, feed_plain E s' (b! "END:VCARD") g2 _ g4 (by decide) (by decide)]
    show List.foldlM _ _ _ = _
    rw [List.foldlM_cons]
    have h3 : startsWithCI (b! "begin:vcard") (b! "END:VCARD") = false := by decide
    have h4 : startsWithCI (b! "end:vcard") (b! "END:VCARD") = true := by decide
    have h5 : isFolded [] = false := by decide
    have h6 : isBlank [] = true := by decide
    simp only [RS.mark, h3, h4, feed, h5, h6, g3]
    rfl

theorem cards_block (E : Codecs) (cs : List VCard) (hL : ∀ c ∈ cs, ∀ l ∈ (writeOrder c).flatMap c.lines, LineOK E l) :
    ∃ ls, createVCardText E cs = crlfText ls ∧ (∀ x ∈ ls, (10 : UInt8) ∉ x) ∧ (cs ≠ [] → ls ≠ []) ∧
      ∀ out, ls.foldlM (feed E) { out := out } =
        some { out := out ++ cs.map fun c => cardAfter ((writeOrder c).flatMap c.lines) } := by
  induction cs with
  | nil => exact ⟨[], rfl, by simp, by simp, by intro out; simp⟩
  | cons c cs ih =>
    obtain ⟨ls2, e2, n2, _, f2⟩ := ih (fun x hx => hL x (by simp [hx]))
    obtain ⟨ls1, e1, n1, f1⟩ := card_block E c (hL c (by simp))
    refine ⟨ls1 ++ ls2, ?_, ?_, ?_, ?_⟩
    · unfold createVCardText at e2 ⊢
      rw [List.flatMap_cons, e1, e2, crlfText_append]
    · intro x hx
      simp only [List.mem_append] at hx
      rcases hx with h | h
      · exact n1 x h
      · exact n2 x h
    · intro _ e
      rw [List.append_eq_nil_iff] at e
      rw [e.1] at e1
      have := congrArg List.length e1
      simp [writeCard, crlfText] at this
    · intro out
      rw [List.foldlM_append, f1]
      show List.foldlM _ _ _ = _
      rw [f2]
      simp

theorem readText_written (E : Codecs) (cs : List VCard) (hL : ∀ c ∈ cs, ∀ l ∈ (writeOrder c).flatMap c.lines, LineOK E l) :
    readText E (createVCardText E cs) = some (cs.map fun c => cardAfter ((writeOrder c).flatMap c.lines)) := by
  obtain ⟨ls, e, n, ne, f⟩ := cards_block E cs hL
  unfold readText
  rw [e, physLines_crlfText ls n]
  by_cases hc : cs = []
  · subst hc
    simp only [createVCardText, List.flatMap_nil] at e
    have : ls = [] := by
      cases ls with
      | nil => rfl
      | cons a t => simp [crlfText] at e
    subst this
    rfl
  · have hne := ne hc
    have : fedLines (ls ++ [[]]) = ls ++ [[]] := by
      unfold fedLines
      rw [if_neg]
      have := List.length_pos_iff.2 hne
      simp; omega
    rw [this, List.foldlM_append]
    have f0 := f []
    rw [show ({ out := [] } : RS) = {} from rfl] at f0
    rw [f0]
    rfl

/-! ### Rebuilding a card from the lines in writing order -/

theorem identifiers_nodup (h : List VCardLine) : (cardAfter h).identifiers.Nodup := by
  have := SMap.sorted_iff_keys.1 (cardAfter_sorted h)
  unfold VCard.identifiers
  refine List.Pairwise.imp ?_ this
  intro a b hab e
  subst e
  rw [qlt_irrefl] at hab; cases hab

theorem writeOrder_perm (c : VCard) : (writeOrder c).Perm c.identifiers := by
  unfold writeOrder
  simp only
  split
  · rename_i h; exact (List.perm_cons_erase h).symm
  · exact List.Perm.refl _

theorem filter_flatMap_names (c : VCard) (names : List QString) (hn : names.Nodup)
    (hid : ∀ n, ∀ l ∈ c.lines n, l.identifier = n) (k : QString) :
    (names.flatMap c.lines).filter (fun l => l.identifier = k) = if k ∈ names then c.lines k else [] := by
  induction names with
  | nil => rfl
  | cons a t ih =>
    rw [List.nodup_cons] at hn
    rw [List.flatMap_cons, List.filter_append, ih hn.2]
    by_cases e : a = k
    · subst e
      rw [List.filter_eq_self.2 (by intro l hl; simp [hid a l hl])]
      simp [hn.1]
    · rw [List.filter_eq_nil_iff.2 (by intro l hl; simp [hid a l hl, e])]
      simp [Ne.symm e]

theorem rebuild (h : List VCardLine) : cardAfter ((writeOrder (cardAfter h)).flatMap (cardAfter h).lines) = cardAfter h := by
  apply SMap.ext_find (cardAfter_sorted _) (cardAfter_sorted _)
  intro k
  have hid : ∀ n, ∀ l ∈ (cardAfter h).lines n, l.identifier = n := by
    intro n l hl
    rw [C13_lines] at hl
    simpa using (List.mem_filter.1 hl).2
  rw [card_find, filter_flatMap_names _ _ ((writeOrder_perm _).nodup_iff.2 (identifiers_nodup h)) hid, card_find]
  by_cases hk : k ∈ writeOrder (cardAfter h)
  · rw [if_pos hk, C13_lines]
  · rw [if_neg hk]
    rw [(writeOrder_perm _).mem_iff, (C13_names h).2] at hk
    have : h.filter (fun l => l.identifier = k) = [] := by
      rw [List.filter_eq_nil_iff]
      intro l hl
      simp only [decide_eq_true_eq]
      intro e; exact hk ⟨l, hl, e⟩
    rw [this]

theorem mem_written (h : List VCardLine) (l : VCardLine) : l ∈ (writeOrder (cardAfter h)).flatMap (cardAfter h).lines ↔ l ∈ h := by
  rw [List.mem_flatMap]
  constructor
  · rintro ⟨n, _, hl⟩
    rw [C13_lines] at hl
    exact (List.mem_filter.1 hl).1
  · intro hl
    refine ⟨l.identifier, ?_, ?_⟩
    · rw [(writeOrder_perm _).mem_iff, (C13_names h).2]; exact ⟨l, hl, rfl⟩
    · rw [C13_lines]; exact List.mem_filter.2 ⟨hl, by simp⟩

end KC
