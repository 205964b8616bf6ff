import Verif.Spec.Encoded
import Verif.Lemmas.Parameters
import Verif.Lemmas.Escape
import Verif.Lemmas.Compute
import Verif.Props.C10
import Verif.Props.C11
import Mathlib.Data.List.Forall2
/-
  C106. The encoding and the character set in which a text of a vCard is written do not matter.
-/
namespace KC
open KC.Spec

/-! ### Escapes -/

private theorem escaped_blocks {t v : QByteArray} (h : EscapedText t v) : ∃ bl : List (Nat × UInt8), v = unblock bl 0 ∧ t = bl.map (fun p =>
      if p.1 = 0 then p.2 else if p.2 = 110 ∨ p.2 = 78 then 10 else if p.2 = 114 then 13 else 44) ∧
    ∀ p ∈ bl, p.2 ≠ bs ∧ (p.1 = 0 ∨ p.1 = 1 ∧ (p.2 = 110 ∨ p.2 = 78 ∨ p.2 = 114 ∨ p.2 = 44)) := by
  induction h with
  | nil => exact ⟨[], rfl, rfl, by simp⟩
  | same c hc _ ih =>
    obtain ⟨bl, rfl, rfl, h⟩ := ih
    exact ⟨(0, c) :: bl, by simp [unblock], by simp, List.forall_mem_cons.2 ⟨⟨hc, .inl rfl⟩, h⟩⟩
  | lineFeed e he _ ih =>
    obtain ⟨bl, rfl, rfl, h⟩ := ih
    refine ⟨(1, e) :: bl, by simp [unblock], ?_, List.forall_mem_cons.2 ⟨?_, h⟩⟩
    · rcases he with rfl | rfl <;> simp
    · rcases he with rfl | rfl <;> exact ⟨by decide, .inr (by decide)⟩
  | carriageReturn _ ih =>
    obtain ⟨bl, rfl, rfl, h⟩ := ih
    exact ⟨(1, 114) :: bl, by simp [unblock], by simp, List.forall_mem_cons.2 ⟨⟨by decide, .inr (by decide)⟩, h⟩⟩
  | comma _ ih =>
    obtain ⟨bl, rfl, rfl, h⟩ := ih
    exact ⟨(1, 44) :: bl, by simp [unblock], by simp, List.forall_mem_cons.2 ⟨⟨by decide, .inr (by decide)⟩, h⟩⟩

private theorem unblock_plain (bl : List (Nat × UInt8)) (h : ∀ p ∈ bl, p.1 = 0) : unblock bl 0 = bl.map (·.2) := by
  induction bl with
  | nil => rfl
  | cons p bl ih =>
    obtain ⟨k, c⟩ := p
    have : k = 0 := h (k, c) (by simp)
    subst this
    simp [unblock, ih fun q hq => h q (by simp [hq])]

private theorem removeEscapes_escaped {t v : QByteArray} (he : EscapedText t v) : removeEscapes v = t := by
  obtain ⟨bl, rfl, rfl, h⟩ := escaped_blocks he
  have h0 : ∀ p ∈ bl, p.2 ≠ bs := fun p hp => (h p hp).1
  rw [removeEscapes_slow, replace2_unblock (by decide) _ _ h0]
  have h1 := passBlock_ne (x := 110) (r := 10) (by decide) h0
  rw [replace2_unblock (by decide) _ _ h1]
  have h2 := passBlock_ne (x := 78) (r := 10) (by decide) h1
  rw [replace2_unblock (by decide) _ _ h2]
  have h3 := passBlock_ne (x := 114) (r := 13) (by decide) h2
  rw [replace2_unblock (by decide) _ _ h3]
  have h4 := passBlock_ne (x := 44) (r := 44) (by decide) h3
  rw [replace2_bsbs_unblock _ _ h4]
  simp only [List.map_map]
  rw [show (0 + 1) / 2 = 0 from rfl, unblock_plain]
  · rw [List.map_map]
    apply List.map_congr_left
    rintro ⟨k, c⟩ hp
    rcases (h _ hp).2 with e | ⟨e, e' | e' | e' | e'⟩ <;> (simp only at e; subst e) <;> try (simp only at e'; subst e')
    · simp [passBlock]
    all_goals decide
  · intro p hp
    obtain ⟨⟨k, c⟩, hq, rfl⟩ := List.mem_map.1 hp
    rcases (h _ hq).2 with e | ⟨e, e' | e' | e' | e'⟩ <;> (simp only at e; subst e) <;> try (simp only at e'; subst e')
    · simp [passBlock]
    all_goals decide

/-! ### The text of the line -/

private theorem utf8_back {s : QString} {cs : List Char} (h : s = utf16 cs) (hb : s.head? ≠ some 0xFEFF) : fromUtf8 (utf8 cs) = s := by
  rw [← C11_toUtf8_is_utf8, ← h]
  exact C11_utf8_roundtrip_partial s ⟨cs, h⟩ hb

private theorem no_escape {v : QByteArray} (h : c! '\\' ∉ v) : removeEscapes v = v := by
  unfold removeEscapes
  rw [if_pos h]

private theorem base64_no_escape (b : QByteArray) : c! '\\' ∉ toBase64 b := by
  intro h
  rcases C10_base64_alphabet b _ h with h | h
  · exact h (by decide)
  · exact absurd h (by decide)

private theorem text_of (E : Codecs) (line : VCardLine) (params : List (QByteArray × QByteArray)) (value bytes : QByteArray) (s : QString)
    (h1 : TransferredAs E (valuesOf params (b! "encoding")).getLast? bytes value) (h2 : InCharset E (valuesOf params (b! "charset")).getLast? s bytes) :
    (PL.decodeValue E (.mk .value [] [] line (lastLower params (b! "encoding")) (lastLower params (b! "charset"))) (removeEscapes value)).value.toString = s := by
  unfold lastLower
  generalize (valuesOf params (b! "encoding")).getLast? = enc at h1
  generalize (valuesOf params (b! "charset")).getLast? = ch at h2
  -- the bytes
  have hb : (enc.map toLowerB).getD [] = [] ∧ removeEscapes value = bytes ∨ (enc.map toLowerB).getD [] = b! "8bit" ∧ removeEscapes value = bytes ∨
      (enc.map toLowerB).getD [] = b! "quoted-printable" ∧ E.qpDecode (removeEscapes value) = bytes ∨
      ((enc.map toLowerB).getD [] = b! "b" ∨ (enc.map toLowerB).getD [] = b! "base64") ∧ fromBase64 (removeEscapes value) = bytes ∨
      ((enc.map toLowerB).getD [] ≠ [] ∧ (enc.map toLowerB).getD [] ∉ knownEncodings) ∧ bytes = [] := by
    have hl : (fun x : QByteArray => x.map lowerByte) = toLowerB := rfl
    unfold TransferredAs at h1
    rw [hl] at h1
    rcases h1 with ⟨h | h, he⟩ | ⟨h, hv, he⟩ | ⟨h, he⟩ | ⟨e, rfl, h1, h2, he⟩
    · exact .inl ⟨by rw [h]; rfl, removeEscapes_escaped he⟩
    · exact .inr (.inl ⟨by rw [h]; rfl, removeEscapes_escaped he⟩)
    · exact .inr (.inr (.inl ⟨by rw [h]; rfl, by rw [no_escape hv]; exact he⟩))
    · refine .inr (.inr (.inr (.inl ⟨?_, ?_⟩)))
      · rcases h with h | h <;> rw [h]
        · exact .inl rfl
        · exact .inr rfl
      · rw [he, no_escape (base64_no_escape _), C10_base64_roundtrip]
    · exact .inr (.inr (.inr (.inr ⟨⟨by simpa [toLowerB] using h1, h2⟩, he⟩)))
  generalize (enc.map toLowerB).getD [] = e at hb
  -- the text
  have ht : ((ch.map toLowerB).getD [] = [] ∨ E.decoder ((ch.map toLowerB).getD []) = none) ∧ fromUtf8 bytes = s ∨ ∃ dec, (ch.map toLowerB).getD [] ≠ [] ∧ E.decoder ((ch.map toLowerB).getD []) = some dec ∧ dec bytes = s := by
    rcases h2 with ⟨hc, hs, cs, e1, rfl⟩ | ⟨cs, dec, rfl, hne, hd, he⟩
    · refine .inl ⟨?_, utf8_back e1 hs⟩
      cases ch with
      | none => exact .inl rfl
      | some x => exact (hc x rfl).imp (fun e => by rw [e]; rfl) id
    · exact .inr ⟨dec, by simpa [toLowerB] using hne, hd, he⟩
  generalize (ch.map toLowerB).getD [] = c at ht
  unfold PL.decodeValue
  rcases hb with ⟨rfl, hb⟩ | ⟨rfl, hb⟩ | ⟨rfl, hb⟩ | ⟨rfl | rfl, hb⟩ | ⟨⟨hb1, hb2⟩, hb⟩ <;> rcases ht with ⟨rfl | hd, ht⟩ | ⟨dec, hc, hd, ht⟩
  all_goals try by_cases hc : c = []
  all_goals simp_all [QVariant.toString, knownEncodings]

/-! ### The name of the line -/

private theorem scan_plain_name (name : QByteArray) (h : ∀ c ∈ name, c ≠ c! ';' ∧ c ≠ c! ':' ∧ c ≠ c! '.') (tok t : QByteArray) :
    PL.scan { tok := tok } (name ++ t) = PL.scan { tok := tok ++ name } t := by
  induction name generalizing tok with
  | nil => simp
  | cons c name ih =>
    obtain ⟨h1, h2, h3⟩ := h c (by simp)
    have e : ({ tok := tok } : PL).step c = { tok := tok ++ [c] } := by simp [PL.step, h1, h2, h3]
    rw [List.cons_append, scan_cons_of _ _ _ (by rw [e]; simp), e, ih fun d hd => h d (by simp [hd])]
    simp

private theorem text_name {name : QByteArray} (h : name.map lowerByte ∈ textProperties) : ∀ c ∈ name, c ≠ c! ';' ∧ c ≠ c! ':' ∧ c ≠ c! '.' := by
  intro c hc
  have : lowerByte c ∈ textProperties.flatten := List.mem_flatten.2 ⟨_, h, List.mem_map_of_mem hc⟩
  refine ⟨?_, ?_, ?_⟩ <;> (rintro rfl; exact absurd this (by decide))

private theorem nameLine_text {name : QByteArray} (h : name.map lowerByte ∈ textProperties) : nameLine name = { identifier := fromLatin1 name } := by
  unfold nameLine
  rw [scan_plain_name name (text_name h) []]
  rfl

private def textTags : List Tag :=
  [.anniversary, .bday, .deathdate, .categories, .class_, .gender, .kind, .fn, .geo, .mailer, .n, .name, .note, .prodid, .rev, .sortString, .tz, .uid, .source, .member]

private theorem tag_text {name : QByteArray} (h : name.map lowerByte ∈ textProperties) (l : VCardLine) (h1 : l.identifier = fromLatin1 name) (h2 : l.group = []) :
    tagOf l ∈ textTags := by
  have e : toLowerQ l.identifier = toLowerQ (fromLatin1 (name.map lowerByte)) := by
    rw [h1]
    refine toLowerQ_sameLetters ?_
    unfold SameLetters
    simp [lowerByte_twice]
  unfold tagOf
  simp only [e, h2]
  generalize name.map lowerByte = n at h
  revert n
  decide

/-! ### What of a line is used -/

private def shortLine (l : VCardLine) : VCardLine :=
  if tagOf l ∈ textTags then { identifier := l.identifier, group := l.group, value := .str l.value.toString, params := [(q! "sort-as", [l.parameter (q! "sort-as")])] } else l

private theorem short_id (l : VCardLine) : (shortLine l).identifier = l.identifier := by
  unfold shortLine
  split <;> rfl

private theorem short_tag (l : VCardLine) : tagOf (shortLine l) = tagOf l := by
  unfold shortLine
  split <;> rfl

private theorem short_parameter (l : VCardLine) : (shortLine l).parameter (q! "sort-as") = l.parameter (q! "sort-as") := by
  unfold shortLine
  split
  · simp [VCardLine.parameter, SMap.find]
  · rfl

private theorem short_text (l : VCardLine) : (shortLine l).value.toString = l.value.toString := by
  unfold shortLine
  split <;> rfl

private theorem readLine_short (E : ToolEnv) (ids : IdKind → Nat → QString) (s : RState) (l : VCardLine) : readLine E ids s (shortLine l) = readLine E ids s l := by
  by_cases h : tagOf l ∈ textTags
  · have ht := short_tag l
    have hv := short_text l
    have hp := short_parameter l
    have hc : parseSecrecy (shortLine l) = parseSecrecy l := by simp only [parseSecrecy, hv]
    have hn : readN (shortLine l) = readN l := by funext c; simp only [readN, hv, hp]
    unfold readLine
    simp only [ht, hv, hc, hn]
    revert h
    cases tagOf l <;> intro h <;> first
      | exact absurd h (by decide)
      | rfl
  · unfold shortLine
    rw [if_neg h]

private theorem readingOrder_map (M : List VCardLine) (f : VCardLine → VCardLine) (hf : ∀ l, (f l).identifier = l.identifier) :
    readingOrder (cardAfter (M.map f)) = (readingOrder (cardAfter M)).map f := by
  have hi : (cardAfter (M.map f)).identifiers = (cardAfter M).identifiers := by
    apply SMap.sorted_ext (SMap.sorted_iff_keys.1 (cardAfter_sorted _)) (SMap.sorted_iff_keys.1 (cardAfter_sorted _))
    intro n
    have a := (C13_names (M.map f)).2 n
    have b := (C13_names M).2 n
    unfold VCard.identifiers at a b
    rw [a, b]
    simp [hf]
  unfold readingOrder
  rw [hi, List.map_flatMap]
  congr 1
  funext n
  rw [C13_lines, C13_lines, List.filter_map]
  congr 2
  funext l
  simp [hf]

private theorem short_same (E : Codecs) {p q : WrittenProperty} (h : p.SameText E q) : shortLine (lineOf E p.unfolded) = shortLine (lineOf E q.unfolded) := by
  rcases h with h | ⟨name, a, b, s, hn, ⟨v, x, h1, h2, h3⟩, ⟨w, y, h4, h5, h6⟩, hv⟩
  · rw [h]
  · have key : ∀ (r : WrittenProperty) (c : List (QByteArray × QByteArray)) (u z : QByteArray), r.Says name c u → TransferredAs E (valuesOf c (b! "encoding")).getLast? z u →
        InCharset E (valuesOf c (b! "charset")).getLast? s z →
        shortLine (lineOf E r.unfolded) = { identifier := fromLatin1 name, value := .str s, params := [(q! "sort-as", [((valuesOf c (b! "sort-as")).map fromLatin1).head?.getD []])] } := by
      intro r c u z k1 k2 k3
      have ht := text_of E { nameLine name with params := paramsAfter (latin c) } c u z s k2 k3
      rw [← lineOf_says E k1] at ht
      have hd : ∀ (pl : PL) (val : QByteArray), (pl.decodeValue E val).params = pl.line.params := by
        intro pl val
        simp only [PL.decodeValue]
        split
        · split <;> rfl
        · split <;> rfl
      have hi := decodeValue_id E (.mk .value [] [] { nameLine name with params := paramsAfter (latin c) } (lastLower c (b! "encoding")) (lastLower c (b! "charset"))) (removeEscapes u)
      have hp : (lineOf E r.unfolded).params = paramsAfter (latin c) := by rw [lineOf_says E k1, hd]
      rw [← lineOf_says E k1] at hi
      simp only [nameLine_text hn] at hi
      unfold shortLine
      rw [if_pos (tag_text hn _ hi.1 hi.2), ht, hi.1, hi.2]
      have e : (lineOf E r.unfolded).parameter (q! "sort-as") = ((valuesOf c (b! "sort-as")).map fromLatin1).head?.getD [] := by
        have := C12_first_value (latin c) (fromLatin1 (b! "sort-as"))
        rw [valuesOf_latin] at this
        rw [← this]
        unfold VCardLine.parameter
        rw [hp]
        rfl
      rw [e]
    rw [key p a v x h1 h2 h3, key q b w y h4 h5 h6, hv (b! "sort-as") (by decide) (by decide)]

/-! ### The property -/

/-- **C106.** The encoding (none, 8bit, quoted-printable, base64) and the character set in which the text properties of a vCard are written make no
    difference to the contact that is read. What is missing: properties of which the contact keeps the parameters (`C106_kept_false`). -/
theorem C106_partial (E : ToolEnv) (ids : IdKind → Nat → QString) (ps qs : List WrittenProperty) (hp : ∀ p ∈ ps, p.Good) (hq : ∀ q ∈ qs, q.Good)
    (h : List.Forall₂ (WrittenProperty.SameText E.toCodecs) ps qs) :
    ∃ N, ∀ m ≥ N, parseContacts E ids m (cardText qs) = parseContacts E ids m (cardText ps) := by
  obtain ⟨n, hn⟩ := cardText_cards E.toCodecs ps hp
  obtain ⟨n', hn'⟩ := cardText_cards E.toCodecs qs hq
  have e : (ps.map fun p => shortLine (lineOf E.toCodecs p.unfolded)) = qs.map fun p => shortLine (lineOf E.toCodecs p.unfolded) := by
    clear hp hq hn hn'
    induction h with
    | nil => rfl
    | cons h _ ih => rw [List.map_cons, List.map_cons, short_same _ h, ih]
  have key : ∀ (rs : List WrittenProperty) s, (readingOrder (cardAfter (rs.map fun p => lineOf E.toCodecs p.unfolded))).foldl (readLine E ids) s =
      (readingOrder (cardAfter (rs.map fun p => shortLine (lineOf E.toCodecs p.unfolded)))).foldl (readLine E ids) s := by
    intro rs s
    have : (rs.map fun p => shortLine (lineOf E.toCodecs p.unfolded)) = (rs.map fun p => lineOf E.toCodecs p.unfolded).map shortLine := by simp
    rw [this, readingOrder_map _ _ short_id, List.foldl_map]
    congr 1
    funext s l
    exact (readLine_short E ids s l).symm
  refine ⟨max n n', fun m hm => ?_⟩
  unfold parseContacts
  rw [hn m (by omega), hn' m (by omega)]
  simp only [readCards, key, e]

/-- The text that is read, of every property: whatever the encoding and the character set. -/
theorem C106_text (E : Codecs) (p : WrittenProperty) (name : List UInt8) (params : List (List UInt8 × List UInt8)) (s : List UInt16) (h : p.Means E name params s) :
    (lineOf E p.unfolded).value.toString = s := by
  obtain ⟨value, bytes, h1, h2, h3⟩ := h
  rw [lineOf_says E h1]
  exact text_of E _ params value bytes s h2 h3

/-! ### Instances and limits -/

private def card (ls : List (List UInt8)) : List WrittenProperty := ls.map fun l => ⟨l, []⟩

private theorem good_line (c : UInt8) (t : List UInt8) (h1 : c ≠ 32) (h2 : ¬ (9 ≤ c ∧ c ≤ 13)) (h3 : ((c :: t).map lowerByte).take 11 ≠ b! "begin:vcard")
    (h4 : ((c :: t).map lowerByte).take 9 ≠ b! "end:vcard") (h5 : 10 ∉ c :: t) (h6 : (c :: t).getLast? ≠ some (c! '=') ∨ 113 ∉ (c :: t).map lowerByte) :
    WrittenProperty.Good ⟨c :: t, []⟩ :=
  ⟨⟨c, t, rfl, h1, h2⟩, h3, h4, h5, (by simp), by
    rintro ⟨⟨pre, post, e⟩, h⟩
    simp only [WrittenProperty.unfolded, List.flatMap_nil, List.append_nil] at e h
    rcases h6 with h6 | h6
    · exact h6 h
    · exact h6 (by rw [e]; simp)⟩

/-- "Jürgen, Bö" -/
private def jurgen : List Char := ['J', 'ü', 'r', 'g', 'e', 'n', ',', ' ', 'B', 'ö']

private def asItIs : List UInt8 := b! "NOTE:J" ++ [195, 188] ++ b! "rgen\\, B" ++ [195, 182]
private def inQP : List UInt8 := b! "NOTE;CHARSET=UTF-8;ENCODING=QUOTED-PRINTABLE:J=C3=BCrgen, B=C3=B6"
private def inBase64 : List UInt8 := b! "NOTE;base64:SsO8cmdlbiwgQsO2"
private def in8bit : List UInt8 := b! "NOTE;ENCODING=8bit:J" ++ [195, 188] ++ b! "rgen, B" ++ [195, 182]

private theorem means_plain : (⟨asItIs, []⟩ : WrittenProperty).Means Sample.env.toCodecs (b! "NOTE") [] (utf16 jurgen) :=
  ⟨b! "J" ++ [195, 188] ++ b! "rgen\\, B" ++ [195, 182], utf8 jurgen, ⟨by decide, by decide, [], .nil, by decide⟩,
    .inl ⟨.inl rfl, by
      have e : utf8 jurgen = b! "J" ++ [195, 188] ++ b! "rgen, B" ++ [195, 182] := by decide
      rw [e]
      iterate 7 refine .same _ (by decide) ?_
      refine .comma ?_
      iterate 4 refine .same _ (by decide) ?_
      exact .nil⟩, .inl ⟨fun _ h => (by cases h), by decide, jurgen, rfl, rfl⟩⟩

private theorem means_qp : (⟨inQP, []⟩ : WrittenProperty).Means Sample.env.toCodecs (b! "NOTE") [(b! "charset", b! "UTF-8"), (b! "encoding", b! "QUOTED-PRINTABLE")] (utf16 jurgen) :=
  ⟨b! "J=C3=BCrgen, B=C3=B6", utf8 jurgen, ⟨by decide, by decide, _,
    .plain (b! "CHARSET") [b! "UTF-8"] (by unfold ParameterName; decide) (by simp) (by unfold PlainValue; decide)
      (.plain (b! "ENCODING") [b! "QUOTED-PRINTABLE"] (by unfold ParameterName; decide) (by simp) (by unfold PlainValue; decide) .nil), by decide⟩,
    .inr (.inl ⟨by decide, by decide, by decide +kernel⟩), .inr ⟨b! "UTF-8", fromUtf8, by decide, by decide, rfl, by decide +kernel⟩⟩

private theorem means_base64 : (⟨inBase64, []⟩ : WrittenProperty).Means Sample.env.toCodecs (b! "NOTE") [(b! "encoding", b! "base64")] (utf16 jurgen) :=
  ⟨b! "SsO8cmdlbiwgQsO2", utf8 jurgen, ⟨by decide, by decide, _, .bareEncoding (b! "base64") (by decide) .nil, by decide⟩,
    .inr (.inr (.inl ⟨.inr (by decide), by decide +kernel⟩)), .inl ⟨fun _ h => (by cases h), by decide, jurgen, rfl, rfl⟩⟩

private theorem means_8bit : (⟨in8bit, []⟩ : WrittenProperty).Means Sample.env.toCodecs (b! "NOTE") [(b! "encoding", b! "8bit")] (utf16 jurgen) :=
  ⟨b! "J" ++ [195, 188] ++ b! "rgen, B" ++ [195, 182], utf8 jurgen, ⟨by decide, by decide, _,
    .plain (b! "ENCODING") [b! "8bit"] (by unfold ParameterName; decide) (by simp) (by unfold PlainValue; decide) .nil, by decide⟩,
    .inl ⟨.inr (by decide), by
      have e : utf8 jurgen = b! "J" ++ [195, 188] ++ b! "rgen, B" ++ [195, 182] := by decide
      rw [e]
      iterate 12 refine .same _ (by decide) ?_
      exact .nil⟩, .inl ⟨fun _ h => (by cases h), by decide, jurgen, rfl, rfl⟩⟩

-- the four ways of writing the note give the same contact
example : ∀ l ∈ [inQP, inBase64, in8bit], ∃ N, ∀ m ≥ N,
    parseContacts Sample.env Sample.ids m (cardText (card [b! "TEL:1", l])) = parseContacts Sample.env Sample.ids m (cardText (card [b! "TEL:1", asItIs])) := by
  have other : ∀ a : List (QByteArray × QByteArray), (∀ p ∈ a, p.1 = b! "encoding" ∨ p.1 = b! "charset") → ∀ k, k ≠ b! "encoding" → k ≠ b! "charset" →
      valuesOf ([] : List (QByteArray × QByteArray)) k = valuesOf a k := by
    intro a ha k h1 h2
    have : valuesOf a k = [] := by
      simp only [valuesOf, List.map_eq_nil_iff, List.filter_eq_nil_iff, decide_eq_true_eq]
      rintro p hp rfl
      exact (ha p hp).elim h1 h2
    rw [this]; rfl
  intro l hl
  have hs : ∃ a, (⟨l, []⟩ : WrittenProperty).Means Sample.env.toCodecs (b! "NOTE") a (utf16 jurgen) ∧ ∀ p ∈ a, p.1 = b! "encoding" ∨ p.1 = b! "charset" := by
    simp only [List.mem_cons, List.not_mem_nil, or_false] at hl
    rcases hl with rfl | rfl | rfl
    · exact ⟨_, means_qp, by decide⟩
    · exact ⟨_, means_base64, by decide⟩
    · exact ⟨_, means_8bit, by decide⟩
  obtain ⟨a, h1, h2⟩ := hs
  refine C106_partial _ _ _ _ ?_ ?_ (.cons (.inl rfl) (.cons (.inr ⟨b! "NOTE", [], a, _, by decide, means_plain, h1, other a h2⟩) .nil))
  · intro p hp
    simp only [card, List.map_cons, List.map_nil, List.mem_cons, List.not_mem_nil, or_false] at hp
    rcases hp with rfl | rfl <;> exact good_line _ _ (by decide) (by decide) (by decide) (by decide) (by decide) (by decide)
  · intro p hp
    simp only [card, List.map_cons, List.map_nil, List.mem_cons, List.not_mem_nil, or_false] at hp hl
    rcases hp with rfl | rfl
    · exact good_line _ _ (by decide) (by decide) (by decide) (by decide) (by decide) (by decide)
    · rcases hl with rfl | rfl | rfl <;> exact good_line _ _ (by decide) (by decide) (by decide) (by decide) (by decide) (by decide)

-- and that contact has the note
example : ∃ c, (∃ n, ∀ m ≥ n, parseContacts Sample.env Sample.ids m (cardText (card [b! "TEL:1", inQP])) = .ok [c]) ∧ c.note = utf16 jurgen :=
  contactsIn_one _ (by decide +kernel)

-- an encoding that is not known: the property has no text
example : (⟨b! "NOTE;ENCODING=x-zip:abc", []⟩ : WrittenProperty).Means Sample.env.toCodecs (b! "NOTE") [(b! "encoding", b! "x-zip")] [] :=
  ⟨b! "abc", [], ⟨by decide, by decide, _, .plain (b! "ENCODING") [b! "x-zip"] (by unfold ParameterName; decide) (by simp) (by unfold PlainValue; decide) .nil, by decide⟩,
    .inr (.inr (.inr ⟨b! "x-zip", by decide, by decide, by decide, rfl⟩)), .inl ⟨fun _ h => (by cases h), by decide, [], rfl, rfl⟩⟩

-- a character set that is not known: the text is taken for UTF-8
example : (⟨b! "NOTE;CHARSET=x-none:abc", []⟩ : WrittenProperty).Means { Sample.env.toCodecs with decoder := fun _ => none } (b! "NOTE") [(b! "charset", b! "x-none")] (q! "abc") :=
  ⟨b! "abc", b! "abc", ⟨by decide, by decide, _, .plain (b! "CHARSET") [b! "x-none"] (by unfold ParameterName; decide) (by simp) (by unfold PlainValue; decide) .nil, by decide⟩,
    .inl ⟨.inl rfl, .same _ (by decide) (.same _ (by decide) (.same _ (by decide) .nil))⟩, .inl ⟨fun _ _ => .inr rfl, by decide, ['a', 'b', 'c'], by decide, by decide⟩⟩

-- a base64 text that ends in '='
example : WrittenProperty.Good ⟨b! "NOTE;BASE64:Yg==", []⟩ := good_line _ _ (by decide) (by decide) (by decide) (by decide) (by decide) (by decide)

/-- An email address keeps the parameters of its line, so that the same address in quoted-printable makes another contact. -/
theorem C106_kept_false :
    (∃ c, (∃ n, ∀ m ≥ n, parseContacts Sample.env Sample.ids m (cardText (card [b! "EMAIL:a@b"])) = .ok [c]) ∧ c.emails.map (fun e => (e.mail, e.params)) = [(q! "a@b", [])]) ∧
    (∃ c, (∃ n, ∀ m ≥ n, parseContacts Sample.env Sample.ids m (cardText (card [b! "EMAIL;QUOTED-PRINTABLE:a@b"])) = .ok [c]) ∧
      c.emails.map (fun e => (e.mail, e.params)) = [(q! "a@b", [(q! "encoding", [q! "QUOTED-PRINTABLE"])])]) :=
  ⟨contactsIn_one _ (by decide +kernel), contactsIn_one _ (by decide +kernel)⟩

end KC
