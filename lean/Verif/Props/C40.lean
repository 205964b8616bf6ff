import Verif.Lemmas.Ldif
/-
  C40 — feeding LDIF in pieces gives the same items.
  C41 — LDIF line ends and comments do not matter.
-/
namespace KC
open KC.Spec

private theorem fed_feed (ps : List QByteArray) (hne : ps ≠ []) (s : Ldif) (es : List LdifEvent) (s' : Ldif) :
    FedItems s ps es s' ↔ es = (ldifFeed s ps.flatten).1 ∧ s' = { (ldifFeed s ps.flatten).2 with rest := [] } := by
  induction ps generalizing s es s' with
  | nil => exact absurd rfl hne
  | cons p ps ih =>
    by_cases hps : ps = []
    · subst hps
      simp only [List.flatten_cons, List.flatten_nil, List.append_nil]
      constructor
      · intro h
        cases h with
        | cons h1 h2 =>
          cases h2
          rw [List.append_nil]
          exact (items_feed _ _ _ _).1 h1
      · intro h
        have := FedItems.cons ((items_feed s p es s').2 h) .nil
        rwa [List.append_nil] at this
    · have ihs := ih hps
      rw [List.flatten_cons, ldifFeed_append]
      have hr := ldifFeed_rest (ldifFeed s p).2 [] ps.flatten
      constructor
      · intro h
        cases h with
        | cons h1 h2 =>
          obtain ⟨rfl, rfl⟩ := (items_feed _ _ _ _).1 h1
          obtain ⟨rfl, rfl⟩ := (ihs _ _ _).1 h2
          rw [hr]
          exact ⟨rfl, rfl⟩
      · rintro ⟨rfl, rfl⟩
        refine .cons ((items_feed s p _ _).2 ⟨rfl, rfl⟩) ((ihs _ _ _).2 ⟨?_, ?_⟩)
        · rw [hr]
        · rw [hr]

/-- C40: for every parser state and every way of cutting a text into pieces, feeding the pieces one after the other gives the items, and leaves the
    parser, of feeding the whole text. -/
theorem C40_pieces (s : Ldif) (pieces : List QByteArray) (h : pieces ≠ []) (es : List LdifEvent) (s' : Ldif) :
    FedItems s pieces es s' ↔ Items (s.setLdif pieces.flatten) es s' := by
  rw [fed_feed pieces h, items_feed]

/-- Reading always comes to an end, with at most one item per character. -/
theorem C40_terminates (s : Ldif) (text : QByteArray) : ∃ es s', Items (s.setLdif text) es s' ∧ es.length ≤ text.length := by
  refine ⟨_, _, (items_feed s text _ _).2 ⟨rfl, rfl⟩, ?_⟩
  induction text generalizing s with
  | nil => simp [ldifFeed]
  | cons c t ih =>
    have h := ih (s.char c).2
    have : (ldifEmit (s.char c).1 (s.char c).2).length ≤ 1 := by unfold ldifEmit; split <;> simp
    simp only [ldifFeed, List.length_append, List.length_cons]
    omega

/-- The items are determined by the parser and the text. -/
theorem C40_deterministic (s : Ldif) (text : QByteArray) (es es' : List LdifEvent) (s₁ s₂ : Ldif) (h : Items (s.setLdif text) es s₁)
    (h' : Items (s.setLdif text) es' s₂) : es = es' ∧ s₁ = s₂ := by
  obtain ⟨rfl, rfl⟩ := (items_feed _ _ _ _).1 h
  obtain ⟨rfl, rfl⟩ := (items_feed _ _ _ _).1 h'
  exact ⟨rfl, rfl⟩

-- cut within the name, within the value, within a fold and before the empty line
example : ∃ es s', FedItems {} [b! "d", b! "n: x", b! "y\n", b! " z\nc", b! "n: a\n", b! "\n", b! "\n\n"] es s' ∧
    es.map LdifEvent.short = [⟨.newEntry, q! "dn", b! "xyz", false⟩, ⟨.item, q! "cn", b! "a", false⟩, ⟨.endEntry, [], [], false⟩] := by
  refine ⟨_, _, (C40_pieces _ _ (by decide) _ _).2 ((items_feed _ _ _ _).2 ⟨rfl, rfl⟩), by decide⟩

/-! ### C41 -/

private theorem document_congr {a b : QByteArray} (h : (ldifFeed {} (a ++ [10, 10, 10])).1 = (ldifFeed {} (b ++ [10, 10, 10])).1) (es : List LdifEvent) :
    DocumentItems a es ↔ DocumentItems b es := by
  rw [document_feed, document_feed, h]

/-- C41 as stated is false of the code: with CR LF line ends, an entry ends after its first attribute. -/
theorem C41_crlf_false : ¬ ∀ (d : QByteArray) (es : List LdifEvent), 13 ∉ d → DocumentItems d es →
    ∃ fs, DocumentItems (crlf d) fs ∧ fs.map LdifEvent.short = es.map LdifEvent.short := by
  intro h
  obtain ⟨fs, h1, h2⟩ := h (b! "dn: a\ncn: b\nsn: c\n") _ (by decide) ((document_feed _ _).2 rfl)
  rw [document_feed] at h1
  subst h1
  revert h2
  decide

/-- C41 as stated is false of the code: a comment after the empty line that ends an entry hides the beginning of the next entry. -/
theorem C41_comment_false : ¬ ∀ (d₁ comment d₂ : QByteArray) (es : List LdifEvent), 10 ∉ comment → 13 ∉ comment → d₁.getLast? = some 10 →
    d₂.head? = some (c! 'd') → DocumentItems (d₁ ++ d₂) es →
    ∃ fs, DocumentItems (d₁ ++ b! "#" ++ comment ++ b! "\n" ++ d₂) fs ∧ fs.map LdifEvent.short = es.map LdifEvent.short := by
  intro h
  obtain ⟨fs, h1, h2⟩ := h (b! "dn: a\ncn: b\n\n") (b! " next") (b! "dn: c\ncn: d\n") _ (by decide) (by decide) (by decide) (by decide) ((document_feed _ _).2 rfl)
  rw [document_feed] at h1
  subst h1
  revert h2
  decide

/-- C41 as stated is false of the code: a comment in the first line of a document is not taken for one. -/
theorem C41_first_comment_false : ¬ ∀ (comment d : QByteArray) (es : List LdifEvent), 10 ∉ comment → 13 ∉ comment → d.head? = some (c! 'd') →
    DocumentItems d es → ∃ fs, DocumentItems (b! "#" ++ comment ++ b! "\n" ++ d) fs ∧ fs.map LdifEvent.short = es.map LdifEvent.short := by
  intro h
  obtain ⟨fs, h1, h2⟩ := h (b! " made by: me") (b! "dn: c\ncn: d\n") _ (by decide) (by decide) (by decide) ((document_feed _ _).2 rfl)
  rw [document_feed] at h1
  subst h1
  revert h2
  decide

private theorem char_lf (s : Ldif) : (s.char 10).2.isNewLine = true := by
  unfold Ldif.char
  simp

private theorem ldifFeed_lfcr (d : QByteArray) (h : 13 ∉ d) (t : QByteArray) (s : Ldif) : (ldifFeed s (lfcr d ++ t)) = (ldifFeed s (d ++ t)) := by
  induction d generalizing s with
  | nil => rfl
  | cons c d ih =>
    simp only [List.mem_cons, not_or] at h
    have ih' := ih h.2
    unfold lfcr at ih' ⊢
    rw [List.flatMap_cons]
    split
    · rename_i hc
      subst hc
      have e : ∀ w : Ldif, w.isNewLine = true → w.char 13 = (.none, w) := by intro w hw; simp [Ldif.char, hw]
      simp only [List.cons_append, List.nil_append, ldifFeed, e _ (char_lf s), ih']
      simp [ldifEmit]
    · simp only [List.cons_append, List.nil_append, ldifFeed, ih']

/-- C41, line ends: LF CR line ends give the same items as LF line ends. -/
theorem C41_lfcr_partial (d : QByteArray) (h : 13 ∉ d) (es : List LdifEvent) : DocumentItems (lfcr d) es ↔ DocumentItems d es := by
  apply document_congr
  rw [ldifFeed_lfcr d h]

private theorem char_other (s : Ldif) (c : UInt8) (h1 : c ≠ 10) (h2 : c ≠ 13) : (s.char c).2.isNewLine = false := by
  unfold Ldif.char
  have hp := processLine_newLine { s with isNewLine := false }
  split
  · simp_all
  · split
    · rfl
    · cases hn : s.isNewLine
      · simp only [Bool.false_eq_true, if_false, h1, h2, decide_false, Bool.or_self]
        split <;> simp [hn]
      · simp only [if_true, h1, h2, decide_false, Bool.or_self, Bool.false_eq_true, if_false]
        split <;> simpa using hp

private theorem ldifFeed_crlf (d : QByteArray) (h : 13 ∉ d) (t : QByteArray) (s : Ldif) :
    (ldifFeed s (crlf d ++ t)) = (ldifFeed s (spaced s.isNewLine d ++ t)) := by
  induction d generalizing s with
  | nil => rfl
  | cons c d ih =>
    simp only [List.mem_cons, not_or] at h
    have ih' := ih h.2
    unfold crlf at ih' ⊢
    rw [List.flatMap_cons, spaced]
    split
    · rename_i hc
      subst hc
      cases hn : s.isNewLine
      · have e : s.char 13 = s.char 10 := by simp [Ldif.char, hn]
        have hn' : (((s.char 10).2).char 10).2.isNewLine = true := char_lf _
        simp only [List.cons_append, List.nil_append, ldifFeed, e, ih', hn', Bool.false_eq_true, if_false]
      · have e : s.char 13 = (.none, s) := by simp [Ldif.char, hn]
        have hn' : (s.char 10).2.isNewLine = true := char_lf _
        simp only [List.cons_append, List.nil_append, ldifFeed, e, ih', hn', if_true]
        simp [ldifEmit]
    · rename_i hc
      have hn' := char_other s c hc (fun e => h.1 e.symm)
      simp only [List.cons_append, List.nil_append, ldifFeed, ih', hn']

/-- C41, what CR LF line ends do: they are read like an empty line after every line that is not empty. -/
theorem C41_crlf_exact (d : QByteArray) (h : 13 ∉ d) (es : List LdifEvent) : DocumentItems (crlf d) es ↔ DocumentItems (spaced false d) es := by
  apply document_congr
  rw [ldifFeed_crlf d h]

private theorem lineOf_end (s : Ldif) (h : s.lineOf.1 = .endEntry) : s.attr = [] ∧ s.value = [] := by
  have e : (s.attr.isEmpty && s.value.isEmpty) = true → s.attr = [] ∧ s.value = [] := by
    cases s.attr <;> cases s.value <;> simp
  unfold Ldif.lineOf at h
  revert h
  cases s.entryType <;> dsimp only
  · unfold Ldif.lineNone
    dsimp only
    repeat' split
    all_goals simp
  · split <;> simp_all
  · split <;> simp_all
  · unfold Ldif.lineMod
    dsimp only
    repeat' split
    all_goals simp_all
  · unfold Ldif.lineModrdn
    dsimp only
    repeat' split
    all_goals simp_all

/-- The first character of a line, once the line before is processed. -/
private def post (c : UInt8) (q : Ldif) : Ldif :=
  if c = 10 then { q with isComment := false, lineNumber := q.lineNumber + 1, isNewLine := true }
  else { q with isComment := c = c! '#', line := if c = c! '#' then [] else [c] }

private theorem char_pending (s : Ldif) (hs : s.isNewLine = true) (c : UInt8) (hc : c ≠ 32 ∧ c ≠ 9 ∧ c ≠ 13) :
    s.char c = (s.next.1, post c s.next.2) := by
  unfold Ldif.char post Ldif.next
  simp only [hs, hc.1, hc.2.1, hc.2.2, decide_false, Bool.and_false, Bool.false_eq_true, if_false, Bool.or_self, if_true, Bool.or_false, decide_eq_true_eq]
  split
  · rename_i h; subst h; rfl
  · by_cases h : c = c! '#'
    · subst h; simp
    · simp [h]

private theorem post_alike (c : UInt8) {q q' : Ldif} (h : Alike q q') : Alike (post c q) (post c q') := by
  obtain ⟨r, n, l, hl, rfl⟩ := h
  unfold post
  split
  · exact ⟨r, n + 1, l, hl, rfl⟩
  · exact ⟨r, n, l, hl, rfl⟩

private theorem next_comment (w : Ldif) (h : w.isComment = true) :
    w.next = (.none, { w with isNewLine := false, last := .none, line := [], isComment := false }) := by
  simp [Ldif.next, Ldif.processLine, h]

private theorem ldifEmit_post (r : ParseValue) (c : UInt8) (q : Ldif) : (ldifEmit r (post c q)).map LdifEvent.noLine = (ldifEmit r q).map LdifEvent.noLine := by
  unfold ldifEmit post
  split
  · rfl
  · split <;> rfl

/-- A comment line before a line, where the line before does not end an entry. -/
private theorem ldifFeed_comment (s : Ldif) (hs : s.isNewLine = true) (hr : s.next.1 ≠ .endEntry) (comment : QByteArray) (h10 : 10 ∉ comment) (h13 : 13 ∉ comment)
    (c : UInt8) (t : QByteArray) (hc : c ≠ 32 ∧ c ≠ 9 ∧ c ≠ 13) :
    (ldifFeed s (c! '#' :: comment ++ [10] ++ c :: t)).1.map LdifEvent.noLine = (ldifFeed s (c :: t)).1.map LdifEvent.noLine := by
  have e1 := char_pending s hs (c! '#') (by decide)
  have hl : s.next.2.last = s.next.1 := rfl
  have hli : s.next.2.line = [] := rfl
  have hic : s.next.2.isComment = false := rfl
  have hn := next_newLine s
  have ec := char_pending s hs c hc
  revert e1 ec hl hli hic hn hr
  generalize s.next.1 = r
  generalize s.next.2 = q
  intro hr e1 hl hli hic hn ec
  have e1' : s.char (c! '#') = (r, { q with isComment := true }) := by
    rw [e1]; simp [post, ← hli]
  have e2 : ∀ w : Ldif, w.isNewLine = false → w.isComment = true → ldifFeed w comment = ([], w) := by
    intro w h1 h2
    clear hc e1 ec
    induction comment with
    | nil => rfl
    | cons x xs ih =>
      simp only [List.mem_cons, not_or] at h10 h13
      have e : w.char x = (.none, w) := by
        have a : x ≠ 10 := fun e => h10.1 e.symm
        have b : x ≠ 13 := fun e => h13.1 e.symm
        simp [Ldif.char, h1, h2, a, b]
      simp only [ldifFeed, e, ih h10.2 h13.2]
      simp [ldifEmit]
  have e2' := e2 { q with isComment := true } hn rfl
  have e3 : Ldif.char { q with isComment := true } 10 = (.none, { q with isComment := true, lineNumber := q.lineNumber + 1, isNewLine := true }) := by
    simp [Ldif.char, hn]
  have e4 := char_pending { q with isComment := true, lineNumber := q.lineNumber + 1, isNewLine := true } rfl c hc
  rw [next_comment _ rfl] at e4
  have halike : Alike q { q with isComment := false, lineNumber := q.lineNumber + 1, isNewLine := false, last := .none, line := [] } := by
    refine ⟨q.rest, q.lineNumber + 1, .none, ?_, ?_⟩
    · rw [hl]; simp [hr]
    · cases q; simp only at hn hic hli; subst hn hic hli; rfl
  have hpost := post_alike c halike
  have e0 : c! '#' :: comment ++ [10] ++ c :: t = c! '#' :: (comment ++ 10 :: c :: t) := by simp
  rw [e0, ldifFeed, e1']
  dsimp only
  rw [ldifFeed_append, e2', ldifFeed, e3]
  dsimp only
  rw [ldifFeed, e4]
  dsimp only
  conv => rhs; rw [ldifFeed, ec]
  simp only [List.map_append]
  have h0 : ∀ x, ldifEmit .none x = [] := fun _ => rfl
  rw [h0, h0, ldifEmit_post r]
  simp only [List.map_nil, List.nil_append]
  rw [(ldifFeed_alike hpost t).1]
  congr 1

private theorem continues_folded (t : QByteArray) (h : Continues t = true) : ∃ u, Folded t u := by
  fun_induction Continues t with
  | case1 => exact ⟨[], .nil⟩
  | case2 => simp at h
  | case3 d t ih =>
    simp only [Bool.and_eq_true, Bool.or_eq_true, decide_eq_true_eq] at h
    obtain ⟨u, hu⟩ := ih h.2
    exact ⟨u, .fold h.1 hu⟩
  | case4 c t hc ih =>
    simp only [Bool.and_eq_true, decide_eq_true_eq] at h
    obtain ⟨u, hu⟩ := ih h.2
    exact ⟨c :: u, .char hc h.1 hu⟩

theorem trim_start (c : UInt8) (l : QByteArray) (h : isSpaceB c = false) : ∃ m, trimmedB (c :: l) = c :: m := by
  unfold trimmedB trim
  rw [List.dropWhile_cons_of_neg (by simp [h])]
  rw [List.reverse_cons]
  have : ∀ m : QByteArray, ∃ k, ((m ++ [c]).dropWhile isSpaceB).reverse = c :: k := by
    intro m
    induction m with
    | nil => exact ⟨[], by simp [h]⟩
    | cons x xs ih =>
      rw [List.cons_append, List.dropWhile_cons]
      split
      · exact ih
      · exact ⟨xs.reverse ++ [x], by simp⟩
  exact this l.reverse

/-- A line that starts with a visible character does not end an entry. -/
private theorem visible_split (c : UInt8) (l : QByteArray) (h1 : 33 ≤ c) (h2 : c ≤ 126) (h3 : c ≠ c! ':') :
    ¬ ((splitLine (c :: l)).1 = [] ∧ (splitLine (c :: l)).2.1 = []) := by
  have hn1 : 33 ≤ c.toNat := h1
  have hn2 : c.toNat ≤ 126 := h2
  have hsp : isSpaceB c = false := by
    unfold isSpaceB
    have a : c ≠ 32 := by rintro rfl; exact absurd hn1 (by decide)
    have b : ¬ c ≤ 13 := by intro h; have : c.toNat ≤ 13 := h; omega
    simp [a, b]
  rintro ⟨e1, e2⟩
  unfold splitLine at e1 e2
  cases hi : indexOf? (c! ':') (c :: l) with
  | none =>
    rw [hi] at e2
    obtain ⟨m, hm⟩ := trim_start c l hsp
    dsimp only at e2
    rw [hm] at e2
    exact absurd e2 (by simp)
  | some p =>
    rw [hi] at e1
    have hp : ∃ k, p = k + 1 := by
      rw [indexOf?, if_neg h3] at hi
      cases hj : indexOf? (c! ':') l with
      | none => rw [hj] at hi; simp at hi
      | some k => rw [hj] at hi; exact ⟨k, (by simpa using hi.symm)⟩
    obtain ⟨k, rfl⟩ := hp
    have hf : fromUtf8 (trimmedB ((c :: l).take (k + 1))) = [] := by
      revert e1
      dsimp only
      repeat' split
      all_goals exact id
    obtain ⟨m, hm⟩ := trim_start c (l.take k) hsp
    rw [List.take_succ_cons, hm] at hf
    unfold fromUtf8 at hf
    have hnb : (c :: m).take 3 ≠ [0xEF, 0xBB, 0xBF] := by
      intro h
      simp only [List.take_succ_cons, List.cons.injEq] at h
      rw [h.1] at hn2
      exact absurd hn2 (by decide)
    rw [if_neg hnb, decodeUtf8] at hf
    have : utf8Head c m = ([UInt16.ofNat c.toNat], 0) := by
      unfold utf8Head
      simp only [show c.toNat < 0x80 by omega, if_true]
    rw [this] at hf
    exact absurd hf (by simp)

private theorem alike_next_ne {s s' : Ldif} (h : Alike s s') (hr : s.next.1 ≠ .endEntry) : s'.next.1 ≠ .endEntry := by
  rw [(next_alike h).1]; exact hr

private theorem visible_next (s : Ldif) (c : UInt8) (u : QByteArray) (h1 : 33 ≤ c) (h2 : c ≤ 126) (h3 : c ≠ c! ':') :
    ({ s with line := c :: u, isNewLine := true } : Ldif).next.1 ≠ .endEntry := by
  unfold Ldif.next Ldif.processLine
  dsimp only
  split
  · simp
  · intro h
    exact visible_split c u h1 h2 h3 (lineOf_end _ h)

/-- After a visible line, a line is complete that does not end an entry. -/
private theorem after_visible (d l : QByteArray) (hd : d = [] ∨ d.getLast? = some 10) (hl : VisibleLine l) :
    (ldifFeed {} (d ++ l ++ [10])).2.isNewLine = true ∧ (ldifFeed {} (d ++ l ++ [10])).2.next.1 ≠ .endEntry := by
  obtain ⟨c, t, rfl, h1, h2, h3, ht⟩ := hl
  obtain ⟨u, hu⟩ := continues_folded t ht
  have hn1 : 33 ≤ c.toNat := h1
  have c10 : c ≠ 10 := by rintro rfl; exact absurd hn1 (by decide)
  have c13 : c ≠ 13 := by rintro rfl; exact absurd hn1 (by decide)
  have c32 : c ≠ 32 := by rintro rfl; exact absurd hn1 (by decide)
  have c9 : c ≠ 9 := by rintro rfl; exact absurd hn1 (by decide)
  have last10 : ∀ (w : Ldif) (x : QByteArray), (ldifFeed w (x ++ [10])).2.isNewLine = true := by
    intro w x
    rw [ldifFeed_append]
    exact char_lf _
  refine ⟨last10 _ _, ?_⟩
  have e10 : ∀ w : Ldif, w.isNewLine = false → w.char 10 = (.none, { w with lineNumber := w.lineNumber + 1, isNewLine := true }) := by
    intro w hw; simp [Ldif.char, hw]
  rcases hd with rfl | hd
  · -- the first line of the document
    have e : ({} : Ldif).char c = (.none, { line := [c] }) := by simp [Ldif.char, c10, c13]
    obtain ⟨k, hk⟩ := ldifFeed_in_line hu { line := [c] } rfl rfl
    have : (ldifFeed {} ([] ++ c :: t ++ [10])).2 = { line := c :: u, lineNumber := 0 + k + 1, isNewLine := true } := by
      rw [List.nil_append, List.cons_append, ldifFeed, e]
      dsimp only
      rw [ldifFeed_append, hk]
      simp only [ldifFeed]
      rw [e10 _ rfl]
      simp
    rw [this]
    exact visible_next { lineNumber := 0 + k + 1 } c u h1 h2 h3
  · have hw : (ldifFeed {} d).2.isNewLine = true := by
      obtain ⟨x, rfl⟩ : ∃ x, d = x ++ [10] := by
        have := List.getLast?_eq_some_iff.1 hd
        exact this
      exact last10 _ _
    rw [List.append_assoc, ldifFeed_append]
    dsimp only
    revert hw
    generalize (ldifFeed {} d).2 = w
    intro hw
    by_cases hh : c = c! '#'
    · subst hh
      have e := char_pending w hw (c! '#') (by decide)
      have hq := next_newLine w
      -- nothing of a comment is kept
      have keep : ∀ {t u : QByteArray}, Folded t u → ∀ v : Ldif, v.isNewLine = false → v.isComment = true →
          (ldifFeed v t).2.isNewLine = false ∧ (ldifFeed v t).2.isComment = true := by
        intro t u hf
        induction hf with
        | nil => exact fun v a b => ⟨a, b⟩
        | @char x t u hx1 hx2 _ ih =>
          intro v a b
          have : v.char x = (.none, v) := by simp [Ldif.char, a, b, hx1, hx2]
          simp only [ldifFeed, this]
          exact ih v a b
        | @fold x t u hx _ ih =>
          intro v a b
          have y1 := e10 v a
          have y2 : Ldif.char { v with lineNumber := v.lineNumber + 1, isNewLine := true } x = (.none, { v with lineNumber := v.lineNumber + 1, isNewLine := false }) := by
            rcases hx with rfl | rfl <;> simp [Ldif.char]
          simp only [ldifFeed, y1, y2]
          exact ih _ rfl b
      have hk := keep hu (post (c! '#') w.next.2) (by simp [post, hq]) (by simp [post])
      rw [List.cons_append, ldifFeed, e]
      dsimp only
      rw [ldifFeed_append]
      simp only [ldifFeed]
      rw [e10 _ hk.1]
      have hne : ∀ v : Ldif, v.isComment = true → v.next.1 ≠ .endEntry := by
        intro v hv; rw [next_comment v hv]; simp
      exact hne _ hk.2
    · have hf := ldifFeed_line (t := c :: t) (u := c :: u) (.inr ⟨c, t, u, rfl, rfl, ⟨c10, c13, c32, c9, hh⟩, hu⟩) w hw
      exact alike_next_ne hf.2 (visible_next _ c u h1 h2 h3)

/-- C41, comments: a comment line after any line that starts with a visible character other than a colon (an attribute, or another comment)
    changes nothing but the line numbers. -/
theorem C41_comment_partial (d l comment d' : QByteArray) (hd : d = [] ∨ d.getLast? = some 10) (hl : VisibleLine l) (h10 : 10 ∉ comment) (h13 : 13 ∉ comment)
    (hd' : ∀ c, d'.head? = some c → c ≠ 32 ∧ c ≠ 9 ∧ c ≠ 13) (es fs : List LdifEvent)
    (he : DocumentItems (d ++ l ++ b! "\n" ++ d') es) (hf : DocumentItems (d ++ l ++ b! "\n" ++ (b! "#" ++ comment ++ b! "\n") ++ d') fs) :
    fs.map LdifEvent.noLine = es.map LdifEvent.noLine := by
  rw [document_feed] at he hf
  subst he hf
  obtain ⟨h1, h2⟩ := after_visible d l hd hl
  have hc : ∃ c t, d' ++ [10, 10, 10] = c :: t ∧ c ≠ 32 ∧ c ≠ 9 ∧ c ≠ 13 := by
    cases d' with
    | nil => exact ⟨10, [10, 10], rfl, by decide⟩
    | cons c t => exact ⟨c, _, rfl, hd' c rfl⟩
  obtain ⟨c, t, ht, hc⟩ := hc
  have e1 : d ++ l ++ b! "\n" ++ d' ++ [10, 10, 10] = (d ++ l ++ [10]) ++ (c :: t) := by rw [← ht]; simp
  have e2 : d ++ l ++ b! "\n" ++ (b! "#" ++ comment ++ b! "\n") ++ d' ++ [10, 10, 10] = (d ++ l ++ [10]) ++ (c! '#' :: comment ++ [10] ++ c :: t) := by
    rw [← ht]; simp
  rw [e1, e2, ldifFeed_append {} (d ++ l ++ [10]), ldifFeed_append {} (d ++ l ++ [10])]
  simp only [List.map_append]
  rw [ldifFeed_comment _ h1 h2 comment h10 h13 c t hc]

-- comments between the attributes of an entry, one of them folded
example : VisibleLine (b! "cn: a\n b") := ⟨c! 'c', _, rfl, by decide, by decide, by decide, by decide⟩
example : VisibleLine (b! "# first comment") := ⟨c! '#', _, rfl, by decide, by decide, by decide, by decide⟩
example : ∃ es, DocumentItems (b! "dn: x\ncn: a\n b\n# one\n# two\nsn: c\n") es ∧
    es.map LdifEvent.short = [⟨.newEntry, q! "dn", b! "x", false⟩, ⟨.item, q! "cn", b! "ab", false⟩, ⟨.item, q! "sn", b! "c", false⟩, ⟨.endEntry, [], [], false⟩] :=
  ⟨_, (document_feed _ _).2 rfl, by decide⟩
example : crlf (b! "a: b\n\nc: d\n") = b! "a: b\r\n\r\nc: d\r\n" ∧ spaced false (b! "a: b\n\nc: d\n") = b! "a: b\n\n\nc: d\n\n" := by decide

end KC
