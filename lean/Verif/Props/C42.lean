import Verif.Lemmas.Ldif
/-
  C42 — an LDIF record is read back as written.
  C61 — a parser that is started again reads like a new one.
-/
namespace KC
open KC.Spec

theorem records_text (linelen : Nat) (rs : List LdifRecord) (h : ∀ r ∈ rs, ∀ a ∈ r.attrs, LdifName a.1) :
    ∃ ls : List (QByteArray × QByteArray), (∀ p ∈ ls, LineText p.1 p.2) ∧ rs.flatMap (LdifRecord.text linelen) = textOf (ls.map Prod.fst) ∧
      ls.map Prod.snd = rs.flatMap recordLines := by
  induction rs with
  | nil => exact ⟨[], by simp, rfl, rfl⟩
  | cons r rs ih =>
    obtain ⟨ls, h1, h2, h3⟩ := ih (fun r' hr => h r' (by simp [hr]))
    have hr := h r (by simp)
    refine ⟨(assembleLine (q! "dn") r.dn linelen false, plainLine (q! "dn") r.dn) ::
      (r.attrs.map fun a => (assembleLine a.1 a.2 linelen false, plainLine a.1 a.2)) ++ ([], []) :: ls, ?_, ?_, ?_⟩
    · intro p hp
      simp only [List.cons_append, List.mem_cons, List.mem_append, List.mem_map] at hp
      rcases hp with rfl | ⟨a, ha, rfl⟩ | rfl | hp
      · exact assembleLine_text dn_name _ _
      · exact assembleLine_text (hr a ha) _ _
      · exact .inl ⟨rfl, rfl⟩
      · exact h1 p hp
    · rw [List.flatMap_cons, h2]
      have e : ∀ as : List (QString × QByteArray), (as.flatMap fun a => ldifLine linelen a.1 a.2)
          = textOf ((as.map fun a => (assembleLine a.1 a.2 linelen false, plainLine a.1 a.2)).map Prod.fst) := by
        intro as
        induction as with
        | nil => rfl
        | cons a as ih => simp only [List.flatMap_cons, List.map_cons, ih]; simp [textOf, ldifLine]
      rw [LdifRecord.text, e]
      simp [textOf, ldifLine]
    · simp [h3, recordLines]

/-- C42: a document of any number of records, each with a distinguished name and attributes (the first one not empty and not a keyword), written line
    by line with any line length, is read as those records: a new entry, the attributes in order, and the end of the entry. -/
theorem C42_partial (linelen : Nat) (rs : List LdifRecord) (h : ∀ r ∈ rs, r.Proper) (es : List LdifEvent)
    (he : DocumentItems (rs.flatMap (LdifRecord.text linelen)) es) : es.map LdifEvent.short = rs.flatMap LdifRecord.items := by
  obtain ⟨ls, h1, h2, h3⟩ := records_text linelen rs (fun r hr => (h r hr).names)
  rw [h2] at he
  have hd := document_lines h1 es he
  rw [short_of_noLine hd, h3]
  have hr := ldifRun_records rs h ready_new
  rw [ldifRun_append]
  have hb := ready_blanks hr.2 2
  simp only [List.map_append]
  rw [hr.1]
  have : (ldifRun (ldifRun {} (rs.flatMap recordLines)).2 [[], []]).1 = [] := hb.1
  rw [this]
  simp

/-- Every document can be read. -/
theorem C42_readable (text : QByteArray) : ∃ es, DocumentItems text es := ⟨_, (document_feed _ _).2 rfl⟩

private theorem name_cn : LdifName (q! "cn") := by
  refine ⟨by decide, ⟨"cn".toList, by decide⟩, by decide, by decide, by decide, by decide, by decide, ?_, ?_⟩ <;>
  · intro c hc; simp at hc; subst hc; unfold AsciiSpace; decide

private theorem name_control : LdifName (q! "Control") := by
  refine ⟨by decide, ⟨"Control".toList, by decide⟩, by decide, by decide, by decide, by decide, by decide, ?_, ?_⟩ <;>
  · intro c hc; simp at hc; subst hc; unfold AsciiSpace; decide

/-- C42 as stated is false of the code: a record whose only attribute is empty has no end. -/
theorem C42_empty_false : ¬ ∀ (linelen : Nat) (r : LdifRecord), r.attrs ≠ [] → (∀ a ∈ r.attrs, LdifName a.1) →
    ∀ es, DocumentItems (r.text linelen) es → es.map LdifEvent.short = r.items := by
  intro h
  have := h 0 ⟨b! "a", [(q! "cn", [])]⟩ (by simp) (by simp [name_cn]) _ ((document_feed _ _).2 rfl)
  revert this
  decide

/-- C42 as stated is false of the code: an attribute called like a keyword is not an item directly after the distinguished name. -/
theorem C42_keyword_false : ¬ ∀ (linelen : Nat) (r : LdifRecord), r.attrs ≠ [] → (∀ a ∈ r.attrs, LdifName a.1 ∧ a.2 ≠ []) →
    ∀ es, DocumentItems (r.text linelen) es → es.map LdifEvent.short = r.items := by
  intro h
  have := h 0 ⟨b! "a", [(q! "Control", b! "x")]⟩ (by simp) (by simp [name_control]) _ ((document_feed _ _).2 rfl)
  revert this
  decide

-- two records, with a value that needs base64, an empty value and a keyword further down
private theorem sample_proper : LdifRecord.Proper ⟨b! "cn=x, o=y", [(q! "cn", [0xC3, 0xBC]), (q! "cn", []), (q! "Control", b! "z")]⟩ :=
  ⟨by simp [name_cn, name_control], ⟨_, _, rfl, by decide, by decide⟩⟩
example : ∀ r ∈ [LdifRecord.mk (b! "cn=x, o=y") [(q! "cn", [0xC3, 0xBC]), (q! "cn", []), (q! "Control", b! "z")], ⟨[], [(q! "cn", b! "b")]⟩], r.Proper := by
  intro r hr
  simp only [List.mem_cons, List.not_mem_nil, or_false] at hr
  rcases hr with rfl | rfl
  · exact sample_proper
  · exact ⟨by simp [name_cn], ⟨_, _, rfl, by decide, by decide⟩⟩

/-! ### C61 -/

private theorem restarted_feed (s : Ldif) (t : QByteArray) (es : List LdifEvent) :
    RestartedItems s t es ↔ es = (ldifFeed (s.startParsing []) (t ++ [10, 10, 10])).1 := by
  unfold RestartedItems
  constructor
  · rintro ⟨es₁, s₁, es₂, s₂, h1, h2, rfl⟩
    obtain ⟨rfl, rfl⟩ := (items_feed _ _ _ _).1 h1
    obtain ⟨rfl, rfl⟩ := (items_scan _ _ _ _).1 h2
    rw [ldifFeed_append]
    have e := congrArg Prod.fst (ldifFeed_rest (ldifFeed (s.startParsing []) t).2 [] [10, 10, 10])
    exact congrArg _ e
  · rintro rfl
    refine ⟨_, _, _, _, (items_feed _ _ _ _).2 ⟨rfl, rfl⟩, (items_scan [10, 10, 10] _ _ _).2 ⟨rfl, rfl⟩, ?_⟩
    rw [ldifFeed_append]
    have e := congrArg Prod.fst (ldifFeed_rest (ldifFeed (s.startParsing []) t).2 [] [10, 10, 10])
    exact (congrArg _ e).symm

/-- The first line of a document. -/
private theorem ldifFeed_first_line {t u : QByteArray} (h : LineText t u) (s : Ldif) (h1 : s.isNewLine = false) (h2 : s.isComment = false) (h3 : s.line = []) :
    (ldifFeed s (t ++ [10])).1 = [] ∧ Alike { s with line := u, isNewLine := true } (ldifFeed s (t ++ [10])).2 := by
  have e10 : ∀ w : Ldif, w.isNewLine = false → w.char 10 = (.none, { w with lineNumber := w.lineNumber + 1, isNewLine := true }) := by
    intro w hw; simp [Ldif.char, hw]
  have hf : Folded t u := by
    rcases h with ⟨rfl, rfl⟩ | ⟨c, t', u', rfl, rfl, hc, hf⟩
    · exact .nil
    · exact .char hc.1 hc.2.1 hf
  obtain ⟨k, hk⟩ := ldifFeed_in_line hf s h1 h2
  rw [ldifFeed_append, hk]
  simp only [ldifFeed]
  rw [e10 _ (by exact h1), h3]
  exact ⟨rfl, ⟨s.rest, s.lineNumber + k + 1, s.last, Iff.rfl, rfl⟩⟩

private theorem restarted_lines {ls : List (QByteArray × QByteArray)} (h : ∀ p ∈ ls, LineText p.1 p.2) (s : Ldif) (es : List LdifEvent)
    (he : RestartedItems s (textOf (ls.map Prod.fst)) es) :
    es.map LdifEvent.noLine = (ldifRun (s.startParsing []) (ls.map Prod.snd ++ [[], []])).1.map LdifEvent.noLine := by
  rw [restarted_feed] at he
  subst he
  have hb : LineText [] [] := .inl ⟨rfl, rfl⟩
  have h2 : ∀ p ∈ ls ++ [([], []), ([], [])], LineText p.1 p.2 := by
    intro p hp
    simp only [List.mem_append, List.mem_cons, List.not_mem_nil, or_false, or_self] at hp
    rcases hp with hp | rfl
    · exact h p hp
    · exact hb
  have e : textOf (ls.map Prod.fst) ++ [10, 10, 10] = textOf ((ls ++ [([], []), ([], [])]).map Prod.fst ++ [[]]) := by simp [textOf]
  have e' : ls.map Prod.snd ++ [[], []] = (ls ++ [([], []), ([], [])]).map Prod.snd := by simp
  rw [e, e']
  revert h2
  cases hm : ls ++ [([], []), ([], [])] with
  | nil => simp at hm
  | cons p ms =>
    intro h2
    have hf := ldifFeed_first_line (h2 p (by simp)) (s.startParsing []) rfl rfl rfl
    have h3 := ldifFeed_lines (ls := ms) (fun q hq => h2 q (by simp [hq])) { s.startParsing [] with line := p.2, isNewLine := true } rfl [] [] hb
    have e2 : textOf ((p :: ms).map Prod.fst ++ [[]]) = (p.1 ++ [10]) ++ textOf (ms.map Prod.fst ++ [[]]) := by simp [textOf]
    rw [e2, ldifFeed_append]
    simp only [hf.1, List.nil_append]
    rw [(ldifFeed_alike hf.2 _).1, h3]
    rfl

/-- C61: whatever a parser has read before, started again it reads any document of proper records as a new parser does: as those records. -/
theorem C61_partial (s : Ldif) (linelen : Nat) (rs : List LdifRecord) (h : ∀ r ∈ rs, r.Proper) (es : List LdifEvent)
    (he : RestartedItems s (rs.flatMap (LdifRecord.text linelen)) es) : es.map LdifEvent.short = rs.flatMap LdifRecord.items := by
  obtain ⟨ls, h1, h2, h3⟩ := records_text linelen rs (fun r hr => (h r hr).names)
  rw [h2] at he
  have hd := restarted_lines h1 s es he
  rw [short_of_noLine hd, h3]
  have hr := ldifRun_records rs h (s := s.startParsing []) ⟨rfl, rfl⟩
  rw [ldifRun_append]
  have hb := ready_blanks hr.2 2
  simp only [List.map_append]
  rw [hr.1]
  have : (ldifRun (ldifRun (s.startParsing []) (rs.flatMap recordLines)).2 [[], []]).1 = [] := hb.1
  rw [this]
  simp

/-- C61 as stated is false of the code: a document with a version line, read by a parser that has seen an entry before, starts with an error. -/
theorem C61_false : ¬ ∀ (s : Ldif) (text : QByteArray) (es fs : List LdifEvent), DocumentItems text es → RestartedItems s text fs →
    fs.map LdifEvent.short = es.map LdifEvent.short := by
  intro h
  have := h (ldifFeed {} (b! "dn: a\ncn: b\n\n")).2 (b! "version: 1\n\ndn: c\ncn: d\n") _ _ ((document_feed _ _).2 rfl) ((restarted_feed _ _ _).2 rfl)
  revert this
  decide

end KC
