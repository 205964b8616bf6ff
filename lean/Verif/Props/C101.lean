import Verif.Props.C96
import Verif.Props.C43
/-
  C101: a broken LDIF text does not damage the entries after it.
-/
namespace KC
open KC.Spec

/-! ### between entries the import has nothing in hand -/

/-- The kind of entry the next line is read in. -/
def entryNow (s : Ldif) : EntryType := if s.last = .endEntry then .none else s.entryType

/-- The import has seen nothing of the next entry. -/
def IsFresh (E : LdifEnv) (ids : Nat → QString) (now : QDateTime) (x : LdifState) : Prop := ∃ n a b c, x = ldifFresh E ids now n a b c

/-- Outside of entries the import has seen nothing of the next entry. -/
def OutsideFresh (E : LdifEnv) (ids : Nat → QString) (now : QDateTime) (s : Ldif) (x : ImportState) : Prop := entryNow s = .none → IsFresh E ids now x.1

private theorem lineOf_kind (s : Ldif) : s.lineOf.1 = .endEntry ∨ s.lineOf.2.entryType ≠ .none ∨
    (s.entryType = .none ∧ s.lineOf.1 ≠ .item ∧ s.lineOf.1 ≠ .endEntry) := by
  unfold Ldif.lineOf
  cases he : s.entryType with
  | none =>
    unfold Ldif.lineNone
    dsimp only
    split
    · right; right; split <;> simp
    split
    · right; right; simp
    split
    · split
      · right; right; simp
      split
      · simp
      split
      · simp
      split
      · simp
      split
      · simp
      · right; right; simp
    split
    · right; right; simp
    split
    · simp
    · right; right; simp
  | add => right; left; simp [he]
  | del => right; left; simp [he]
  | mod =>
    unfold Ldif.lineMod
    dsimp only
    repeat' split
    all_goals simp [he]
  | modrdn =>
    unfold Ldif.lineModrdn
    dsimp only
    repeat' split
    all_goals simp [he]

private theorem emit_step (E : LdifEnv) (ids : Nat → QString) (now : QDateTime) (r : ParseValue) (s : Ldif) (x : ImportState) :
    (r = .endEntry → IsFresh E ids now (((ldifEmit r s).map LdifEvent.short).foldl (ldifStep E ids now) x).1) ∧
    (r ≠ .endEntry → r ≠ .item → ((ldifEmit r s).map LdifEvent.short).foldl (ldifStep E ids now) x = x) := by
  constructor
  · rintro rfl
    exact ⟨_, _, _, _, rfl⟩
  · intro h1 h2
    unfold ldifEmit
    cases r <;> first | rfl | exact absurd rfl h1 | exact absurd rfl h2

private theorem process_fresh (E : LdifEnv) (ids : Nat → QString) (now : QDateTime) (s t : Ldif) (x : ImportState) (h : OutsideFresh E ids now s x) :
    (entryNow { s.processLine.2 with last := s.processLine.1 } = .none →
      IsFresh E ids now (((ldifEmit s.processLine.1 t).map LdifEvent.short).foldl (ldifStep E ids now) x).1) := by
  unfold Ldif.processLine
  split
  · intro h2
    have e : entryNow s = .none := by
      unfold entryNow at h2 ⊢
      dsimp only at h2
      simp only [if_neg (show ParseValue.none ≠ .endEntry by decide)] at h2
      rw [h2]; simp
    exact h e
  · intro h2
    rcases lineOf_kind { s with entryType := if s.last = .endEntry then .none else s.entryType, attr := (splitLine s.line).1, value := (splitLine s.line).2.1, url := (splitLine s.line).2.2 } with k | k | ⟨k1, k2, k3⟩
    · exact (emit_step E ids now _ t x).1 k
    · refine (emit_step E ids now _ t x).1 (Classical.byContradiction fun h3 => k ?_)
      unfold entryNow at h2
      exact (if_neg h3).symm.trans h2
    · rw [(emit_step E ids now _ t x).2 k3 k2]
      exact h k1

private theorem char_fresh (E : LdifEnv) (ids : Nat → QString) (now : QDateTime) (s : Ldif) (c : UInt8) (x : ImportState) (h : OutsideFresh E ids now s x) :
    OutsideFresh E ids now (s.char c).2 (((ldifEmit (s.char c).1 (s.char c).2).map LdifEvent.short).foldl (ldifStep E ids now) x) := by
  have keep : ∀ t : Ldif, t.last = s.last → t.entryType = s.entryType → ∀ u, OutsideFresh E ids now t (((ldifEmit .none u).map LdifEvent.short).foldl (ldifStep E ids now) x) := by
    intro t h1 h2 u h3
    unfold entryNow at h3
    rw [h1, h2] at h3
    exact h h3
  unfold Ldif.char
  split
  · exact keep _ rfl rfl _
  split
  · exact keep _ rfl rfl _
  cases hn : s.isNewLine with
  | false =>
    simp only [Bool.false_eq_true, if_false]
    split
    · exact keep _ rfl rfl _
    · split
      · exact keep _ rfl rfl _
      · exact keep _ rfl rfl _
  | true =>
    simp only [if_true]
    have hp := fun t => process_fresh E ids now { s with isNewLine := false } t x h
    split
    · exact hp _
    · split
      · exact hp _
      · exact hp _

private theorem feed_fresh (E : LdifEnv) (ids : Nat → QString) (now : QDateTime) (t : QByteArray) : ∀ (s : Ldif) (x : ImportState), OutsideFresh E ids now s x →
    OutsideFresh E ids now (ldifFeed s t).2 (((ldifFeed s t).1.map LdifEvent.short).foldl (ldifStep E ids now) x) := by
  induction t with
  | nil => intro s x h; exact h
  | cons c t ih =>
    intro s x h
    have := ih _ _ (char_fresh E ids now s c x h)
    simp only [ldifFeed, List.map_append, List.foldl_append]
    exact this

/-- Reading the empty line. -/
private theorem blank_fresh (E : LdifEnv) (ids : Nat → QString) (now : QDateTime) (s : Ldif) (hb : AtBlank s) (x : ImportState) (h : OutsideFresh E ids now s x) :
    Ready (s.proc []).2 ∧ IsFresh E ids now (((ldifEmit (s.proc []).1 (s.proc []).2).map LdifEvent.short).foldl (ldifStep E ids now) x).1 := by
  have e : s.proc [] = s.next := by
    unfold Ldif.proc
    rw [← hb.line, ← hb.newLine]
  rw [e]
  have hp := process_fresh E ids now { s with isNewLine := false } s.next.2 x h
  have hr : entryNow s.next.2 = .none := by
    unfold entryNow Ldif.next
    dsimp only
    rcases blank_line { s with isNewLine := false } hb.line hb.comment with k | ⟨k, k'⟩
    · rw [if_pos k]
    · rw [if_neg (by rw [k]; decide), k']
  exact ⟨⟨rfl, hr⟩, hp hr⟩

/-- The items of a document of proper records read by a parser that waits for the line after an empty one. -/
private theorem records_after (linelen : Nat) (rs : List LdifRecord) (h : ∀ r ∈ rs, r.Proper) (s : Ldif) (hb : AtBlank s) (hr : Ready (s.proc []).2) :
    (ldifFeed s (rs.flatMap (LdifRecord.text linelen) ++ [10, 10, 10])).1.map LdifEvent.short =
      (ldifEmit (s.proc []).1 (s.proc []).2).map LdifEvent.short ++ rs.flatMap LdifRecord.items := by
  obtain ⟨ls, h1, h2, h3⟩ := records_text linelen rs (fun r hr => (h r hr).names)
  have hbl : LineText [] [] := .inl ⟨rfl, rfl⟩
  have hl := ldifFeed_lines (ls := ls ++ [([], []), ([], [])]) (by
    intro p hp
    simp only [List.mem_append, List.mem_cons, List.not_mem_nil, or_false, or_self] at hp
    rcases hp with hp | rfl
    · exact h1 p hp
    · exact hbl) s hb.newLine [] [] hbl
  have e : rs.flatMap (LdifRecord.text linelen) ++ [10, 10, 10] = textOf ((ls ++ [([], []), ([], [])]).map Prod.fst ++ [[]]) := by
    rw [h2]; simp [textOf]
  rw [e, short_of_noLine hl, hb.line]
  have e2 : (ls ++ [([], []), ([], [])]).map Prod.snd = rs.flatMap recordLines ++ [[], []] := by simp [h3]
  rw [e2, ldifRun, List.map_append, ldifRun_append]
  have hrr := ldifRun_records rs h hr
  simp only [List.map_append, hrr.1]
  have : (ldifRun (ldifRun (s.proc []).2 (rs.flatMap recordLines)).2 [[], []]).1 = [] := (ready_blanks hrr.2 2).1
  rw [this]
  simp

/-- The import of a text of complete entries and of proper records after it. -/
private theorem import_after (E : LdifEnv) (ids : Nat → QString) (now : QDateTime) (A : QString) (hA : EntriesComplete A) :
    ∃ (n : Nat) (b : Int × Int × Int) (out : List Contact × List Group), ldifToAddressee E ids now A = some out ∧
      ∀ (linelen : Nat) (rs : List LdifRecord), (∀ r ∈ rs, r.Proper) →
        ldifToAddressee E ids now (A ++ documentString (rs.flatMap (LdifRecord.text linelen))) =
          some ((rs.flatMap LdifRecord.items).foldl (ldifStep E ids now) (ldifFresh E ids now n b.2.2 b.2.1 b.1, out)).2 := by
  by_cases hne : A = []
  · subst hne
    refine ⟨0, (-1, -1, -1), ([], []), rfl, fun linelen rs h => ?_⟩
    exact import_all E ids now linelen rs h
  have hb := complete_blank hA hne
  have hf : OutsideFresh E ids now (ldifFeed {} (toLatin1 A)).2 (importState E ids now (toLatin1 A)) :=
    feed_fresh E ids now (toLatin1 A) {} _ (fun _ => ⟨_, _, _, _, rfl⟩)
  obtain ⟨k1, n, a, b, c, k2⟩ := blank_fresh E ids now _ hb _ hf
  refine ⟨n, (c, b, a), (((ldifEmit ((ldifFeed {} (toLatin1 A)).2.proc []).1 ((ldifFeed {} (toLatin1 A)).2.proc []).2).map LdifEvent.short).foldl
    (ldifStep E ids now) (importState E ids now (toLatin1 A))).2, ?_, ?_⟩
  · have := records_after 0 [] (by simp) _ hb k1
    rw [import_eq, importState_append]
    simp only [List.flatMap_nil, List.nil_append, List.append_nil] at this
    rw [this]
  · intro linelen rs h
    rw [import_eq, toLatin1_append, toLatin1_document, List.append_assoc, importState_append, records_after linelen rs h _ hb k1, List.foldl_append]
    rw [← k2]

/-- C101: the entries after any text of complete entries, however broken, are imported as they are on their own, after what that text gives, but for
    their birthdays. (The UUIDs of new objects are taken from `ids`, for each entry from some number on.) -/
theorem C101 (E : LdifEnv) (ids : Nat → QString) (now : QDateTime) (A : QString) (hA : EntriesComplete A) (linelen : Nat) (rs : List LdifRecord)
    (h : ∀ r ∈ rs, r.Proper) :
    ∃ (ca : List Contact) (ga : List Group) (parts : List (Nat × List Contact × List Group)) (contacts : List Contact),
      ldifToAddressee E ids now A = some (ca, ga) ∧ parts.length = rs.length ∧
      (∀ p ∈ rs.zip parts, ImportGives E ids now p.2.1 (p.1.text linelen) p.2.2) ∧
      ldifToAddressee E ids now (A ++ documentString (rs.flatMap (LdifRecord.text linelen))) = some (ca ++ contacts, ga ++ parts.flatMap (·.2.2)) ∧
      contacts.map noBirthday = (parts.flatMap (·.2.1)).map noBirthday := by
  obtain ⟨n, b, out, k1, k2⟩ := import_after E ids now A hA
  obtain ⟨parts, h1, h2, h3⟩ := import_many E ids now (fun _ x y => x.1.map noBirthday = y.1.map noBirthday ∧ x.2 = y.2) (fun _ _ => True)
    (fun b r rs k _ => noBirthday_result _ _ _ _ _) (fun _ _ _ _ => trivial) linelen rs h b n out trivial
  have e : ∀ p ∈ parts, p.2.1.1.map noBirthday = p.2.2.1.map noBirthday ∧ p.2.1.2 = p.2.2.2 := by
    intro p hp
    obtain ⟨i, hi, rfl⟩ := List.getElem_of_mem hp
    have hm : (rs[i]'(by omega), parts[i]) ∈ rs.zip parts := by
      rw [List.mem_iff_getElem]
      exact ⟨i, by simp; omega, by simp⟩
    exact (h2 _ hm).2
  refine ⟨out.1, out.2, parts.map fun p => (p.1, p.2.1), parts.flatMap (·.2.2.1), k1, by simp [h1], ?_, ?_, ?_⟩
  · intro p hp
    rw [List.zip_map_right, List.mem_map] at hp
    obtain ⟨q, hq, rfl⟩ := hp
    exact (h2 q hq).1
  · rw [k2 linelen rs h, h3]
    have e2 : parts.map (fun p => p.2.2.2) = parts.map (fun p => p.2.1.2) := List.map_congr_left fun p hp => (e p hp).2.symm
    simp only [List.flatMap_def, e2, List.map_map]
    rfl
  · have e1 : parts.map (fun p => p.2.2.1.map noBirthday) = parts.map (fun p => p.2.1.1.map noBirthday) := List.map_congr_left fun p hp => (e p hp).1.symm
    rw [List.map_flatMap, List.map_flatMap, List.flatMap_map, List.flatMap_def, List.flatMap_def, e1]

/-- C101: with their birthdays, if they say all about them. -/
theorem C101_birthday (E : LdifEnv) (ids : Nat → QString) (now : QDateTime) (A : QString) (hA : EntriesComplete A) (linelen : Nat) (rs : List LdifRecord)
    (h : ∀ r ∈ rs, r.Proper) (hb : ∀ r ∈ rs, ∀ n ∈ birthNames, r.Has n) :
    ∃ (ca : List Contact) (ga : List Group) (parts : List (Nat × List Contact × List Group)),
      ldifToAddressee E ids now A = some (ca, ga) ∧ parts.length = rs.length ∧
      (∀ p ∈ rs.zip parts, ImportGives E ids now p.2.1 (p.1.text linelen) p.2.2) ∧
      ldifToAddressee E ids now (A ++ documentString (rs.flatMap (LdifRecord.text linelen))) =
        some (ca ++ parts.flatMap (·.2.1), ga ++ parts.flatMap (·.2.2)) := by
  obtain ⟨n, b, out, k1, k2⟩ := import_after E ids now A hA
  obtain ⟨parts, h1, h2, h3⟩ := import_many E ids now (fun _ x y => x = y) (fun _ rs => ∀ r ∈ rs, ∀ n ∈ birthNames, r.Has n)
    (by
      intro b r rs k hb
      rw [result_moved _ k, birthOf_all (hb r (by simp)) b (-1, -1, -1)])
    (fun b r rs hb x hx => hb x (by simp [hx])) linelen rs h b n out hb
  have e : ∀ p ∈ parts, p.2.2 = p.2.1 := by
    intro p hp
    obtain ⟨i, hi, rfl⟩ := List.getElem_of_mem hp
    have hm : (rs[i]'(by omega), parts[i]) ∈ rs.zip parts := by
      rw [List.mem_iff_getElem]
      exact ⟨i, by simp; omega, by simp⟩
    exact ((h2 _ hm).2).symm
  refine ⟨out.1, out.2, parts.map fun p => (p.1, p.2.1), k1, by simp [h1], ?_, ?_⟩
  · intro p hp
    rw [List.zip_map_right, List.mem_map] at hp
    obtain ⟨q, hq, rfl⟩ := hp
    exact (h2 q hq).1
  · rw [k2 linelen rs h, h3]
    simp only [List.flatMap_map]
    have e1 : parts.map (fun p => p.2.2.1) = parts.map (fun p => p.2.1.1) := List.map_congr_left fun p hp => by rw [e p hp]
    have e2 : parts.map (fun p => p.2.2.2) = parts.map (fun p => p.2.1.2) := List.map_congr_left fun p hp => by rw [e p hp]
    simp only [List.flatMap_def, e1, e2]

/-- C101: any text at all, cut off anywhere, is made complete by two line ends, which change nothing of what it gives. -/
theorem C101_cut (E : LdifEnv) (ids : Nat → QString) (now : QDateTime) (T : QString) :
    EntriesComplete (T ++ [10, 10]) ∧ ldifToAddressee E ids now (T ++ [10, 10]) = ldifToAddressee E ids now T := by
  have hA : EntriesComplete (T ++ [10, 10]) := .inr ⟨T, .inl rfl⟩
  refine ⟨hA, ?_⟩
  have hb := complete_blank hA (by simp)
  have hf : OutsideFresh E ids now (ldifFeed {} (toLatin1 (T ++ [10, 10]))).2 (importState E ids now (toLatin1 (T ++ [10, 10]))) :=
    feed_fresh E ids now _ {} _ (fun _ => ⟨_, _, _, _, rfl⟩)
  obtain ⟨k1, -⟩ := blank_fresh E ids now _ hb _ hf
  have h1 := records_after 0 [] (by simp) _ hb k1
  have h2 := ldifFeed_lines (ls := []) (by simp) _ hb.newLine [] [] (.inl ⟨rfl, rfl⟩)
  simp only [List.flatMap_nil, List.nil_append, List.append_nil] at h1
  simp only [textOf, List.map_nil, List.nil_append, List.map_cons, List.flatten_cons, List.flatten_nil, List.append_nil, hb.line] at h2
  have e : toLatin1 T ++ [10, 10, 10] = toLatin1 (T ++ [10, 10]) ++ [10] := by
    rw [toLatin1_append, List.append_assoc]; rfl
  rw [import_eq, import_eq, importState_append, h1, e, importState_append, short_of_noLine h2]
  simp only [ldifRun, List.append_nil]

/-- C101 does not hold without the empty line: the entry after a text that ends within an entry becomes a part of that. -/
theorem C101_glued_false : ¬ ∀ (E : LdifEnv) (ids : Nat → QString) (now : QDateTime) (T : QString) (linelen : Nat) (rs : List LdifRecord),
    (∀ r ∈ rs, r.Proper) → ∃ (ca c : List Contact) (ga g : List Group), ldifToAddressee E ids now (T ++ [10]) = some (ca, ga) ∧
      ImportGives E ids now 0 (rs.flatMap (LdifRecord.text linelen)) (c, g) ∧
      ∃ c' g', ldifToAddressee E ids now (T ++ [10] ++ documentString (rs.flatMap (LdifRecord.text linelen))) = some (c', g') ∧ c'.length = ca.length + c.length := by
  intro h
  obtain ⟨ca, c, ga, g, h1, h2, c', g', h3, h4⟩ := h sampleLdifEnv (fun _ => []) sampleNow (documentString (b! "dn: a\ncn: b")) 0 [unborn] (by
    intro r hr
    simp only [List.mem_cons, List.not_mem_nil, or_false] at hr
    rw [hr]
    exact unborn_proper)
  have b1 : (ldifToAddressee sampleLdifEnv (fun _ => []) sampleNow (documentString (b! "dn: a\ncn: b") ++ [10])).map (fun r => r.1.length) = some 1 := by
    decide +kernel
  have b2 : (ldifToAddressee sampleLdifEnv (fun _ => []) sampleNow (documentString ([unborn].flatMap (LdifRecord.text 0)))).map (fun r => r.1.length) = some 1 := by
    decide +kernel
  have b3 : (ldifToAddressee sampleLdifEnv (fun _ => []) sampleNow (documentString (b! "dn: a\ncn: b") ++ [10] ++
      documentString ([unborn].flatMap (LdifRecord.text 0)))).map (fun r => r.1.length) = some 1 := by
    decide +kernel
  unfold ImportGives at h2
  simp only [Nat.zero_add] at h2
  rw [h1] at b1
  rw [h2] at b2
  rw [h3] at b3
  simp only [Option.map_some, Option.some.injEq] at b1 b2 b3
  omega

/-- C101 with the birthdays is false of the code: the entry after a text with a birth date gets that. -/
theorem C101_birthday_false : ¬ ∀ (E : LdifEnv) (ids : Nat → QString) (now : QDateTime) (A : QString), EntriesComplete A → ∀ (linelen : Nat) (r : LdifRecord),
    r.Proper → ∃ (ca : List Contact) (ga : List Group) (k : Nat) (p : List Contact × List Group), ldifToAddressee E ids now A = some (ca, ga) ∧
      ImportGives E ids now k (r.text linelen) p ∧ ldifToAddressee E ids now (A ++ documentString (r.text linelen)) = some (ca ++ p.1, ga ++ p.2) := by
  intro h
  obtain ⟨ca, ga, k, p, h1, h2, h3⟩ := h sampleLdifEnv (fun _ => []) sampleNow (documentString (b! "birthyear: 1980\nbirthmonth: 5\nbirthday: 17\n\n"))
    (.inr ⟨documentString (b! "birthyear: 1980\nbirthmonth: 5\nbirthday: 17"), .inl (by decide +kernel)⟩) 0 unborn unborn_proper
  have b1 : (ldifToAddressee sampleLdifEnv (fun _ => []) sampleNow (documentString (b! "birthyear: 1980\nbirthmonth: 5\nbirthday: 17\n\n"))).map
      (fun r => r.1.map fun c => c.birthday.isSome) = some [] := by decide +kernel
  have b2 : (ldifToAddressee sampleLdifEnv (fun _ => []) sampleNow (documentString (unborn.text 0))).map (fun r => r.1.map fun c => c.birthday.isSome) = some [false] := by
    decide +kernel
  have b3 : (ldifToAddressee sampleLdifEnv (fun _ => []) sampleNow (documentString (b! "birthyear: 1980\nbirthmonth: 5\nbirthday: 17\n\n") ++
      documentString (unborn.text 0))).map (fun r => r.1.map fun c => c.birthday.isSome) = some [true] := by
    decide +kernel
  unfold ImportGives at h2
  rw [h1] at b1
  have h2' : ldifToAddressee sampleLdifEnv (fun _ => []) sampleNow (documentString (unborn.text 0)) = some p := h2
  rw [h2'] at b2
  rw [h3] at b3
  simp only [Option.map_some, Option.some.injEq, List.map_append] at b1 b2 b3
  rw [b1, b2] at b3
  exact absurd b3 (by decide)

-- a text with a broken line, a change record without end and a line that is cut off
example : EntriesComplete (documentString (b! "dn: a\nchangetype: modify\nadd: x\n-x\ncn:: %%\ndn") ++ [10, 10]) := (C101_cut sampleLdifEnv (fun _ => []) sampleNow _).1
example : (∀ r ∈ [unborn, born], r.Proper) ∧ (∀ n ∈ birthNames, born.Has n) ∧
    (ldifToAddressee sampleLdifEnv (fun _ => []) sampleNow (documentString (b! "dn: a\nchangetype: modify\nadd: x\n-x\ncn:: %%\ndn") ++ [10, 10] ++
      documentString ([unborn, born].flatMap (LdifRecord.text 0)))).map (fun r => r.1.length) = some 2 := by
  refine ⟨?_, ?_, by decide +kernel⟩
  · intro r hr
    simp only [List.mem_cons, List.not_mem_nil, or_false] at hr
    rcases hr with rfl | rfl
    · exact unborn_proper
    · exact born_proper
  · intro n hn
    simp only [birthNames, List.mem_cons, List.not_mem_nil, or_false] at hn
    rcases hn with rfl | rfl | rfl
    · exact ⟨(q! "birthyear", b! "1980"), by decide, by decide⟩
    · exact ⟨(q! "birthmonth", b! "5"), by decide, by decide⟩
    · exact ⟨(q! "birthday", b! "17"), by decide, by decide⟩

end KC
