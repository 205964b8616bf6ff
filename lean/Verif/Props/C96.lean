import Verif.Props.C43
import Verif.Props.C44
import Verif.Props.C77
/-
  C96: an LDIF file that is cut off at any character.
-/
namespace KC
open KC.Spec

namespace Spec

/-- The text is empty or ends with an empty line, which ends an entry. -/
def EntriesComplete (t : QString) : Prop := t = [] ∨ ∃ p, t = p ++ [10, 10] ∨ t = p ++ [10, 13, 10]

/-- What follows is not the continuation of a folded line. -/
def NewLineStart (t : QString) : Prop := ∀ c, t.head? = some c → c ≠ 32 ∧ c ≠ 9 ∧ c ≠ 13

end Spec

/-! ### blank lines -/

/-- The parser has read an empty line and waits for the next one. -/
structure AtBlank (s : Ldif) : Prop where
  newLine : s.isNewLine = true
  line : s.line = []
  comment : s.isComment = false

theorem char_newline (s : Ldif) : (s.char 10).2.isNewLine = true := by
  unfold Ldif.char
  simp

theorem char_newline_blank {s : Ldif} (h : s.isNewLine = true) : AtBlank (s.char 10).2 := by
  unfold Ldif.char
  simp only [h]
  exact ⟨by simp, by simp, by simp⟩

theorem char_cr {s : Ldif} (h : s.isNewLine = true) : s.char 13 = (.none, s) := by
  unfold Ldif.char
  simp [h]

theorem lineOf_blank (t : Ldif) (ha : t.attr = []) (hv : t.value = []) :
    t.lineOf.1 = .endEntry ∨ (t.lineOf.1 = .none ∧ t.lineOf.2.entryType = .none) := by
  have l0 : toLowerQ ([] : QString) = [] := rfl
  unfold Ldif.lineOf
  cases he : t.entryType with
  | none => exact .inr (by simp [Ldif.lineNone, ha, hv, l0, he])
  | add => exact .inl (by simp [ha, hv])
  | del => exact .inl (by simp [ha, hv])
  | mod =>
    have f0 : fromUtf8 [] = [] := by decide
    refine .inl ?_
    simp only [Ldif.lineMod, ha, hv, f0]
    split
    · simp
    · simp
  | modrdn => exact .inl (by simp [Ldif.lineModrdn, ha, hv])

/-- The kind of item of a line end without text depends only on the entry. -/
theorem blank_line (s : Ldif) (h : s.line = []) (hc : s.isComment = false) :
    s.processLine.1 = .endEntry ∨ (s.processLine.1 = .none ∧ s.processLine.2.entryType = .none) := by
  unfold Ldif.processLine
  rw [if_neg (by rw [hc]; decide)]
  refine lineOf_blank _ ?_ ?_
  · show (splitLine s.line).1 = []
    rw [h]; rfl
  · show (splitLine s.line).2.1 = []
    rw [h]; rfl

theorem char_at_blank {s : Ldif} (h : AtBlank s) (c : UInt8) (h1 : c ≠ 13) (h2 : c ≠ 32) (h3 : c ≠ 9) :
    (s.char c).1 = (({ s with isNewLine := false } : Ldif).processLine).1 ∧ (s.char c).2.last = (s.char c).1 ∧
    (s.char c).2.entryType = (({ s with isNewLine := false } : Ldif).processLine).2.entryType := by
  unfold Ldif.char
  simp only [h.newLine, h1, h2, h3]
  simp only [decide_false, Bool.or_self, Bool.and_false, Bool.false_eq_true, if_false, Bool.or_false, if_true]
  by_cases h10 : c = 10
  · simp [h10]
  · simp [h10]
    split <;> simp

/-- the kinds of the items: at most one, the end of an entry -/
def Ends (is : List LdifItem) : Prop := ∀ i ∈ is, i.kind = .endEntry

theorem emit_kind (r : ParseValue) (s : Ldif) : (ldifEmit r s).map (fun e => e.kind) = if r = .none then [] else [r] := by
  unfold ldifEmit
  split <;> rfl

theorem blank_ends {s : Ldif} (h : AtBlank s) : Ends ((ldifEmit (s.char 10).1 (s.char 10).2).map LdifEvent.short) := by
  obtain ⟨e1, -, -⟩ := char_at_blank h 10 (by decide) (by decide) (by decide)
  have := blank_line { s with isNewLine := false } h.line h.comment
  intro i hi
  obtain ⟨e, he, rfl⟩ := List.mem_map.1 hi
  have hk : e.kind ∈ (ldifEmit (s.char 10).1 (s.char 10).2).map (fun e => e.kind) := List.mem_map_of_mem he
  rw [emit_kind, e1] at hk
  rcases this with h | ⟨h, -⟩
  · rw [h] at hk
    have : e.kind = .endEntry := by simpa using hk
    exact this
  · rw [h] at hk; simp at hk

/-- At the end of the text: at most one item, then ends of entries. -/
theorem tail_items (s : Ldif) : ∃ e b : List LdifItem, (ldifFeed s [10, 10, 10]).1.map LdifEvent.short = e ++ b ∧ e.length ≤ 1 ∧ Ends b := by
  have hl : ∀ r (t : Ldif), ((ldifEmit r t).map LdifEvent.short).length ≤ 1 := by
    intro r t; unfold ldifEmit; split <;> simp
  by_cases hn : s.isNewLine = true
  · refine ⟨(ldifEmit (s.char 10).1 (s.char 10).2).map LdifEvent.short,
      (ldifEmit ((s.char 10).2.char 10).1 ((s.char 10).2.char 10).2).map LdifEvent.short ++
        (ldifEmit (((s.char 10).2.char 10).2.char 10).1 (((s.char 10).2.char 10).2.char 10).2).map LdifEvent.short, ?_, hl _ _, ?_⟩
    · simp only [ldifFeed, List.append_nil, List.map_append]
    · have b1 := char_newline_blank hn
      have b2 := char_newline_blank b1.newLine
      intro i hi
      rcases List.mem_append.1 hi with h | h
      · exact blank_ends b1 i h
      · exact blank_ends b2 i h
  · have h0 : ldifEmit (s.char 10).1 (s.char 10).2 = [] := by
      unfold Ldif.char ldifEmit
      simp [hn]
    have b1 := char_newline_blank (char_newline s)
    refine ⟨(ldifEmit ((s.char 10).2.char 10).1 ((s.char 10).2.char 10).2).map LdifEvent.short,
      (ldifEmit (((s.char 10).2.char 10).2.char 10).1 (((s.char 10).2.char 10).2.char 10).2).map LdifEvent.short, ?_, hl _ _, ?_⟩
    · simp only [ldifFeed, List.append_nil, List.map_append, h0, List.map_nil, List.nil_append]
    · exact blank_ends b1

/-! ### what items add -/

abbrev ImportState := LdifState × (List Contact × List Group)

theorem step_grows (E : LdifEnv) (ids : Nat → QString) (now : QDateTime) (is : List LdifItem) (x : ImportState) :
    x.2.1 <+: (is.foldl (ldifStep E ids now) x).2.1 ∧ x.2.2 <+: (is.foldl (ldifStep E ids now) x).2.2 := by
  induction is generalizing x with
  | nil => exact ⟨List.prefix_rfl, List.prefix_rfl⟩
  | cons i is ih =>
    rw [List.foldl_cons]
    have h := ih (ldifStep E ids now x i)
    have h0 : x.2.1 <+: (ldifStep E ids now x i).2.1 ∧ x.2.2 <+: (ldifStep E ids now x i).2.2 := by
      unfold ldifStep
      cases i.kind <;> first | exact ⟨List.prefix_append _ _, List.prefix_append _ _⟩ | exact ⟨List.prefix_rfl, List.prefix_rfl⟩
    exact ⟨h0.1.trans h.1, h0.2.trans h.2⟩

theorem result_small (s : LdifState) : (ldifResult s).1.length + (ldifResult s).2.length ≤ 1 := by
  unfold ldifResult
  dsimp only
  split
  · split <;> split <;> simp
  · simp

theorem result_fresh (E : LdifEnv) (ids : Nat → QString) (now : QDateTime) (n : Nat) (a b c : Int) : ldifResult (ldifFresh E ids now n a b c) = ([], []) := by
  unfold ldifResult
  have e : (ldifFresh E ids now n a b c).group.count = 0 := rfl
  rw [if_pos e]
  have names : ∀ d : Contact, ∀ x, (d.setBirthdayDate x).formattedName = d.formattedName ∧ (d.setBirthdayDate x).name = d.name ∧
      (d.setBirthdayDate x).familyName = d.familyName := by
    intro d x
    unfold Contact.setBirthdayDate
    split <;> exact ⟨rfl, rfl, rfl⟩
  have f : ∀ d : Contact, d = (ldifFresh E ids now n a b c).a → d.formattedName = [] ∧ d.name = [] ∧ d.familyName = [] := by
    rintro d rfl
    show (Contact.setRevision _ _ _).formattedName = _ ∧ (Contact.setRevision _ _ _).name = _ ∧ (Contact.setRevision _ _ _).familyName = _
    unfold Contact.setRevision
    split <;> exact ⟨rfl, rfl, rfl⟩
  obtain ⟨f1, f2, f3⟩ := f _ rfl
  dsimp only
  rw [if_neg]
  split
  · obtain ⟨n1, n2, n3⟩ := names (ldifFresh E ids now n a b c).a
      (some ((ldifFresh E ids now n a b c).birthyear, (ldifFresh E ids now n a b c).birthmonth.toNat, (ldifFresh E ids now n a b c).birthday.toNat))
    rw [n1, n2, n3, f1, f2, f3]; decide
  · rw [f1, f2, f3]; decide

theorem ends_fresh (E : LdifEnv) (ids : Nat → QString) (now : QDateTime) (b : List LdifItem) (hb : Ends b) (n : Nat) (x y z : Int) (out : List Contact × List Group) :
    (b.foldl (ldifStep E ids now) (ldifFresh E ids now n x y z, out)).2 = out := by
  induction b generalizing n x y z out with
  | nil => rfl
  | cons i b ih =>
    have hk : i.kind = .endEntry := hb i (by simp)
    rw [List.foldl_cons]
    have e : ldifStep E ids now (ldifFresh E ids now n x y z, out) i =
        (ldifFresh E ids now (ldifFresh E ids now n x y z).next (ldifFresh E ids now n x y z).birthday (ldifFresh E ids now n x y z).birthmonth
          (ldifFresh E ids now n x y z).birthyear, out) := by
      unfold ldifStep
      rw [hk]
      dsimp only
      rw [result_fresh, List.append_nil, List.append_nil]
    rw [e]
    exact ih (fun j hj => hb j (by simp [hj])) _ _ _ _ _

theorem ends_small (E : LdifEnv) (ids : Nat → QString) (now : QDateTime) (b : List LdifItem) (hb : Ends b) (x : ImportState) :
    ∃ u v, (b.foldl (ldifStep E ids now) x).2 = (x.2.1 ++ u, x.2.2 ++ v) ∧ u.length + v.length ≤ 1 := by
  cases b with
  | nil => exact ⟨[], [], by simp, by simp⟩
  | cons i b =>
    have hk : i.kind = .endEntry := hb i (by simp)
    refine ⟨(ldifResult x.1).1, (ldifResult x.1).2, ?_, result_small x.1⟩
    rw [List.foldl_cons]
    have e : ldifStep E ids now x i = (ldifFresh E ids now x.1.next x.1.birthday x.1.birthmonth x.1.birthyear,
        (x.2.1 ++ (ldifResult x.1).1, x.2.2 ++ (ldifResult x.1).2)) := by
      unfold ldifStep
      rw [hk]
    rw [e]
    exact ends_fresh E ids now b (fun j hj => hb j (by simp [hj])) _ _ _ _ _

theorem tail_small (E : LdifEnv) (ids : Nat → QString) (now : QDateTime) (e b : List LdifItem) (he : e.length ≤ 1) (hb : Ends b) (x : ImportState) :
    ∃ u v, ((e ++ b).foldl (ldifStep E ids now) x).2 = (x.2.1 ++ u, x.2.2 ++ v) ∧ u.length + v.length ≤ 1 := by
  cases e with
  | nil => exact ends_small E ids now b hb x
  | cons i e =>
    have : e = [] := by simpa using he
    subst this
    by_cases hk : i.kind = .endEntry
    · refine ends_small E ids now (i :: b) ?_ x
      intro j hj
      rcases List.mem_cons.1 hj with rfl | hj
      · exact hk
      · exact hb j hj
    · rw [List.singleton_append, List.foldl_cons]
      have e2 : (ldifStep E ids now x i).2 = x.2 := by
        unfold ldifStep
        split
        · rfl
        · rename_i h; exact absurd h hk
        · rfl
      have := ends_small E ids now b hb (ldifStep E ids now x i)
      rw [e2] at this
      exact this

/-! ### the import of a text -/

/-- The state of the import when the parser has read the text so far. -/
def importState (E : LdifEnv) (ids : Nat → QString) (now : QDateTime) (t : QByteArray) : ImportState :=
  ((ldifFeed {} t).1.map LdifEvent.short).foldl (ldifStep E ids now) (ldifFresh E ids now 0 (-1) (-1) (-1), ([], []))

theorem import_eq (E : LdifEnv) (ids : Nat → QString) (now : QDateTime) (str : QString) :
    ldifToAddressee E ids now str = some (importState E ids now (toLatin1 str ++ [10, 10, 10])).2 :=
  ldifToAddressee_items E ids now str _ ((document_feed _ _).2 rfl)

theorem importState_append (E : LdifEnv) (ids : Nat → QString) (now : QDateTime) (a b : QByteArray) :
    importState E ids now (a ++ b) = ((ldifFeed (ldifFeed {} a).2 b).1.map LdifEvent.short).foldl (ldifStep E ids now) (importState E ids now a) := by
  unfold importState
  rw [ldifFeed_append]
  simp only [List.map_append, List.foldl_append]

theorem import_cut (E : LdifEnv) (ids : Nat → QString) (now : QDateTime) (p q : QString) :
    ∃ c g a b u v, ldifToAddressee E ids now (p ++ q) = some (c, g) ∧ ldifToAddressee E ids now p = some (a ++ u, b ++ v) ∧ a <+: c ∧ b <+: g ∧
      u.length + v.length ≤ 1 := by
  obtain ⟨e, b, h1, h2, h3⟩ := tail_items (ldifFeed {} (toLatin1 p)).2
  obtain ⟨u, v, h4, h5⟩ := tail_small E ids now e b h2 h3 (importState E ids now (toLatin1 p))
  refine ⟨_, _, (importState E ids now (toLatin1 p)).2.1, (importState E ids now (toLatin1 p)).2.2, u, v, import_eq E ids now (p ++ q), ?_, ?_, ?_, h5⟩
  · rw [import_eq, importState_append, h1, h4]
  · rw [toLatin1_append, List.append_assoc, importState_append]
    exact (step_grows E ids now _ _).1
  · rw [toLatin1_append, List.append_assoc, importState_append]
    exact (step_grows E ids now _ _).2

theorem complete_blank {A : QString} (h : EntriesComplete A) (hne : A ≠ []) : AtBlank (ldifFeed {} (toLatin1 A)).2 := by
  rcases h with rfl | ⟨p, rfl | rfl⟩
  · exact absurd rfl hne
  · rw [toLatin1_append, ldifFeed_append]
    show AtBlank (((ldifFeed {} (toLatin1 p)).2.char 10).2.char 10).2
    exact char_newline_blank (char_newline _)
  · rw [toLatin1_append, ldifFeed_append]
    show AtBlank ((((ldifFeed {} (toLatin1 p)).2.char 10).2.char 13).2.char 10).2
    rw [char_cr (char_newline _)]
    exact char_newline_blank (char_newline _)

theorem step_kind (E : LdifEnv) (ids : Nat → QString) (now : QDateTime) (x : ImportState) (i j : LdifItem) (hi : i.kind = .endEntry) (hj : j.kind = .endEntry) :
    ldifStep E ids now x i = ldifStep E ids now x j := by
  unfold ldifStep
  rw [hi, hj]

/-- Entries that are complete are imported the same whatever follows. -/
theorem import_complete (E : LdifEnv) (ids : Nat → QString) (now : QDateTime) (A B : QString) (hA : EntriesComplete A) (hB : NewLineStart B) :
    ∃ ca ga c g, ldifToAddressee E ids now A = some (ca, ga) ∧ ldifToAddressee E ids now (A ++ B) = some (c, g) ∧ ca <+: c ∧ ga <+: g := by
  refine ⟨_, _, _, _, import_eq E ids now A, import_eq E ids now (A ++ B), ?_⟩
  by_cases hne : A = []
  · subst hne
    have : (importState E ids now (toLatin1 [] ++ [10, 10, 10])).2 = ([], []) := by
      unfold importState
      have : (ldifFeed {} (toLatin1 [] ++ [10, 10, 10])).1 = [] := by decide
      rw [this]
      rfl
    exact ⟨by rw [congrArg Prod.fst this]; exact List.nil_prefix, by rw [congrArg Prod.snd this]; exact List.nil_prefix⟩
  have hb := complete_blank hA hne
  rw [toLatin1_append, List.append_assoc, importState_append, importState_append]
  generalize (ldifFeed {} (toLatin1 A)).2 = s at hb
  generalize importState E ids now (toLatin1 A) = x
  -- the next character ends the entry
  obtain ⟨d, rest, hd, hd1, hd2, hd3⟩ : ∃ d rest, toLatin1 B ++ [10, 10, 10] = d :: rest ∧ d ≠ 13 ∧ d ≠ 32 ∧ d ≠ 9 := by
    cases B with
    | nil => exact ⟨10, [10, 10], rfl, by decide, by decide, by decide⟩
    | cons c B =>
      obtain ⟨n1, n2, n3⟩ := hB c rfl
      have conv : ∀ k : UInt8, k.toNat ≠ 63 → (if c.toNat < 256 then UInt8.ofNat c.toNat else 63) = k → c = UInt16.ofNat k.toNat := by
        intro k hk h
        split at h
        · rename_i hlt
          rw [← h]
          apply UInt16.toNat_inj.1
          rw [UInt8.toNat_ofNat', Nat.mod_eq_of_lt hlt, UInt16.toNat_ofNat', Nat.mod_eq_of_lt (by omega)]
        · exact absurd (by rw [← h]; rfl) hk
      refine ⟨if c.toNat < 256 then UInt8.ofNat c.toNat else 63, toLatin1 B ++ [10, 10, 10], rfl, ?_, ?_, ?_⟩
      · intro h; exact n3 (conv 13 (by decide) h)
      · intro h; exact n1 (conv 32 (by decide) h)
      · intro h; exact n2 (conv 9 (by decide) h)
  rw [hd]
  obtain ⟨k1, -, -⟩ := char_at_blank hb d hd1 hd2 hd3
  obtain ⟨k2, k3, k4⟩ := char_at_blank hb 10 (by decide) (by decide) (by decide)
  have b1 := char_newline_blank hb.newLine
  have b2 := char_newline_blank b1.newLine
  have f1 : (ldifFeed s (d :: rest)).1.map LdifEvent.short =
      (ldifEmit (s.char d).1 (s.char d).2).map LdifEvent.short ++ (ldifFeed (s.char d).2 rest).1.map LdifEvent.short := by
    simp only [ldifFeed, List.map_append]
  have f2 : (ldifFeed s [10, 10, 10]).1.map LdifEvent.short = (ldifEmit (s.char 10).1 (s.char 10).2).map LdifEvent.short ++
      ((ldifEmit ((s.char 10).2.char 10).1 ((s.char 10).2.char 10).2).map LdifEvent.short ++
        (ldifEmit (((s.char 10).2.char 10).2.char 10).1 (((s.char 10).2.char 10).2.char 10).2).map LdifEvent.short) := by
    simp only [ldifFeed, List.append_nil, List.map_append]
  rw [f1, f2]
  have hends := fun i hi => (List.mem_append.1 hi).elim (blank_ends b1 i) (blank_ends b2 i)
  rcases blank_line { s with isNewLine := false } hb.line hb.comment with h | ⟨h, ht⟩
  · rw [h] at k1 k2
    have e1 : (ldifEmit (s.char d).1 (s.char d).2).map LdifEvent.short = [(observe .endEntry (s.char d).2).short] := by rw [k1]; rfl
    have e2 : (ldifEmit (s.char 10).1 (s.char 10).2).map LdifEvent.short = [(observe .endEntry (s.char 10).2).short] := by rw [k2]; rfl
    rw [e1, e2, List.singleton_append, List.singleton_append, List.foldl_cons, List.foldl_cons]
    have e3 : ldifStep E ids now x (observe .endEntry (s.char 10).2).short = (ldifFresh E ids now x.1.next x.1.birthday x.1.birthmonth x.1.birthyear,
        (x.2.1 ++ (ldifResult x.1).1, x.2.2 ++ (ldifResult x.1).2)) := rfl
    have e4 := ends_fresh E ids now _ hends x.1.next x.1.birthday x.1.birthmonth x.1.birthyear (x.2.1 ++ (ldifResult x.1).1, x.2.2 ++ (ldifResult x.1).2)
    have e5 := step_grows E ids now ((ldifFeed (s.char d).2 rest).1.map LdifEvent.short) (ldifStep E ids now x (observe .endEntry (s.char d).2).short)
    rw [step_kind E ids now x (observe .endEntry (s.char d).2).short (observe .endEntry (s.char 10).2).short rfl rfl] at e5 ⊢
    rw [e3] at e5 ⊢
    have same : ∀ {α : Type} {a b : List α}, a = b → a <+: b := fun h => h ▸ List.prefix_rfl
    exact ⟨(same (congrArg Prod.fst e4)).trans e5.1, (same (congrArg Prod.snd e4)).trans e5.2⟩
  · rw [h] at k1 k2
    have e1 : (ldifEmit (s.char d).1 (s.char d).2).map LdifEvent.short = [] := by rw [k1]; rfl
    have e2 : (ldifEmit (s.char 10).1 (s.char 10).2).map LdifEvent.short = [] := by rw [k2]; rfl
    have none_next : ∀ t : Ldif, AtBlank t → t.entryType = .none → (t.char 10).1 = .none ∧ (t.char 10).2.entryType = .none := by
      intro t hbt het
      obtain ⟨m1, -, m3⟩ := char_at_blank hbt 10 (by decide) (by decide) (by decide)
      have : ({ t with isNewLine := false } : Ldif).processLine.1 ≠ .endEntry := by
        unfold Ldif.processLine
        simp only [hbt.comment, hbt.line, splitLine_nil, Bool.false_eq_true, if_false, het, ite_self]
        simp [Ldif.lineOf, Ldif.lineNone, show toLowerQ ([] : QString) = [] from rfl]
      rcases blank_line { t with isNewLine := false } hbt.line hbt.comment with h | ⟨h, h'⟩
      · exact absurd h this
      · exact ⟨m1.trans h, m3.trans h'⟩
    obtain ⟨p1, p2⟩ := none_next _ b1 (k4.trans ht)
    obtain ⟨q1, -⟩ := none_next _ b2 p2
    have e3 : (ldifEmit ((s.char 10).2.char 10).1 ((s.char 10).2.char 10).2).map LdifEvent.short = [] := by rw [p1]; rfl
    have e4 : (ldifEmit (((s.char 10).2.char 10).2.char 10).1 (((s.char 10).2.char 10).2.char 10).2).map LdifEvent.short = [] := by rw [q1]; rfl
    rw [e1, e2, e3, e4, List.nil_append, List.nil_append, List.nil_append, List.foldl_nil]
    exact step_grows E ids now _ x

/-- C96: an LDIF text of complete entries `A` and anything after them, `F ++ G`, is cut off before `G`. What is imported from the rest are the
    first contacts and the first groups of the whole text, among them all those of `A`, and at most one contact or group more: what is left of
    the entry in which the cut falls. -/
theorem C96 (E : LdifEnv) (ids : Nat → QString) (now : QDateTime) (A F G : QString) (hA : EntriesComplete A) (hF : NewLineStart (F ++ G)) :
    ∃ ca ga c g i j x y, ldifToAddressee E ids now A = some (ca, ga) ∧ ldifToAddressee E ids now (A ++ F ++ G) = some (c, g) ∧
      ca <+: c ∧ ga <+: g ∧ ldifToAddressee E ids now (A ++ F) = some (c.take i ++ x, g.take j ++ y) ∧
      ca.length ≤ i ∧ i ≤ c.length ∧ ga.length ≤ j ∧ j ≤ g.length ∧ x.length + y.length ≤ 1 := by
  have hF' : NewLineStart F := by
    intro c hc
    cases F with
    | nil => cases hc
    | cons d F => exact hF c hc
  obtain ⟨ca, ga, c, g, h1, h2, h3, h4⟩ := import_complete E ids now A (F ++ G) hA hF
  rw [← List.append_assoc] at h2
  obtain ⟨ca', ga', c1, g1, k1, k2, k3, k4⟩ := import_complete E ids now A F hA hF'
  rw [h1] at k1
  obtain ⟨rfl, rfl⟩ := Prod.mk.inj (Option.some.inj k1)
  obtain ⟨c', g', a, b, u, v, m1, m2, m3, m4, m5⟩ := import_cut E ids now (A ++ F) G
  rw [h2] at m1
  obtain ⟨rfl, rfl⟩ := Prod.mk.inj (Option.some.inj m1)
  rw [k2] at m2
  obtain ⟨rfl, rfl⟩ := Prod.mk.inj (Option.some.inj m2)
  -- one list at a time
  have one : ∀ {α : Type} (ca a u c : List α), ca <+: c → ca <+: a ++ u → a <+: c → u.length ≤ 1 →
      ∃ i x, a ++ u = c.take i ++ x ∧ ca.length ≤ i ∧ i ≤ c.length ∧ x.length ≤ u.length := by
    intro α ca a u c p1 p2 p3 hu
    by_cases hl : ca.length ≤ a.length
    · exact ⟨a.length, u, by rw [← List.prefix_iff_eq_take.1 p3], hl, p3.length_le, Nat.le_refl _⟩
    · refine ⟨ca.length, [], ?_, Nat.le_refl _, p1.length_le, Nat.zero_le _⟩
      rw [List.append_nil, ← List.prefix_iff_eq_take.1 p1]
      refine (p2.eq_of_length_le ?_).symm
      rw [List.length_append]
      omega
  obtain ⟨i, x, r1, r2, r3, r4⟩ := one ca a u c h3 k3 m3 (by omega)
  obtain ⟨j, y, s1, s2, s3, s4⟩ := one ga b v g h4 k4 m4 (by omega)
  exact ⟨ca, ga, c, g, i, j, x, y, h1, h2, h3, h4, by rw [k2, r1, s1], r2, r3, s2, s3, by omega⟩

/-! ### exported contacts -/

theorem fold_starts (linelen n i : Nat) (d : UInt8) (hi : 0 < i) : ∀ t, ∃ t', ldifFold linelen n i (d :: t) = d :: t' := by
  induction n generalizing i with
  | zero => exact fun t => ⟨t, rfl⟩
  | succ n ih =>
    intro t
    unfold ldifFold
    split
    · obtain ⟨k, rfl⟩ : ∃ k, i = k + 1 := ⟨i - 1, by omega⟩
      simp only [List.take_succ_cons, List.cons_append]
      exact ih _ (by omega) _
    · exact ⟨t, rfl⟩

theorem dn_start (v : QString) : ∀ c, (ldifOut (q! "dn") v).head? = some c → c = qc! 'd' := by
  intro c hc
  unfold ldifOut at hc
  split at hc
  · cases hc
  · have : ∃ t, assembleLine (q! "dn") (toUtf8 v) 72 false = 100 :: t := by
      have e : toUtf8 (q! "dn") = 100 :: b! "n" := by decide
      unfold assembleLine
      simp only [Bool.false_eq_true, if_false, e, List.cons_append]
      rw [if_pos (by decide)]
      split <;> exact fold_starts _ _ _ _ (by split <;> omega) _
    obtain ⟨t, ht⟩ := this
    rw [ht] at hc
    have e : ∃ t', fromUtf8 (100 :: t) = qc! 'd' :: t' := by
      refine ⟨decodeUtf8 0 t, ?_⟩
      unfold fromUtf8
      rw [if_neg (by
        intro h
        have := congrArg List.head? h
        simp only [List.take_succ_cons, List.head?_cons] at this
        cases this)]
      rfl
    obtain ⟨t', ht'⟩ := e
    rw [ht'] at hc
    exact (Option.some.inj hc).symm

theorem pairs_end (ps : List (QString × QString)) : pairsText ps = [] ∨ ∃ p, pairsText ps = p ++ [10] := by
  induction ps with
  | nil => exact .inl rfl
  | cons q ps ih =>
    rw [show pairsText (q :: ps) = ldifOut q.1 q.2 ++ pairsText ps from rfl]
    rcases ih with h | ⟨p, h⟩
    · rw [h, List.append_nil]
      unfold ldifOut
      split
      · exact .inl rfl
      · exact .inr ⟨_, rfl⟩
    · exact .inr ⟨ldifOut q.1 q.2 ++ p, by rw [h, List.append_assoc]⟩

/-- The text of a contact starts with `d` and ends with an empty line. -/
theorem contact_text (E : LdifEnv) (fresh : QString) (c : Contact) : (addresseeToLDIF E fresh c []).2 = [] ∨
    (∃ t, (addresseeToLDIF E fresh c []).2 = qc! 'd' :: t) ∧ ∃ p, (addresseeToLDIF E fresh c []).2 = p ++ [10, 10] := by
  cases h : c.empty with
  | true => exact .inl (by unfold addresseeToLDIF; rw [h]; rfl)
  | false =>
    refine .inr ?_
    rw [addresseeToLDIF_pairs E fresh c [] h]
    simp only [List.nil_append]
    constructor
    · have hne : ldifOut (q! "dn") (ldifDn c) ≠ [] := by
        unfold ldifOut
        rw [if_neg (by simp [ldifDn])]
        intro e
        have := congrArg List.length e
        simp at this
      cases hd : ldifOut (q! "dn") (ldifDn c) with
      | nil => exact absurd hd hne
      | cons x t =>
        have := dn_start (ldifDn c) x (by rw [hd]; rfl)
        subst this
        exact ⟨_, rfl⟩
    · rcases pairs_end (ldifPairs E fresh c) with e | ⟨p, e⟩
      · exfalso
        have : ∃ t, pairsText (ldifPairs E fresh c) = ldifOut (q! "objectclass") (q! "top") ++ t := ⟨_, rfl⟩
        obtain ⟨t, ht⟩ := this
        rw [e] at ht
        have o1 : q! "objectclass: top\n" = ldifOut (q! "objectclass") (q! "top") := by decide
        rw [← o1] at ht
        cases ht
      · refine ⟨ldifOut (q! "dn") (ldifDn c) ++ p, ?_⟩
        rw [e]
        simp only [List.append_assoc]
        rfl

theorem export_complete (E : LdifEnv) (fresh : QString) (cs : List Contact) : EntriesComplete (cs.flatMap fun c => (addresseeToLDIF E fresh c []).2) := by
  induction cs with
  | nil => exact .inl rfl
  | cons c cs ih =>
    rw [List.flatMap_cons]
    rcases ih with h | ⟨p, h | h⟩
    · rw [h, List.append_nil]
      rcases contact_text E fresh c with h | ⟨-, p, h⟩
      · exact .inl h
      · exact .inr ⟨p, .inl h⟩
    · exact .inr ⟨(addresseeToLDIF E fresh c []).2 ++ p, .inl (by rw [h, List.append_assoc])⟩
    · exact .inr ⟨(addresseeToLDIF E fresh c []).2 ++ p, .inr (by rw [h, List.append_assoc])⟩

theorem export_start (E : LdifEnv) (fresh : QString) (cs : List Contact) : NewLineStart (cs.flatMap fun c => (addresseeToLDIF E fresh c []).2) := by
  induction cs with
  | nil => intro c hc; cases hc
  | cons c cs ih =>
    rw [List.flatMap_cons]
    rcases contact_text E fresh c with h | ⟨⟨t, h⟩, -⟩
    · rw [h, List.nil_append]; exact ih
    · intro x hx
      rw [h] at hx
      obtain rfl := Option.some.inj hx
      decide

/-- C96 for what the library writes: contacts are exported to one text, and the text is cut off after `k` characters, of which the first are the
    text of the first `j` contacts. Import gives all that these `j` contacts give, then contacts as in the whole text, and at most one contact or
    group more. -/
theorem C96_exported (E : LdifEnv) (ids : Nat → QString) (now : QDateTime) (fresh : QString) (cs : List Contact) (k j : Nat)
    (hj : (addresseesToLDIF E fresh (cs.take j) []).2.length ≤ k) :
    ∃ ca ga c g m n x y, ldifToAddressee E ids now (addresseesToLDIF E fresh (cs.take j) []).2 = some (ca, ga) ∧
      ldifToAddressee E ids now (addresseesToLDIF E fresh cs []).2 = some (c, g) ∧ ca <+: c ∧ ga <+: g ∧
      ldifToAddressee E ids now ((addresseesToLDIF E fresh cs []).2.take k) = some (c.take m ++ x, g.take n ++ y) ∧
      ca.length ≤ m ∧ m ≤ c.length ∧ ga.length ≤ n ∧ n ≤ g.length ∧ x.length + y.length ≤ 1 := by
  simp only [C77_contacts, List.nil_append] at hj ⊢
  have e : cs.flatMap (fun c => (addresseeToLDIF E fresh c []).2) =
      (cs.take j).flatMap (fun c => (addresseeToLDIF E fresh c []).2) ++ (cs.drop j).flatMap (fun c => (addresseeToLDIF E fresh c []).2) := by
    rw [← List.flatMap_append, List.take_append_drop]
  have ht : (cs.flatMap fun c => (addresseeToLDIF E fresh c []).2).take k = (cs.take j).flatMap (fun c => (addresseeToLDIF E fresh c []).2) ++
      ((cs.drop j).flatMap (fun c => (addresseeToLDIF E fresh c []).2)).take (k - ((cs.take j).flatMap fun c => (addresseeToLDIF E fresh c []).2).length) := by
    rw [e, List.take_append, List.take_of_length_le hj]
  have h := C96 E ids now ((cs.take j).flatMap fun c => (addresseeToLDIF E fresh c []).2)
    (((cs.drop j).flatMap (fun c => (addresseeToLDIF E fresh c []).2)).take (k - ((cs.take j).flatMap fun c => (addresseeToLDIF E fresh c []).2).length))
    (((cs.drop j).flatMap (fun c => (addresseeToLDIF E fresh c []).2)).drop (k - ((cs.take j).flatMap fun c => (addresseeToLDIF E fresh c []).2).length))
    (export_complete E fresh _) (by rw [List.take_append_drop]; exact export_start E fresh _)
  rw [List.append_assoc, List.take_append_drop, ← ht, ← e] at h
  exact h

theorem zip_take_prefix {α β : Type} (l : List α) (l' : List β) : ∀ m, l.zip (l'.take m) <+: l.zip l' := by
  induction l generalizing l' with
  | nil => intro m; simp
  | cons a l ih =>
    intro m
    cases l' with
    | nil => simp
    | cons b l' =>
      cases m with
      | zero => simp
      | succ m => simpa using ih l' m

/-- C96 for contacts that survive a whole LDIF file: those whose text is complete survive in the file that is cut off. -/
theorem C96_contacts (E : LdifEnv) (ids : Nat → QString) (hids : ∀ i j, ids i = ids j → i = j) (now : QDateTime) (fresh : QString) (cs : List Contact)
    (h : ∀ c ∈ cs, LdifReadable E c) (hb : cs.Pairwise BirthdaysApart) (k j : Nat) (hjc : j ≤ cs.length)
    (hj : (addresseesToLDIF E fresh (cs.take j) []).2.length ≤ k) :
    ∃ as rest gs, ldifToAddressee E ids now ((addresseesToLDIF E fresh cs []).2.take k) = some (as ++ rest, gs) ∧
      j ≤ as.length ∧ (∀ p ∈ cs.zip as, LdifSurvives E p.1 p.2) ∧ rest.length + gs.length ≤ 1 := by
  obtain ⟨ca, ga, c, g, m, n, x, y, h1, h2, h3, h4, h5, h6, h7, h8, h9, h10⟩ := C96_exported E ids now fresh cs k j hj
  obtain ⟨as, a1, a2, a3⟩ := C44_partial E ids hids now fresh cs h hb
  obtain ⟨bs, b1, b2, -⟩ := C44_partial E ids hids now fresh (cs.take j) (fun c hc => h c (List.mem_of_mem_take hc)) (hb.sublist (List.take_sublist j cs))
  rw [a1] at h2
  obtain ⟨rfl, rfl⟩ := Prod.mk.inj (Option.some.inj h2)
  rw [b1] at h1
  obtain ⟨rfl, rfl⟩ := Prod.mk.inj (Option.some.inj h1)
  rw [List.length_take, Nat.min_eq_left hjc] at b2
  refine ⟨as.take m, x, ([] : List Group).take n ++ y, h5, ?_, ?_, ?_⟩
  · rw [List.length_take]; omega
  · intro p hp
    refine a3 p ?_
    have : cs.zip (as.take m) <+: cs.zip as := zip_take_prefix cs as m
    exact this.subset hp
  · simpa using h10

/-! ### the hypotheses are met -/

private def cutIds (n : Nat) : QString := List.replicate (n + 1) (qc! 'x')

private def readNames (t : QString) : Option (List QString × List QString) :=
  (ldifToAddressee sampleLdifEnv cutIds sampleNow t).map fun r => (r.1.map (·.familyName), r.2.map (·.name))

private def whole : QString := q! "dn: a\nsn: Lee\n\n"
private def kept : QString := q! "dn: b\nsn: Ro"
private def lost : QString := q! "e\nuid: 2\n\ndn: c\nsn: Poe\n\n"

example : EntriesComplete whole ∧ NewLineStart (kept ++ lost) :=
  ⟨.inr ⟨q! "dn: a\nsn: Lee", .inl rfl⟩, fun c hc => by
    obtain rfl := Option.some.inj (show some (100 : UInt16) = some c from hc)
    decide⟩

-- the second contact has half a name, the third is not there
example : readNames (whole ++ kept ++ lost) = some ([q! "Lee", q! "Roe", q! "Poe"], []) ∧ readNames (whole ++ kept) = some ([q! "Lee", q! "Ro"], []) := by
  decide +kernel

/-- Without `NewLineStart` the claim is false: where the text goes on with a space, the empty line is part of a folded line, and the contact before it
    is not there. -/
theorem C96_folded_false : ¬ ∀ (A B : QString), EntriesComplete A → ∃ ca ga c g, ldifToAddressee sampleLdifEnv cutIds sampleNow A = some (ca, ga) ∧
    ldifToAddressee sampleLdifEnv cutIds sampleNow (A ++ B) = some (c, g) ∧ ca <+: c := by
  intro h
  obtain ⟨ca, ga, c, g, h1, h2, h3⟩ := h whole (q! " x\nsn: Roe\n\n") (.inr ⟨q! "dn: a\nsn: Lee", .inl rfl⟩)
  have e1 : readNames whole = some ([q! "Lee"], []) := by decide +kernel
  have e2 : readNames (whole ++ q! " x\nsn: Roe\n\n") = some ([q! "Roe"], []) := by decide +kernel
  unfold readNames at e1 e2
  rw [h1] at e1
  rw [h2] at e2
  have p1 := congrArg Prod.fst (Option.some.inj e1)
  have p2 := congrArg Prod.fst (Option.some.inj e2)
  have h4 := h3.map (fun x : Contact => x.familyName)
  rw [show ca.map (fun x : Contact => x.familyName) = [q! "Lee"] from p1, show c.map (fun x : Contact => x.familyName) = [q! "Roe"] from p2] at h4
  exact absurd h4 (by decide)

private def jo : Contact := { uid := q! "uid-2", familyName := q! "Roe", empty := false }

private theorem jo_readable : LdifReadable sampleLdifEnv jo where
  notEmpty := rfl
  named := .inr (by decide)
  texts := fun s hs => .ascii (by revert s; decide +kernel)
  uid := by decide
  emails := ⟨by decide, fun e he => ⟨by revert e; decide, .ascii (by revert e; decide +kernel)⟩⟩
  phones := fun p hp => by cases hp
  home := fun fresh => ⟨⟨.inl rfl, .nil⟩, (fun x y e => by cases x <;> cases e), .nil, .nil, .nil, .nil, .nil, (show sampleLdifEnv.countryName [] = [] by decide)⟩
  work := fun fresh => ⟨⟨.inl rfl, .nil⟩, (fun x y e => by cases x <;> cases e), .nil, .nil, .nil, .nil, .nil, (show sampleLdifEnv.countryName [] = [] by decide)⟩
  url := .inl ⟨by decide, by decide⟩
  revision := fun d hd => by cases hd
  birthday := fun d hd => by cases hd

-- three contacts, cut in the text of the second
example : ∃ as rest gs, ldifToAddressee sampleLdifEnv cutIds sampleNow ((addresseesToLDIF sampleLdifEnv (q! "f") [jo, jo, jo] []).2.take 150) = some (as ++ rest, gs) ∧
    1 ≤ as.length ∧ (∀ p ∈ [jo, jo, jo].zip as, LdifSurvives sampleLdifEnv p.1 p.2) ∧ rest.length + gs.length ≤ 1 :=
  C96_contacts sampleLdifEnv cutIds (fun i j h => by simpa [cutIds] using congrArg List.length h) sampleNow (q! "f") [jo, jo, jo]
    (by simp only [List.mem_cons, List.not_mem_nil, or_false, or_self]; rintro c rfl; exact jo_readable)
    (.cons (fun _ _ => .inl rfl) (.cons (fun _ _ => .inl rfl) (.cons (fun _ h => by simp at h) .nil))) 150 1 (by decide) (by decide +kernel)

end KC
