import Verif.Lemmas.LdifAgain
import Verif.Lemmas.Names

/-! # C110: an LDIF file this library wrote is exported again as it was -/

namespace KC
open KC.Spec

/-- A contact without a revision has that of the import. -/
def Spec.stamped (now : QDateTime) (c : Contact) : Contact := { c with revision := if c.revision = none then now else c.revision }

/-- The time of the import is not taken for the revision of the contact: it is another moment, or is written in the same way. -/
def Spec.NowApart (E : LdifEnv) (now : QDateTime) (c : Contact) : Prop :=
  ∀ d, c.revision = some d → QDateTime.eq E.toQtEnv (some { d with time := (d.time.1, d.time.2.1, d.time.2.2.1, 0), zone := none }) now = true →
    ∃ w, now = some w ∧ dateToVCardString w = dateToVCardString d

private theorem twice (s : QString) : simplified (simplified s) = simplified s := by
  show join _ (words isSpaceQ (simplified s)) = join _ (words isSpaceQ s)
  rw [words_simplified]

/-- The revision of an imported contact. -/
private theorem revision_again (E : LdifEnv) (ids : Nat → QString) (now : QDateTime) (fresh : QString) (c : Contact) (h : LdifReadable E c) (hn : NowApart E now c)
    (s : LdifState) (hs : s.a.revision = now) :
    ldifRevision (afterExport E ids fresh c s).a.revision = ldifRevision (stamped now c).revision := by
  rw [after_revision_is, hs]
  cases hc : c.revision with
  | none =>
    simp only [revisionText, List.isEmpty_nil, if_true, stamped, hc]
  | some d =>
    have e1 : (revisionText (some d)).isEmpty = false := by
      cases hx : revisionText (some d) with
      | nil => simp [revisionText, dateToVCardString] at hx
      | cons => rfl
    have e2 : (stamped now c).revision = some d := by simp only [stamped, hc]; rfl
    obtain ⟨h1, h2, h3, h4, h5⟩ := h.revision d hc
    have e3 : vCardStringToDate (revisionText (some d)) = some { d with time := (d.time.1, d.time.2.1, d.time.2.2.1, 0), zone := none } :=
      revision_back d h1 h2.valid h3 h4 h5
    rw [e1, e2]
    simp only [Bool.false_eq_true, if_false, storeRevision, if_true, e3]
    split_ifs with hi
    · rfl
    · cases hq : QDateTime.eq E.toQtEnv (some { d with time := (d.time.1, d.time.2.1, d.time.2.2.1, 0), zone := none }) now with
      | true =>
        obtain ⟨w, hw, ht⟩ := hn d hc hq
        rw [hw]
        simp only [ldifRevision, ht]
      | false =>
        refine absurd ⟨?_, rfl, hq⟩ hi
        intro e
        rw [e] at e3
        revert e3
        have : vCardStringToDate (q! "0Z") = none := by decide
        rw [this]
        simp

/-- What is exported of an imported contact is what was exported. -/
private theorem export_again (E : LdifEnv) (ids : Nat → QString) (now : QDateTime) (fresh fresh' : QString) (c a : Contact) (h : LdifReadable E c)
    (hn : NowApart E now c) (hs : LdifSurvives E c a) (n : Nat) (b : Int × Int × Int)
    (ha : ldifResult (afterExport E ids fresh c (ldifFresh E ids now n b.2.2 b.2.1 b.1)) = ([a], [])) (str : QString) :
    addresseeToLDIF E fresh' a str = addresseeToLDIF E fresh (stamped now c) str := by
  obtain ⟨r1, r2, r3⟩ := result_marked _ a ha
  have f1 : (ldifFresh E ids now n b.2.2 b.2.1 b.1).a.revision = now := by
    simp only [ldifFresh, Contact.setRevision]
    split_ifs with hq
    · have : (Contact.new (ids n)).revision = none := rfl
      rw [this] at hq ⊢
      cases now with
      | none => rfl
      | some d => simp [QDateTime.eq] at hq
    · rfl
  have f2 : (ldifFresh E ids now n b.2.2 b.2.1 b.1).a.customs = [] := by
    simp only [ldifFresh, Contact.setRevision]
    split_ifs <;> rfl
  have f3 : (ldifFresh E ids now n b.2.2 b.2.1 b.1).a.formattedName = [] ∧ (ldifFresh E ids now n b.2.2 b.2.1 b.1).a.familyName = [] := by
    simp only [ldifFresh, Contact.setRevision]
    split_ifs <;> exact ⟨rfl, rfl⟩
  have hrev : ldifRevision a.revision = ldifRevision (stamped now c).revision := by
    rw [r1]
    exact revision_again E ids now fresh c h hn _ f1
  have hcu : a.custom (q! "KADDRESSBOOK") (q! "X-Department") = [] := by
    unfold Contact.custom
    rw [r2, after_customs, f2]
    rfl
  have hne : a.empty = false := by
    apply r3
    have hst := after_store E ids fresh c (ldifFresh E ids now n b.2.2 b.2.1 b.1)
    have hm := after_marked E ids fresh c (ldifFresh E ids now n b.2.2 b.2.1 b.1) (fun _ => f3)
    cases he : (afterExport E ids fresh c (ldifFresh E ids now n b.2.2 b.2.1 b.1)).a.empty with
    | false => rfl
    | true =>
      obtain ⟨m1, m2⟩ := hm he
      rw [hst.2.2.1, f3.1, ite_empty] at m1
      rw [hst.2.1, f3.2, ite_empty] at m2
      rcases h.named with hx | hx
      · exact absurd m1 hx
      · exact absurd m2 hx
  have hmail : a.preferredEmail = c.preferredEmail := by
    have := hs.emails
    unfold Contact.emailAddresses at this
    unfold Contact.preferredEmail
    cases he : a.emails with
    | nil =>
      cases he' : c.emails with
      | nil => rfl
      | cons x l => rw [he, he'] at this; simp at this
    | cons y l =>
      cases he' : c.emails with
      | nil => rw [he, he'] at this; simp at this
      | cons x l' => rw [he, he'] at this; simp at this; simpa using this.1
  have hdep : (if !a.department.isEmpty then ldifOut (q! "department") a.department
      else ldifOut (q! "department") (a.custom (q! "KADDRESSBOOK") (q! "X-Department")))
      = (if !c.department.isEmpty then ldifOut (q! "department") c.department
        else ldifOut (q! "department") (c.custom (q! "KADDRESSBOOK") (q! "X-Department"))) := by
    rw [hs.department, hcu]
    unfold departmentOf
    cases hd : c.department with
    | cons x l => simp
    | nil =>
      simp only [List.isEmpty_nil, if_true, Bool.not_true, Bool.false_eq_true, if_false]
      cases hcc : c.custom (q! "KADDRESSBOOK") (q! "X-Department") <;> simp
  have hbi : ldifBirthday a.birthday = ldifBirthday c.birthday := by
    have := hs.birthday
    cases hb : a.birthday with
    | none =>
      cases hb' : c.birthday with
      | none => rfl
      | some y => rw [hb, hb'] at this; cases this
    | some x =>
      cases hb' : c.birthday with
      | none => rw [hb, hb'] at this; cases this
      | some y =>
        rw [hb, hb', Option.map_some, Option.map_some, Option.some.injEq] at this
        simp only [ldifBirthday, this]
  obtain ⟨a1, a2, a3, a4, a5⟩ := hs.home fresh' fresh
  obtain ⟨w1, w2, w3, w4, w5, w6⟩ := hs.work fresh' fresh
  have hph := fun t ht => hs.phones t ht fresh' fresh
  have k0 : (stamped now c).empty = false := h.notEmpty
  simp only [addresseeToLDIF, hne, k0, hs.givenName, hs.familyName, hs.formattedName, twice, hs.uid, hs.texts, hmail, hs.emails,
    hph 2 (by decide), hph 32 (by decide), hph 1 (by decide), hph 64 (by decide), hph 8192 (by decide), a1, a2, a3, a4, a5, w1, w2, w3, w4, w5, w6,
    hs.prefix_, hdep, hs.url, hs.note, hrev, hbi]
  rfl

private theorem foldl_zip {α β : Type} (F G : β → α → β) (f : α → α) (l m : List α) (hl : m.length = l.length)
    (h : ∀ p ∈ l.zip m, ∀ acc, F acc p.2 = G acc (f p.1)) (acc : β) : m.foldl F acc = (l.map f).foldl G acc := by
  induction l generalizing m acc with
  | nil =>
    cases m with
    | nil => rfl
    | cons => simp at hl
  | cons c l ih =>
    cases m with
    | nil => simp at hl
    | cons a m =>
      rw [List.map_cons, List.foldl_cons, List.foldl_cons, h (c, a) (by simp)]
      exact ih m (by simpa using hl) (fun p hp => h p (by simp [hp])) _

/-- **C110.** A list of contacts that LDIF can express is exported, the text is imported and the contacts made from it are exported again. The second text is
    the first one, except that an entry that had no time of its last change now has the time of the import: it is the export of the contacts with that time.
    Missing: contacts LDIF cannot express, and an import that takes place at the very moment of a change. -/
theorem C110_partial (E : LdifEnv) (ids : Nat → QString) (hids : ∀ i j, ids i = ids j → i = j) (now : QDateTime) (fresh fresh' : QString) (cs : List Contact)
    (h : ∀ c ∈ cs, LdifReadable E c) (hb : cs.Pairwise BirthdaysApart) (hn : ∀ c ∈ cs, NowApart E now c) :
    ∃ as, ldifToAddressee E ids now (addresseesToLDIF E fresh cs []).2 = some (as, []) ∧
      ∀ str, addresseesToLDIF E fresh' as str = addresseesToLDIF E fresh (cs.map (stamped now)) str := by
  rw [ldif_export_text E fresh cs (fun c hc => (h c hc).notEmpty), import_entries E ids now _ (by
    intro e he
    obtain ⟨c, hc, rfl⟩ := List.mem_map.1 he
    exact contactEntry_ok E fresh c (h c hc))]
  obtain ⟨as, h1, h2, h3⟩ := ldif_entries_from E ids hids now fresh cs h hb 0 (-1, -1, -1) (.inl rfl)
  refine ⟨as, by rw [h1], fun str => ?_⟩
  have hlen : as.isEmpty = (cs.map (stamped now)).isEmpty := by
    cases as <;> cases cs <;> simp_all
  simp only [addresseesToLDIF, hlen]
  rw [foldl_zip _ (fun acc c => let r := addresseeToLDIF E fresh c acc.2; (r.1 || acc.1, r.2)) (stamped now) cs as h2]
  intro p hp acc
  obtain ⟨hs, n, b, ha⟩ := h3 p hp
  have hc := (List.of_mem_zip hp).1
  simp only [export_again E ids now fresh fresh' p.1 p.2 (h _ hc) (hn _ hc) hs n b ha]

/-- If every contact has a time of its last change, the second text is the first one. -/
theorem C110_same_partial (E : LdifEnv) (ids : Nat → QString) (hids : ∀ i j, ids i = ids j → i = j) (now : QDateTime) (fresh fresh' : QString) (cs : List Contact)
    (h : ∀ c ∈ cs, LdifReadable E c) (hb : cs.Pairwise BirthdaysApart) (hn : ∀ c ∈ cs, NowApart E now c) (hr : ∀ c ∈ cs, c.revision ≠ none) :
    ∃ as, ldifToAddressee E ids now (addresseesToLDIF E fresh cs []).2 = some (as, []) ∧
      addresseesToLDIF E fresh' as [] = addresseesToLDIF E fresh cs [] := by
  obtain ⟨as, h1, h2⟩ := C110_partial E ids hids now fresh fresh' cs h hb hn
  refine ⟨as, h1, ?_⟩
  have : cs.map (stamped now) = cs := by
    rw [List.map_congr_left (g := id), List.map_id]
    intro c hc
    simp only [stamped, if_neg (hr c hc), id]
  rw [h2, this]

/-! ### an example -/

/-- Moments are told apart by the year. -/
private def env' : LdifEnv := { sampleLdifEnv with instant := fun d _ _ => d.1 }

private def ids' (n : Nat) : QString := List.replicate (n + 1) (qc! 'x')

private theorem ids'_inj (i j : Nat) (h : ids' i = ids' j) : i = j := by
  have := congrArg List.length h
  simpa [ids'] using this

/-- A contact with a formatted name that has too many spaces, the department at its older place, an address and a birthday. -/
private def ann : Contact :=
  { uid := q! "uid-1", formattedName := q! " Ann  Lee ", familyName := q! "Lee"
    birthday := some ⟨(1980, 2, 29), (7, 0, 0, 0), some 0⟩
    customs := [(q! "KADDRESSBOOK-X-Department", q! "R,D")], note := q! "first\nsecond: line", revision := some ⟨(2016, 1, 20), (8, 5, 3, 7), some 3600⟩
    phoneNumbers := [{ id := q! "old", number := q! "555 1", type := 1 ||| 8 }, { id := q! "old2", number := q! "555 2", type := 64 }]
    addresses := [{ empty := false, id := q! "x", type := 16, street := q! "Main Street 1\n2nd floor", locality := q! "Town" }]
    emails := [{ mail := q! "ann@example.org" }, { mail := q! "lee@example.org" }]
    empty := false }

private theorem ann_home (fresh : QString) : ann.address fresh 16 =
    { empty := false, id := q! "x", type := 16, street := q! "Main Street 1\n2nd floor", locality := q! "Town" } := rfl

private theorem ann_work (fresh : QString) : ann.address fresh 32 = { id := fresh, type := 32 } := rfl

private theorem no_address (E : LdifEnv) (h : E.countryName [] = []) (fresh : QString) (t : Nat) : LdifAddressOK E { id := fresh, type := t } :=
  ⟨⟨.inl rfl, .nil⟩, (fun x y e => by cases x <;> cases e), .nil, .nil, .nil, .nil, .nil, h⟩

private theorem ann_readable : LdifReadable env' ann where
  notEmpty := rfl
  named := .inl (by decide)
  texts := fun s hs => .ascii (by revert s; decide +kernel)
  uid := by decide
  emails := ⟨by decide, fun e he => ⟨by revert e; decide, .ascii (by revert e; decide +kernel)⟩⟩
  phones := fun p hp => ⟨by revert p; decide, .ascii (by revert p; decide +kernel)⟩
  home := fun fresh => by
    rw [ann_home]
    refine ⟨⟨.inr (.inr ⟨q! "Main Street 1", q! "2nd floor", rfl, by decide, by decide, by decide, by decide⟩), .ascii (by decide)⟩, ?_, .ascii (by decide), .nil, .nil, .nil, .nil,
      by decide⟩
    intro x y e
    have hx : ∀ c ∈ x ++ qc! '\n' :: y, c.toNat < 128 := by rw [← e]; decide
    exact ⟨.ascii fun c hc => hx c (by simp [hc]), .ascii fun c hc => hx c (by simp [hc])⟩
  work := fun fresh => by rw [ann_work]; exact no_address _ (by decide) _ _
  url := .inl ⟨by decide, by decide⟩
  revision := fun d hd => by cases hd; decide
  birthday := fun d hd => by cases hd; decide

/-- A contact with nothing but a name. -/
private def bob : Contact := { uid := q! "uid-2", familyName := q! "Roe", empty := false }

private theorem bob_readable : LdifReadable env' bob where
  notEmpty := rfl
  named := .inr (by decide)
  texts := fun s hs => .ascii (by revert s; decide +kernel)
  uid := by decide
  emails := ⟨by decide, fun e he => ⟨by revert e; decide, .ascii (by revert e; decide +kernel)⟩⟩
  phones := fun p hp => by cases hp
  home := fun fresh => no_address _ (by decide) _ _
  work := fun fresh => no_address _ (by decide) _ _
  url := .inl ⟨by decide, by decide⟩
  revision := fun d hd => by cases hd
  birthday := fun d hd => by cases hd

private theorem ann_apart : NowApart env' sampleNow ann := by
  intro d hd he
  cases hd
  exact absurd he (by decide +kernel)

example : ∃ as, ldifToAddressee env' ids' sampleNow (addresseesToLDIF env' (q! "f") [bob, ann, ann] []).2 = some (as, []) ∧
    ∀ str, addresseesToLDIF env' (q! "g") as str = addresseesToLDIF env' (q! "f") ([bob, ann, ann].map (stamped sampleNow)) str :=
  C110_partial env' ids' ids'_inj sampleNow (q! "f") (q! "g") [bob, ann, ann]
    (by simp only [List.mem_cons, List.not_mem_nil, or_false]; rintro c (rfl | rfl | rfl); exacts [bob_readable, ann_readable, ann_readable])
    (.cons (fun _ _ => .inl rfl) (.cons (fun c hc => .inr (by rw [List.mem_singleton.1 hc]; exact ⟨_, rfl, by decide⟩)) (.cons (fun _ h => by simp at h) .nil)))
    (by simp only [List.mem_cons, List.not_mem_nil, or_false]; rintro c (rfl | rfl | rfl); exacts [fun d hd => (by cases hd), ann_apart, ann_apart])

example : ∃ as, ldifToAddressee env' ids' sampleNow (addresseesToLDIF env' (q! "f") [ann, ann] []).2 = some (as, []) ∧
    addresseesToLDIF env' (q! "g") as [] = addresseesToLDIF env' (q! "f") [ann, ann] [] :=
  C110_same_partial env' ids' ids'_inj sampleNow (q! "f") (q! "g") [ann, ann]
    (by simp only [List.mem_cons, List.not_mem_nil, or_false]; rintro c (rfl | rfl); exacts [ann_readable, ann_readable])
    (.cons (fun c hc => .inr (by rw [List.mem_singleton.1 hc]; exact ⟨_, rfl, by decide⟩)) (.cons (fun _ h => by simp at h) .nil))
    (by simp only [List.mem_cons, List.not_mem_nil, or_false]; rintro c (rfl | rfl); exacts [ann_apart, ann_apart])
    (by simp only [List.mem_cons, List.not_mem_nil, or_false]; rintro c (rfl | rfl) <;> exact nofun)

/-! ### what changes -/

/-- The text of an export after an import and an export. -/
private def textAgain (E : LdifEnv) (cs : List Contact) : Option QString :=
  (ldifToAddressee E ids' sampleNow (addresseesToLDIF E (q! "f") cs []).2).map fun r => (addresseesToLDIF E (q! "f") r.1 []).2

/-- The entry of a contact without a time of its last change has one afterwards. -/
theorem C110_stamp_false : ¬ ∀ (E : LdifEnv) (ids : Nat → QString) (_ : ∀ i j, ids i = ids j → i = j) (now : QDateTime) (fresh : QString) (cs : List Contact),
    (∀ c ∈ cs, LdifReadable E c) → cs.Pairwise BirthdaysApart → (∀ c ∈ cs, NowApart E now c) →
    ∃ as, ldifToAddressee E ids now (addresseesToLDIF E fresh cs []).2 = some (as, []) ∧ (addresseesToLDIF E fresh as []).2 = (addresseesToLDIF E fresh cs []).2 := by
  intro h
  obtain ⟨as, h1, h2⟩ := h env' ids' ids'_inj sampleNow (q! "f") [bob] (by simpa using bob_readable) (by simp)
    (fun c hc d hd => by rw [List.mem_singleton.1 hc] at hd; cases hd)
  have e : textAgain env' [bob] ≠ some (addresseesToLDIF env' (q! "f") [bob] []).2 := by decide +kernel
  unfold textAgain at e
  rw [h1] at e
  exact e (congrArg some h2)

/-- A contact without a birthday behind one with a birthday is exported with that birthday. -/
theorem C110_list_false :
    let a := { ann with uid := q! "u", addresses := [] }
    let b := { bob with revision := some ⟨(2016, 1, 20), (8, 5, 3, 0), none⟩ }
    textAgain env' [a, b] = some (addresseesToLDIF env' (q! "f") [a, { b with birthday := a.birthday }] []).2 ∧
    textAgain env' [a, b] ≠ some (addresseesToLDIF env' (q! "f") [a, b] []).2 := by decide +kernel

/-- A street of three lines is exported with two. -/
theorem C110_street_false :
    let c (street : QString) : Contact :=
      { bob with revision := some ⟨(2016, 1, 20), (8, 5, 3, 0), none⟩, addresses := [{ empty := false, id := q! "x", type := 16, street := street }] }
    textAgain env' [c (q! "a\nb\nc")] = some (addresseesToLDIF env' (q! "f") [c (q! "a\nb")] []).2 ∧
    textAgain env' [c (q! "a\nb\nc")] ≠ some (addresseesToLDIF env' (q! "f") [c (q! "a\nb\nc")] []).2 := by decide +kernel

end KC
