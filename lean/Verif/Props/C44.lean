import Verif.Lemmas.LdifBack
/-
  C44 — a contact exported to LDIF and imported has the fields LDIF supports.
-/
namespace KC
open KC.Spec

theorem ldif_entries_from (E : LdifEnv) (ids : Nat → QString) (hids : ∀ i j, ids i = ids j → i = j) (now : QDateTime) (fresh : QString) (cs : List Contact)
    (h : ∀ c ∈ cs, LdifReadable E c) (hb : cs.Pairwise BirthdaysApart) : ∀ (n : Nat) (b : Int × Int × Int),
    (b = (-1, -1, -1) ∨ ∀ c ∈ cs, ∃ x, c.birthday = some x ∧ 0 < x.date.1) →
    ∃ as, evalEntries E ids now (cs.map (contactEntry E fresh)) n b = (as, []) ∧ as.length = cs.length ∧
      ∀ p ∈ cs.zip as, LdifSurvives E p.1 p.2 ∧ ∃ (n : Nat) (b : Int × Int × Int), ldifResult (afterExport E ids fresh p.1 (ldifFresh E ids now n b.2.2 b.2.1 b.1)) = ([p.2], []) := by
  induction cs with
  | nil => intro n b _; exact ⟨[], rfl, rfl, by simp⟩
  | cons c cs ih =>
    intro n b hbb
    have hb' := List.pairwise_cons.1 hb
    obtain ⟨⟨a, ha, hsur⟩, hnone⟩ := entry_back E ids hids now fresh c (h c (by simp)) n b (by
      rcases hbb with hbb | hbb
      · exact .inl hbb
      · exact .inr (hbb c (by simp)))
    obtain ⟨as, h1, h2, h3⟩ := ih (fun x hx => h x (by simp [hx])) hb'.2 (afterExport E ids fresh c (ldifFresh E ids now n b.2.2 b.2.1 b.1)).next
      (afterExport E ids fresh c (ldifFresh E ids now n b.2.2 b.2.1 b.1)).birth (by
        cases hc : c.birthday with
        | none => exact .inl (hnone hc)
        | some d =>
          right
          intro x hx
          rcases hb'.1 x hx with e | e
          · rw [hc] at e; cases e
          · exact e)
    refine ⟨a :: as, ?_, by simp [h2], ?_⟩
    · rw [List.map_cons, evalEntries]
      have e : evalPairs E ids (ldifFresh E ids now n b.2.2 b.2.1 b.1) (contactEntry E fresh c).pairs = afterExport E ids fresh c (ldifFresh E ids now n b.2.2 b.2.1 b.1) := rfl
      simp only [e, ha, h1, List.cons_append, List.nil_append]
    · intro p hp
      rw [List.zip_cons_cons] at hp
      rcases List.mem_cons.1 hp with rfl | hp
      · exact ⟨hsur, n, b, ha⟩
      · exact h3 p hp

theorem ldif_entries_back (E : LdifEnv) (ids : Nat → QString) (hids : ∀ i j, ids i = ids j → i = j) (now : QDateTime) (fresh : QString) (cs : List Contact)
    (h : ∀ c ∈ cs, LdifReadable E c) (hb : cs.Pairwise BirthdaysApart) (n : Nat) (b : Int × Int × Int)
    (hbb : b = (-1, -1, -1) ∨ ∀ c ∈ cs, ∃ x, c.birthday = some x ∧ 0 < x.date.1) :
    ∃ as, evalEntries E ids now (cs.map (contactEntry E fresh)) n b = (as, []) ∧ as.length = cs.length ∧ ∀ p ∈ cs.zip as, LdifSurvives E p.1 p.2 := by
  obtain ⟨as, h1, h2, h3⟩ := ldif_entries_from E ids hids now fresh cs h hb n b hbb
  exact ⟨as, h1, h2, fun p hp => (h3 p hp).1⟩

theorem ldif_export_text (E : LdifEnv) (fresh : QString) (cs : List Contact) (h : ∀ c ∈ cs, c.empty = false) :
    (addresseesToLDIF E fresh cs []).2 = (cs.map (contactEntry E fresh)).flatMap LdifEntry.text := by
  have key : ∀ (cs : List Contact), (∀ c ∈ cs, c.empty = false) → ∀ acc : Bool × QString,
      (cs.foldl (fun acc c => let r := addresseeToLDIF E fresh c acc.2; (r.1 || acc.1, r.2)) acc).2 = acc.2 ++ (cs.map (contactEntry E fresh)).flatMap LdifEntry.text := by
    intro cs
    induction cs with
    | nil => intro _ acc; simp
    | cons c cs ih =>
      intro h acc
      rw [List.foldl_cons, ih (fun x hx => h x (by simp [hx]))]
      simp only [addresseeToLDIF_pairs E fresh c acc.2 (h c (by simp)), List.map_cons, List.flatMap_cons, LdifEntry.text, contactEntry, List.append_assoc]
  unfold addresseesToLDIF
  cases cs with
  | nil => rfl
  | cons c cs => exact (key (c :: cs) h (true, [])).trans (by simp)

/-- Contacts whose fields can be expressed (`LdifReadable`) are exported to one text, which is imported as contacts with the same supported fields, one for
    one. In a list no contact with a birthday may stand before one without a full birthday (`BirthdaysApart`). Missing: see the counterexamples below. -/
theorem C44_partial (E : LdifEnv) (ids : Nat → QString) (hids : ∀ i j, ids i = ids j → i = j) (now : QDateTime) (fresh : QString) (cs : List Contact)
    (h : ∀ c ∈ cs, LdifReadable E c) (hb : cs.Pairwise BirthdaysApart) :
    ∃ as, ldifToAddressee E ids now (addresseesToLDIF E fresh cs []).2 = some (as, []) ∧ as.length = cs.length ∧ ∀ p ∈ cs.zip as, LdifSurvives E p.1 p.2 := by
  rw [ldif_export_text E fresh cs (fun c hc => (h c hc).notEmpty), import_entries E ids now _ (by
    intro e he
    obtain ⟨c, hc, rfl⟩ := List.mem_map.1 he
    exact contactEntry_ok E fresh c (h c hc))]
  obtain ⟨as, h1, h2, h3⟩ := ldif_entries_back E ids hids now fresh cs h hb 0 (-1, -1, -1) (.inl rfl)
  exact ⟨as, by rw [h1], h2, h3⟩

/-- One contact, exported by itself. -/
theorem C44_one_partial (E : LdifEnv) (ids : Nat → QString) (hids : ∀ i j, ids i = ids j → i = j) (now : QDateTime) (fresh : QString) (c : Contact)
    (h : LdifReadable E c) :
    ∃ text a, addresseeToLDIF E fresh c [] = (true, text) ∧ ldifToAddressee E ids now text = some ([a], []) ∧ LdifSurvives E c a := by
  obtain ⟨as, h1, h2, h3⟩ := C44_partial E ids hids now fresh [c] (by simpa using h) (by simp)
  obtain ⟨a, rfl⟩ := List.length_eq_one_iff.1 h2
  refine ⟨(addresseeToLDIF E fresh c []).2, a, ?_, ?_, h3 (c, a) (List.mem_singleton.2 rfl)⟩
  · rw [addresseeToLDIF_pairs E fresh c [] h.notEmpty]
  · rw [addresseeToLDIF_pairs E fresh c [] h.notEmpty]
    rw [ldif_export_text E fresh [c] (by simpa using h.notEmpty)] at h1
    simpa only [List.map_cons, List.map_nil, List.flatMap_cons, List.flatMap_nil, LdifEntry.text, contactEntry, List.append_assoc, List.append_nil, List.nil_append] using h1

private def ids' (n : Nat) : QString := List.replicate (n + 1) (qc! 'x')

private theorem ids'_inj (i j : Nat) (h : ids' i = ids' j) : i = j := by
  have := congrArg List.length h
  simpa [ids'] using this

/-- A contact with something in most fields LDIF knows. -/
private def ann : Contact :=
  { uid := q! "uid-1", formattedName := q! "Ann Lee", familyName := q! "Lee", givenName := q! "Ann", prefix_ := q! "Dr."
    birthday := some ⟨(1980, 2, 29), (0, 0, 0, 0), none⟩
    department := q! "R,D", note := q! "first\nsecond: line", revision := some ⟨(2016, 1, 20), (8, 5, 3, 0), none⟩
    phoneNumbers := [{ id := q! "old", number := q! "555 1", type := 1 ||| 8 }, { id := q! "old2", number := q! "555 2", type := 64 }]
    addresses := [{ empty := false, id := q! "x", type := 16, street := q! "Main Street 1\n2nd floor", locality := q! "Town" },
      { empty := false, id := q! "y", type := 32, region := q! "R", country := q! "France", postOfficeBox := q! "12" }]
    emails := [{ mail := q! "ann@example.org" }, { mail := q! "lee@example.org" }]
    extraUrls := [{ url := q! "http://example.org" }]
    titles := [{ text := q! "Chief" }], roles := [{ text := q! "Lead" }], organizations := [{ text := q! "Org; Inc." }], nickNames := [{ text := q! "A" }]
    empty := false }

private theorem ann_home (fresh : QString) : ann.address fresh 16 =
    { empty := false, id := q! "x", type := 16, street := q! "Main Street 1\n2nd floor", locality := q! "Town" } := rfl

private theorem ann_work (fresh : QString) : ann.address fresh 32 =
    { empty := false, id := q! "y", type := 32, region := q! "R", country := q! "France", postOfficeBox := q! "12" } := rfl

private theorem ann_readable : LdifReadable sampleLdifEnv ann where
  notEmpty := rfl
  named := .inl (by decide)
  texts := fun s hs => .ascii (by revert s; decide +kernel)
  uid := by decide
  emails := ⟨by decide, fun e he => ⟨by revert e; decide, .ascii (by revert e; decide +kernel)⟩⟩
  phones := fun p hp => ⟨by revert p; decide, .ascii (by revert p; decide +kernel)⟩
  home := fun fresh => by
    rw [ann_home]
    refine ⟨⟨.inr (.inr ⟨q! "Main Street 1", q! "2nd floor", rfl, by decide, by decide, by decide, by decide⟩), .ascii (by decide)⟩, ?_, .ascii (by decide), .nil, .nil, .nil, .nil,
      by decide⟩
    intro x y e
    have hx : ∀ c ∈ x ++ qc! '\n' :: y, c.toNat < 128 := by rw [← e]; decide
    exact ⟨.ascii fun c hc => hx c (by simp [hc]), .ascii fun c hc => hx c (by simp [hc])⟩
  work := fun fresh => by
    rw [ann_work]
    exact ⟨⟨.inl rfl, .nil⟩, (fun x y e => by cases x <;> cases e), .nil, .ascii (by decide), .nil, .ascii (by decide), .ascii (by decide), by decide⟩
  url := .inr ⟨by decide, by decide, by decide, by decide⟩
  revision := fun d hd => by cases hd; decide
  birthday := fun d hd => by cases hd; decide

/-- A contact without a birthday. -/
private def bob : Contact := { uid := q! "uid-2", familyName := q! "Roe", empty := false }

private theorem bob_address (fresh : QString) (t : Nat) : bob.address fresh t = { id := fresh, type := t } := rfl

private theorem no_address (E : LdifEnv) (h : E.countryName [] = []) (fresh : QString) (t : Nat) : LdifAddressOK E { id := fresh, type := t } :=
  ⟨⟨.inl rfl, .nil⟩, (fun x y e => by cases x <;> cases e), .nil, .nil, .nil, .nil, .nil, h⟩

private theorem bob_readable : LdifReadable sampleLdifEnv bob where
  notEmpty := rfl
  named := .inr (by decide)
  texts := fun s hs => .ascii (by revert s; decide +kernel)
  uid := by decide
  emails := ⟨by decide, fun e he => ⟨by revert e; decide, .ascii (by revert e; decide +kernel)⟩⟩
  phones := fun p hp => by cases hp
  home := fun fresh => no_address _ (by decide) _ _
  work := fun fresh => no_address _ (by decide) _ _
  url := .inl ⟨by decide, by decide⟩
  revision := fun d hd => by cases hd
  birthday := fun d hd => by cases hd

-- a contact without a birthday before two with one
example : ∃ as, ldifToAddressee sampleLdifEnv ids' sampleNow (addresseesToLDIF sampleLdifEnv (q! "f") [bob, ann, ann] []).2 = some (as, []) ∧
    as.length = 3 ∧ ∀ p ∈ [bob, ann, ann].zip as, LdifSurvives sampleLdifEnv p.1 p.2 :=
  C44_partial sampleLdifEnv ids' ids'_inj sampleNow (q! "f") [bob, ann, ann]
    (by simp only [List.mem_cons, List.not_mem_nil, or_false]; rintro c (rfl | rfl | rfl); exacts [bob_readable, ann_readable, ann_readable])
    (.cons (fun _ _ => .inl rfl) (.cons (fun c hc => .inr (by rw [List.mem_singleton.1 hc]; exact ⟨_, rfl, by decide⟩)) (.cons (fun _ h => by simp at h) .nil)))

/-! ### what is lost -/

/-- A contact exported by itself and imported. -/
private def outAndIn (c : Contact) : Option (List Contact × List Group) :=
  ldifToAddressee sampleLdifEnv ids' sampleNow (addresseeToLDIF sampleLdifEnv (q! "f") c []).2

/-- C44 as stated is false of the code: a contact with an e-mail address and no name is not imported at all. -/
theorem C44_false : ¬ ∀ (E : LdifEnv) (ids : Nat → QString) (_ : ∀ i j, ids i = ids j → i = j) (now : QDateTime) (fresh : QString) (c : Contact), c.empty = false →
    ∃ a, ldifToAddressee E ids now (addresseeToLDIF E fresh c []).2 = some ([a], []) ∧ a.emailAddresses = c.emailAddresses := by
  intro h
  obtain ⟨a, h1, -⟩ := h sampleLdifEnv ids' ids'_inj sampleNow (q! "f") { uid := q! "u", emails := [{ mail := q! "ann@example.org" }], empty := false } rfl
  have e : (outAndIn { uid := q! "u", emails := [{ mail := q! "ann@example.org" }], empty := false }).map (fun r => r.1.length) = some 0 := by decide +kernel
  unfold outAndIn at e
  rw [h1] at e
  simp at e

/-- A list of contacts that all can be expressed, one by one, is not given back: the second contact gets the birthday of the first. -/
theorem C44_list_false : ¬ ∀ (E : LdifEnv) (ids : Nat → QString) (_ : ∀ i j, ids i = ids j → i = j) (now : QDateTime) (fresh : QString) (cs : List Contact),
    (∀ c ∈ cs, LdifReadable E c) →
    ∃ as, ldifToAddressee E ids now (addresseesToLDIF E fresh cs []).2 = some (as, []) ∧ as.length = cs.length ∧
      ∀ p ∈ cs.zip as, p.2.birthday.map (·.date) = p.1.birthday.map (·.date) := by
  intro h
  obtain ⟨as, h1, h2, h3⟩ := h sampleLdifEnv ids' ids'_inj sampleNow (q! "f") [ann, bob] (by
    simp only [List.mem_cons, List.not_mem_nil, or_false]
    rintro c (rfl | rfl)
    · exact ann_readable
    · exact bob_readable)
  have e : (ldifToAddressee sampleLdifEnv ids' sampleNow (addresseesToLDIF sampleLdifEnv (q! "f") [ann, bob] []).2).map
      (fun r => r.1.map fun c => c.birthday.map (·.date)) = some [some (1980, 2, 29), some (1980, 2, 29)] := by
    decide +kernel
  rw [h1, Option.map_some, Option.some.injEq] at e
  obtain ⟨a, b, rfl⟩ := List.length_eq_two.1 h2
  have := h3 (bob, b) (by simp)
  simp only [List.map_cons, List.cons.injEq] at e
  rw [e.2.1] at this
  cases this

private def roe (c : Contact) : Contact := { c with uid := q! "u", familyName := q! "Roe", empty := false }

/-- Of a street of three lines the last is lost. -/
theorem C44_street_false :
    let c := roe { uid := [], addresses := [{ empty := false, id := q! "x", type := 16, street := q! "a\nb\nc" }] }
    (outAndIn c).map (fun r => r.1.map fun c => (c.address [] 16).street) = some [q! "a\nb"] := by decide +kernel

/-- A mobile number comes back twice. -/
theorem C44_cell_false :
    let c := roe { uid := [], phoneNumbers := [{ id := q! "x", number := q! "555", type := 64 }] }
    (outAndIn c).map (fun r => r.1.map fun c => c.phoneNumbers.map fun p => (p.number, p.type)) = some [[(q! "555", 64), (q! "555", 64)]] := by decide +kernel

/-- A country code comes back as a name. -/
theorem C44_country_false :
    let c := roe { uid := [], addresses := [{ empty := false, id := q! "x", type := 32, country := q! "DE" }] }
    (outAndIn c).map (fun r => r.1.map fun c => (c.address [] 32).country) = some [q! "Germany"] := by decide +kernel

/-- A revision in UTC comes back as the same clock time in the local zone: another moment, except where local time is UTC. -/
theorem C44_revision_false :
    let c := roe { uid := [], revision := some ⟨(2016, 1, 20), (8, 5, 3, 0), some 0⟩ }
    (ldifToAddressee { sampleLdifEnv with instant := fun d _ _ => d.2.2 } ids' sampleNow (addresseeToLDIF sampleLdifEnv (q! "f") c []).2).map
      (fun r => r.1.map fun c => c.revision) = some [some ⟨(2016, 1, 20), (8, 5, 3, 0), none⟩] := by decide +kernel

/-- The post office box of a home address is not exported. -/
theorem C44_box_false :
    let c := roe { uid := [], addresses := [{ empty := false, id := q! "x", type := 16, postOfficeBox := q! "12" }] }
    (outAndIn c).map (fun r => r.1.map fun c => (c.address [] 16).postOfficeBox) = some [[]] := by decide +kernel

end KC
