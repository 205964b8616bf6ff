import Verif.Lemmas.LdifCard
import Verif.Props.C43
import Verif.Props.C107
import Verif.Props.C112
/-
  C113: contacts imported from LDIF, exported as vCards and imported again, are the same contacts.
-/
namespace KC
open Spec

/-- Every contact imported from a list of entries is what one of the entries says. -/
theorem ldif_contacts (E : LdifEnv) (ids : Nat → QString) (hids : ∀ i j, ids i = ids j → i = j) (hurl : ∀ u, E.urlValid u = true → u ≠ []) (now : QDateTime) (linelen : Nat)
    (rs : List LdifRecord) (hr : ∀ r ∈ rs, r.Proper) (hb : rs.Pairwise BirthApart) (cs : List Contact) (gs : List Group)
    (h : ldifToAddressee E ids now (documentString (rs.flatMap (LdifRecord.text linelen))) = some (cs, gs)) :
    ∀ c ∈ cs, ∃ r ∈ rs, ¬ r.Has (q! "member") ∧ ∃ k, LdifImported E (fun i => ids (k + i)) now r c := by
  obtain ⟨parts, hl, hp, hall⟩ := C43_partial E ids now linelen rs hr hb
  have e : (fun i => ids (0 + i)) = ids := by funext i; rw [Nat.zero_add]
  unfold ImportGives at hall
  rw [e, h] at hall
  intro c hc
  rw [(Prod.mk.inj (Option.some.inj hall)).1] at hc
  obtain ⟨p, hpm, hcp⟩ := List.mem_flatMap.1 hc
  obtain ⟨i, hi, rfl⟩ := List.getElem_of_mem hpm
  have hm : (rs[i]'(by omega), parts[i]) ∈ rs.zip parts := List.mem_iff_getElem.2 ⟨i, by simp; omega, by simp⟩
  have hone := hp _ hm
  have hrm : rs[i]'(by omega) ∈ rs := List.getElem_mem _
  generalize rs[i]'(by omega) = r at hone hrm
  generalize parts[i] = p at hone hcp
  unfold ImportGives at hone
  dsimp only at hone
  refine ⟨r, hrm, ?_⟩
  by_cases hmem : r.Has (q! "member")
  · rw [C76_group E _ now linelen r (hr r hrm) hmem] at hone
    rw [← congrArg Prod.fst (Option.some.inj hone)] at hcp
    cases hcp
  refine ⟨hmem, p.1, ?_⟩
  by_cases hn : r.last [q! "cn"] ≠ [] ∨ r.last [q! "sn"] ≠ []
  · obtain ⟨c', h1, h2⟩ := C76 E (fun i => ids (p.1 + i)) (fun i j hij => by have := hids _ _ hij; omega) hurl now linelen r (hr r hrm) hmem hn
    rw [h1] at hone
    rw [← congrArg Prod.fst (Option.some.inj hone)] at hcp
    rw [List.mem_singleton.1 hcp]
    exact h2
  · simp only [not_or, Decidable.not_not] at hn
    rw [C76_unnamed E _ now linelen r (hr r hrm) hmem hn.1 hn.2] at hone
    rw [← congrArg Prod.fst (Option.some.inj hone)] at hcp
    cases hcp

theorem ldif_readable (E : LdifEnv) (v : Version) (ids : Nat → QString) (hids : ∀ i j, ids i = ids j → i = j) (hnew : ∀ i, SafeText (ids i) ∧ ids i ≠ [])
    (hurl : ∀ u, E.urlValid u = true → u ≠ []) (now : QDateTime) (hnow : DateTimeOK now) (linelen : Nat)
    (rs : List LdifRecord) (hr : ∀ r ∈ rs, r.Proper) (hb : rs.Pairwise BirthApart) (hf : ∀ r ∈ rs, ¬ r.Has (q! "member") → RecordFits E v r)
    (cs : List Contact) (gs : List Group) (h : ldifToAddressee E ids now (documentString (rs.flatMap (LdifRecord.text linelen))) = some (cs, gs)) :
    ∀ c ∈ cs, Readable E.toToolEnv v c := by
  intro c hc
  obtain ⟨r, hrm, hmem, k, hi⟩ := ldif_contacts E ids hids hurl now linelen rs hr hb cs gs h c hc
  exact record_readable hi (hf r hrm hmem) (hnew _) hnow

/-- C113: an LDIF document of any entries is imported; what each entry for a contact says can be carried by version `v` of the vCard format (`RecordFits`).
    The contacts can be exported as vCards of that version, and importing these gives the same contacts, in order, each with the content listed in
    `Contact.restored`. -/
theorem C113 (E : LdifEnv) (v : Version) (ids : Nat → QString) (ids' : IdKind → Nat → QString) (hids : ∀ i j, ids i = ids j → i = j)
    (hids' : ∀ k i j, ids' k i = ids' k j → i = j) (hnew : ∀ i, SafeText (ids i) ∧ ids i ≠ [])
    (hurl : ∀ u, E.urlValid u = true → u ≠ []) (now : QDateTime) (hnow : DateTimeOK now) (linelen : Nat)
    (rs : List LdifRecord) (hr : ∀ r ∈ rs, r.Proper) (hb : rs.Pairwise BirthApart) (hf : ∀ r ∈ rs, ¬ r.Has (q! "member") → RecordFits E v r)
    (cs : List Contact) (gs : List Group) (h : ldifToAddressee E ids now (documentString (rs.flatMap (LdifRecord.text linelen))) = some (cs, gs))
    (hu : ∀ c ∈ cs, ∀ i, c.uid ≠ ids' .contact i) :
    ∃ cs', ReadAs E.toToolEnv v ids' 0 0 0 cs cs' ∧
      ∃ n, ∀ fuel, n ≤ fuel → parseContacts E.toToolEnv ids' fuel (createContacts E.toToolEnv v false cs) = .ok cs' :=
  C24_contacts E.toToolEnv v ids' hids' cs (ldif_readable E v ids hids hnew hurl now hnow linelen rs hr hb hf cs gs h) hu

/-- C113 in bytes: exporting what comes back gives the same vCards, byte for byte. -/
theorem C113_text (E : LdifEnv) (v : Version) (ids : Nat → QString) (ids' : IdKind → Nat → QString) (hids : ∀ i j, ids i = ids j → i = j)
    (hids' : ∀ k i j, ids' k i = ids' k j → i = j) (hnew : ∀ i, SafeText (ids i) ∧ ids i ≠ [])
    (hurl : ∀ u, E.urlValid u = true → u ≠ []) (now : QDateTime) (hnow : DateTimeOK now) (linelen : Nat)
    (rs : List LdifRecord) (hr : ∀ r ∈ rs, r.Proper) (hb : rs.Pairwise BirthApart) (hf : ∀ r ∈ rs, ¬ r.Has (q! "member") → RecordFits E v r)
    (cs : List Contact) (gs : List Group) (h : ldifToAddressee E ids now (documentString (rs.flatMap (LdifRecord.text linelen))) = some (cs, gs))
    (hu : ∀ c ∈ cs, ∀ i, c.uid ≠ ids' .contact i) :
    ∃ n, ∀ fuel, n ≤ fuel → ∃ cs', parseContacts E.toToolEnv ids' fuel (createContacts E.toToolEnv v false cs) = .ok cs' ∧
      createContacts E.toToolEnv v false cs' = createContacts E.toToolEnv v false cs := by
  obtain ⟨n, hn⟩ := C91_text_partial E.toToolEnv v ids' hids' cs (ldif_readable E v ids hids hnew hurl now hnow linelen rs hr hb hf cs gs h)
    (fun _ c hc k hk => by
      obtain ⟨r, _, _, _, hi⟩ := ldif_contacts E ids hids hurl now linelen rs hr hb cs gs h c hc
      rw [show c.keys = [] from congrArg (·.keys) hi.rest] at hk
      cases hk) hu
  exact ⟨n, fun f hf' => let ⟨cs', h1, h2, _⟩ := hn f hf'; ⟨cs', h1, h2⟩⟩

theorem single_nil {r : LdifRecord} {names : List QString} : r.single names = [] ↔ ∀ s ∈ r.values names, s = [] := by
  unfold LdifRecord.single
  simp only [List.map_eq_nil_iff, Option.toList_eq_nil_iff, List.getLast?_eq_none_iff]
  induction r.values names with
  | nil => simp
  | cons a l ih => cases a <;> simp [List.dropWhile_cons, ih]

theorem single_last {r : LdifRecord} {names : List QString} (h : r.last names = []) : firstText (r.single names) = [] := by
  unfold LdifRecord.last at h
  unfold LdifRecord.single
  generalize r.values names = l at h
  cases hd : (l.dropWhile (·.isEmpty)).getLast? with
  | none => rfl
  | some t =>
    have hs := List.dropWhile_suffix (·.isEmpty) (l := l)
    obtain ⟨m, hm⟩ := hs
    rw [← hm, List.getLast?_append, hd] at h
    simp only [Option.some_or, Option.getD_some] at h
    subst h
    rfl

/-- C113 back in LDIF: exported as LDIF, the contacts that come back from the vCards give the same text as the contacts first imported. (Version 2.1 has no
    nick name, and a vCard has no department without an organization.) -/
theorem C113_ldif (E : LdifEnv) (v : Version) (ids : Nat → QString) (ids' : IdKind → Nat → QString) (hids : ∀ i j, ids i = ids j → i = j)
    (hids' : ∀ k i j, ids' k i = ids' k j → i = j) (hnew : ∀ i, SafeText (ids i) ∧ ids i ≠ [])
    (hurl : ∀ u, E.urlValid u = true → u ≠ []) (now : QDateTime) (hnow : DateTimeOK now) (linelen : Nat)
    (rs : List LdifRecord) (hr : ∀ r ∈ rs, r.Proper) (hb : rs.Pairwise BirthApart) (hf : ∀ r ∈ rs, ¬ r.Has (q! "member") → RecordFits E v r)
    (hnick : v = .v2_1 → ∀ r ∈ rs, ¬ r.Has (q! "member") → r.last [q! "nickname", q! "xmozillanickname", q! "mozillanickname"] = [])
    (hdep : ∀ r ∈ rs, ¬ r.Has (q! "member") → r.last [q! "department"] ≠ [] → ∃ s ∈ r.values [q! "o", q! "organization", q! "organizationname"], s ≠ [])
    (cs : List Contact) (gs : List Group) (h : ldifToAddressee E ids now (documentString (rs.flatMap (LdifRecord.text linelen))) = some (cs, gs))
    (hu : ∀ c ∈ cs, ∀ i, c.uid ≠ ids' .contact i) :
    ∃ cs', (∃ n, ∀ fuel, n ≤ fuel → parseContacts E.toToolEnv ids' fuel (createContacts E.toToolEnv v false cs) = .ok cs') ∧
      ∀ (L : LdifEnv) (fresh fresh' str : QString), addresseesToLDIF L fresh' cs' str = addresseesToLDIF L fresh cs str := by
  have hsay := ldif_contacts E ids hids hurl now linelen rs hr hb cs gs h
  refine C107_partial E.toToolEnv v ids' hids' cs (ldif_readable E v ids hids hnew hurl now hnow linelen rs hr hb hf cs gs h) hu ?_ ?_ ?_
  · intro c hc
    obtain ⟨r, _, _, k, hi⟩ := hsay c hc
    refine ⟨hi.notEmpty, fun a ha => ?_⟩
    rw [hi.addresses] at ha
    rcases List.mem_append.1 ha with ha | ha <;> split at ha
    · cases ha
    · rw [List.mem_singleton.1 ha]; rfl
    · cases ha
    · rw [List.mem_singleton.1 ha]; rfl
  · intro hv c hc
    obtain ⟨r, hrm, hmem, k, hi⟩ := hsay c hc
    show firstText c.nickNames = []
    rw [hi.nickNames]
    exact single_last (hnick hv r hrm hmem)
  · intro c hc ho
    obtain ⟨r, hrm, hmem, k, hi⟩ := hsay c hc
    left
    rw [hi.organizations, single_nil] at ho
    rw [hi.department]
    by_contra hne
    obtain ⟨s, hs, hs'⟩ := hdep r hrm hmem hne
    exact hs' (ho s hs)

/-! ### The hypotheses can be met -/

/-- An entry with attributes of every kind. -/
def entry113 : LdifRecord :=
  ⟨b! "cn=Ann Lee", [(q! "objectclass", b! "person"), (q! "uid", b! "u1"), (q! "cn", b! "Ann Lee"), (q! "sn", b! "Lee"), (q! "givenname", b! "Ann"),
    (q! "mail", b! "a@b"), (q! "mozillasecondemail", b! "c@d"), (q! "othermailbox", b! "a@b"), (q! "pager", b! " 1  2 "), (q! "xmozillaanyphone", b! "3"),
    (q! "mobile", []), (q! "custom3", b! "x"), (q! "description", b! "y"), (q! "street", b! "Road 1"), (q! "c", b! "DE"), (q! "mozillahomestate", b! "BY"),
    (q! "title", b! "Dr"), (q! "o", b! "Acme"), (q! "department", b! "Sales"), (q! "xbatbirthday", b! "20240229"), (q! "homeurl", b! "http:x"),
    (q! "modifytimestamp", b! "20240309T123005Z")]⟩

/-- An entry for a group. -/
def group113 : LdifRecord := ⟨b! "cn=All", [(q! "objectclass", b! "groupOfNames"), (q! "cn", b! "All"), (q! "member", b! "cn=Ann Lee,mail=a@b")]⟩

private theorem proper113 : ∀ r ∈ [entry113, group113], r.Proper := by
  have h1 : ∀ a ∈ entry113.attrs, plainName a.1 = true := by decide +kernel
  have h2 : ∀ a ∈ group113.attrs, plainName a.1 = true := by decide +kernel
  intro r hr
  simp only [List.mem_cons, List.not_mem_nil, or_false] at hr
  rcases hr with rfl | rfl
  · exact ⟨fun a ha => plainName_ldif (h1 a ha), ⟨_, _, rfl, by decide, by decide⟩⟩
  · exact ⟨fun a ha => plainName_ldif (h2 a ha), ⟨_, _, rfl, by decide, by decide⟩⟩

private theorem apart113 : [entry113, group113].Pairwise BirthApart := by
  have h : ∀ n ∈ birthNames, ∀ a ∈ entry113.attrs, toLowerQ a.1 ≠ n := by decide +kernel
  refine List.pairwise_pair.2 (.inl ?_)
  rintro n hn ⟨a, ha, e⟩
  exact h n hn a ha e

private def easyB (s : QString) : Bool := asciiSafe s && decide (PlainAscii s) && decide (s.getLast? ≠ some (qc! '\\'))

private theorem easy_of {v : Version} {s : QString} (h : easyB s = true) : EasyText v s := by
  simp only [easyB, Bool.and_eq_true, decide_eq_true_eq] at h
  exact ⟨asciiSafe_safe h.1.1, h.2, fun _ => h.1.2⟩

private theorem every {names : List QString} (f : QString → Bool) (h : (entry113.values names).all f = true) {s : QString} (hs : s ∈ entry113.values names) : f s = true :=
  List.all_eq_true.1 h s hs

private def fullB (s : QString) : Bool := easyB s && !s.isEmpty

private theorem full_of {v : Version} {s : QString} (h : fullB s = true) : EasyText v s ∧ s ≠ [] := by
  simp only [fullB, Bool.and_eq_true, Bool.not_eq_true', List.isEmpty_eq_false_iff] at h
  exact ⟨easy_of h.1, h.2⟩

private theorem address113 {a : Address} (h : (a.parts.all easyB && a.parts.any (fun s => !s.isEmpty) && a.label.isEmpty) = true) : AddressOK sampleLdifEnv.toToolEnv .v3_0 a := by
  simp only [Bool.and_eq_true, List.any_eq_true, Bool.not_eq_true', List.isEmpty_eq_false_iff, List.isEmpty_iff] at h
  exact ⟨h.1.2, compound_easy fun s hs => easy_of (List.all_eq_true.1 h.1.1 s hs), fun _ => by rw [h.2]; exact coded_easy (easy_nil _), nofun, nofun⟩

theorem entry113_fits : RecordFits sampleLdifEnv .v3_0 entry113 where
  uid := fun s hs => let h := full_of (v := .v3_0) (every fullB (by decide +kernel) hs); ⟨h.1.safe, h.2⟩
  formattedName := fun s hs => coded_easy (easy_of (every easyB (by decide +kernel) hs))
  nameParts := fun s hs => easy_of (every easyB (by decide +kernel) hs)
  department := fun s hs => easy_of (every easyB (by decide +kernel) hs)
  nickNames := fun s hs _ => let h := full_of (v := .v3_0) (every fullB (by decide +kernel) hs); ⟨⟨h.1.safe, h.2⟩, .nil⟩
  titles := fun s hs => let h := full_of (v := .v3_0) (every fullB (by decide +kernel) hs); ⟨⟨⟨h.1.safe, h.2⟩, .nil⟩, nofun⟩
  roles := fun s hs => let h := full_of (v := .v3_0) (every fullB (by decide +kernel) hs); ⟨⟨⟨h.1.safe, h.2⟩, .nil⟩, nofun⟩
  organizations := fun s hs => let h := full_of (v := .v3_0) (every fullB (by decide +kernel) hs); ⟨⟨⟨h.1.safe, h.2⟩, .nil⟩, h.1, nofun⟩
  emails := fun s hs => let h := full_of (v := .v3_0) (every fullB (by decide +kernel) hs); ⟨h.1.safe, h.2⟩
  note := by
    have e : List.intercalate (q! "\n") ((entry113.values noteNames).dropWhile (·.isEmpty)) = q! "x\ny" := by decide +kernel
    rw [e]
    unfold CodedText
    rw [if_neg (fun h => by cases h.1)]
    exact asciiSafe_safe (by decide)
  urls := fun s hs _ => let h := full_of (v := .v3_0) (every fullB (by decide +kernel) hs); ⟨h.1.safe, h.2, rfl⟩
  phones := fun p hp => by
    have h : ((entry113.kinded ldifPhoneKinds).all fun p => asciiSafe (simplified p.2)) = true := by decide +kernel
    exact asciiSafe_safe (List.all_eq_true.1 h p hp)
  home := fun _ => address113 (by decide +kernel)
  work := fun _ => address113 (by decide +kernel)
  birthYear := fun d hd => by
    have h : entry113.birthDate = some (2024, 2, 29) := by decide +kernel
    rw [h] at hd
    cases hd
    decide

/-- The contact imported from that document. -/
def contact113 : Contact :=
  match ldifToAddressee sampleLdifEnv (Sample.ids .contact) sampleNow (documentString ([entry113, group113].flatMap (LdifRecord.text 0))) with
  | some ([c], _) => c
  | _ => Contact.new []

private theorem now113 : DateTimeOK sampleNow := by
  intro x hx
  cases hx
  exact ⟨⟨.inr (by decide), by decide⟩, by decide, by decide, by decide, by decide, nofun⟩

/-- Non-vacuity of C113, C113_text and C113_ldif: one contact and one group are imported from that document. -/
example : ∃ gs, ldifToAddressee sampleLdifEnv (Sample.ids .contact) sampleNow (documentString ([entry113, group113].flatMap (LdifRecord.text 0))) = some ([contact113], gs) ∧
    gs.length = 1 ∧ ∃ cs', ReadAs sampleLdifEnv.toToolEnv .v3_0 Sample.ids 0 0 0 [contact113] cs' ∧
      ∃ n, ∀ fuel, n ≤ fuel → parseContacts sampleLdifEnv.toToolEnv Sample.ids fuel (createContacts sampleLdifEnv.toToolEnv .v3_0 false [contact113]) = .ok cs' := by
  have h : ldifToAddressee sampleLdifEnv (Sample.ids .contact) sampleNow (documentString ([entry113, group113].flatMap (LdifRecord.text 0))) =
      some ([contact113], [{ id := Sample.ids .contact 10, name := [], data := [{ name := q! "Ann Lee", email := q! " <a@b>" }] }]) := by decide +kernel
  refine ⟨_, h, rfl, ?_⟩
  refine C113 sampleLdifEnv .v3_0 (Sample.ids .contact) Sample.ids (Sample.ids_inj .contact) Sample.ids_inj ids112_safe ?_ sampleNow now113 0 _ proper113 apart113 ?_ _ _ h ?_
  · intro u hu e
    subst e
    exact absurd hu (by decide)
  · intro r hr hm
    simp only [List.mem_cons, List.not_mem_nil, or_false] at hr
    rcases hr with rfl | rfl
    · exact entry113_fits
    · exact absurd ⟨(q! "member", b! "cn=Ann Lee,mail=a@b"), by decide, by decide⟩ hm
  · intro c hc i h
    rw [List.mem_singleton.1 hc] at h
    have h' : contact113.uid.head? = some (qc! 'c') := by rw [h, Sample.ids, List.replicate_succ, List.head?_cons]
    exact absurd h' (by decide +kernel)

example : contact113.note = q! "x\ny" ∧ contact113.phoneNumbers.map (·.number) = [q! "1 2", q! "3"] ∧ contact113.addresses.length = 2 ∧
    contact113.department = q! "Sales" := by decide +kernel

/-! ### Conditions that matter -/

/-- The contact imported from an entry with these attributes. -/
def imported113 (attrs : List (QString × QByteArray)) : Contact :=
  match ldifToAddressee sampleLdifEnv (Sample.ids .contact) sampleNow (documentString (LdifRecord.text 0 ⟨b! "x", attrs⟩)) with
  | some ([c], _) => c
  | _ => Contact.new []

/-- That contact after its export as a vCard and the import of that. -/
def returned113 (v : Version) (c : Contact) : Contact :=
  match parseContacts sampleLdifEnv.toToolEnv Sample.ids 200 (createContacts sampleLdifEnv.toToolEnv v false [c]) with
  | .ok [d] => d
  | _ => Contact.new []

/-- An empty `uid`: the contact has an empty identifier; the vCard does not say so, and its import makes one up. -/
theorem C113_uid_false : (imported113 [(q! "cn", b! "Ann"), (q! "uid", [])]).formattedName = q! "Ann" ∧
    (imported113 [(q! "cn", b! "Ann"), (q! "uid", [])]).uid = [] ∧
    (returned113 .v3_0 (imported113 [(q! "cn", b! "Ann"), (q! "uid", [])])).formattedName = q! "Ann" ∧
    (returned113 .v3_0 (imported113 [(q! "cn", b! "Ann"), (q! "uid", [])])).uid = Sample.ids .contact 0 := by decide +kernel

/-- A department without an organization does not come back. -/
theorem C113_department_false : (imported113 [(q! "cn", b! "Ann"), (q! "department", b! "Sales")]).department = q! "Sales" ∧
    (returned113 .v3_0 (imported113 [(q! "cn", b! "Ann"), (q! "department", b! "Sales")])).formattedName = q! "Ann" ∧
    (returned113 .v3_0 (imported113 [(q! "cn", b! "Ann"), (q! "department", b! "Sales")])).department = [] := by decide +kernel

/-- A year of birth of five digits: the birthday does not come back. -/
theorem C113_year_false : (imported113 [(q! "cn", b! "Ann"), (q! "birthyear", b! "12345"), (q! "birthmonth", b! "6"), (q! "birthday", b! "7")]).birthday.map (·.date) = some (12345, 6, 7) ∧
    (returned113 .v3_0 (imported113 [(q! "cn", b! "Ann"), (q! "birthyear", b! "12345"), (q! "birthmonth", b! "6"), (q! "birthday", b! "7")])).formattedName = q! "Ann" ∧
    (returned113 .v3_0 (imported113 [(q! "cn", b! "Ann"), (q! "birthyear", b! "12345"), (q! "birthmonth", b! "6"), (q! "birthday", b! "7")])).birthday = none := by decide +kernel

end KC
