import Verif.Props.C76
import Verif.Spec.LdifOrder
/- C85: the order of the attributes of an LDIF entry about different things, the letter case of their names, and unknown attributes do not matter. -/
namespace KC
open Spec

/-! ### The parts of an entry depend on its topics -/

theorem values_on (r : LdifRecord) (topic names : List QString) (h : ∀ n ∈ names, n ∈ topic) :
    r.values names = ((r.on topic).filter fun a => decide (a.1 ∈ names)).map fun a => fromUtf8 a.2 := by
  unfold LdifRecord.values LdifRecord.on
  rw [List.filter_filter, List.filter_map, List.map_map]
  congr 1
  apply List.filter_congr
  intro a _
  by_cases ha : toLowerQ a.1 ∈ names
  · simp [ha, h _ ha]
  · simp [ha]

theorem kinded_on {K : Type} (r : LdifRecord) (topic : List QString) (table : List (QString × K)) (h : ∀ p ∈ table, p.1 ∈ topic) :
    r.kinded table = (r.on topic).filterMap fun a => (table.find? fun p => decide (p.1 = a.1)).map fun p => (p.2, fromUtf8 a.2) := by
  unfold LdifRecord.kinded LdifRecord.on
  rw [List.filterMap_filter, List.filterMap_map]
  apply List.filterMap_congr
  intro a _
  by_cases ha : toLowerQ a.1 ∈ topic
  · simp [ha]
  · have : (table.find? fun p => decide (p.1 = toLowerQ a.1)) = none := by
      rw [List.find?_eq_none]
      intro p hp e
      exact ha (of_decide_eq_true e ▸ h p hp)
    simp [ha, this]

section
variable {r s : LdifRecord} (h : r.SaysTheSame s)
include h

private theorem same_values (names topic : List QString) (ht : topic ∈ ldifTopics) (hn : ∀ n ∈ names, n ∈ topic) : r.values names = s.values names := by
  rw [values_on r topic names hn, values_on s topic names hn, h topic ht]

private theorem same_kinded {K : Type} (table : List (QString × K)) (topic : List QString) (ht : topic ∈ ldifTopics) (hn : ∀ p ∈ table, p.1 ∈ topic) :
    r.kinded table = s.kinded table := by
  rw [kinded_on r topic table hn, kinded_on s topic table hn, h topic ht]

private theorem same_last (names topic : List QString) (ht : topic ∈ ldifTopics) (hn : ∀ n ∈ names, n ∈ topic) : r.last names = s.last names := by
  unfold LdifRecord.last; rw [same_values h names topic ht hn]

private theorem same_single (names topic : List QString) (ht : topic ∈ ldifTopics) (hn : ∀ n ∈ names, n ∈ topic) : r.single names = s.single names := by
  unfold LdifRecord.single; rw [same_values h names topic ht hn]

private theorem same_country (E : LdifEnv) (names topic : List QString) (ht : topic ∈ ldifTopics) (hn : ∀ n ∈ names, n ∈ topic) : r.country E names = s.country E names := by
  unfold LdifRecord.country LdifRecord.last; rw [same_values h names topic ht hn]

private theorem same_number (n : QString) (o : Int) (ht : [n] ∈ ldifTopics) : r.number n o = s.number n o := by
  unfold LdifRecord.number; rw [same_values h [n] [n] ht (fun _ hx => hx)]

private theorem same_street (main further : List QString) (ht : main ++ further ∈ ldifTopics) : r.street main further = s.street main further := by
  unfold LdifRecord.street
  rw [same_kinded h _ (main ++ further) ht]
  intro p hp
  rcases List.mem_append.1 hp with hp | hp <;> obtain ⟨n, hn, rfl⟩ := List.mem_map.1 hp
  · exact List.mem_append_left _ hn
  · exact List.mem_append_right _ hn

private theorem same_birth : r.birthDate = s.birthDate := by
  unfold LdifRecord.birthDate
  rw [same_number h _ _ (by decide +kernel), same_number h _ _ (by decide +kernel), same_number h _ _ (by decide +kernel),
    same_values h [q! "xbatbirthday"] [q! "xbatbirthday"] (by decide +kernel) (fun _ hx => hx)]

private theorem none_on (r : LdifRecord) (names : List QString) (topics : List (List QString)) (ht : ∀ t ∈ topics, ∀ n ∈ t, n ∈ names) (hn : ∀ n ∈ names, ∃ t ∈ topics, n ∈ t) :
    r.values names = [] ↔ ∀ t ∈ topics, r.values t = [] := by
  unfold LdifRecord.values
  simp only [List.map_eq_nil_iff, List.filter_eq_nil_iff, decide_eq_true_eq]
  constructor
  · intro h t ht' a ha h'
    exact h a ha (ht t ht' _ h')
  · intro h a ha h'
    obtain ⟨t, ht', h''⟩ := hn _ h'
    exact h t ht' a ha h''

omit h in
private theorem none_same (h : r.SaysTheSame s) (names : List QString) (topics : List (List QString)) (hs : ∀ t ∈ topics, t ∈ ldifTopics) (ht : ∀ t ∈ topics, ∀ n ∈ t, n ∈ names)
    (hn : ∀ n ∈ names, ∃ t ∈ topics, n ∈ t) : r.values names = [] ↔ s.values names = [] := by
  rw [none_on h r names topics ht hn, none_on h s names topics ht hn]
  constructor
  · intro e t ht'
    rw [← same_values h t t (hs t ht') (fun _ hx => hx)]; exact e t ht'
  · intro e t ht'
    rw [same_values h t t (hs t ht') (fun _ hx => hx)]; exact e t ht'

private theorem same_home (E : LdifEnv) (id : QString) : r.home E id = s.home E id := by
  unfold LdifRecord.home
  rw [same_street h _ _ (by decide +kernel), same_last h _ [q! "mozillahomelocalityname"] (by decide +kernel) (fun _ hx => hx),
    same_last h _ [q! "mozillahomestate"] (by decide +kernel) (fun _ hx => hx), same_last h _ [q! "mozillahomepostalcode"] (by decide +kernel) (fun _ hx => hx),
    same_country h E _ [q! "mozillahomecountryname"] (by decide +kernel) (fun _ hx => hx)]

private theorem same_work (E : LdifEnv) (id : QString) : r.work E id = s.work E id := by
  unfold LdifRecord.work
  rw [same_street h _ _ (by decide +kernel), same_last h _ [q! "locality", q! "l"] (by decide +kernel) (fun _ hx => hx),
    same_last h _ [q! "st"] (by decide +kernel) (fun _ hx => hx), same_last h _ [q! "postalcode"] (by decide +kernel) (fun _ hx => hx),
    same_country h E _ [q! "countryname", q! "c"] (by decide +kernel) (fun _ hx => hx), same_last h _ [q! "postofficebox"] (by decide +kernel) (fun _ hx => hx)]

end

theorem eq_transitive (E : QtEnv) {a b c : QDateTime} (h : QDateTime.eq E a b = true) (h' : QDateTime.eq E b c = true) : QDateTime.eq E a c = true := by
  cases a <;> cases b <;> cases c <;> simp_all [QDateTime.eq]

private theorem has_same {r s : LdifRecord} (h : r.SaysTheSame s) (n : QString) (hn : [n] ∈ ldifTopics) : r.Has n ↔ s.Has n := by
  have key : ∀ r : LdifRecord, r.Has n ↔ r.on [n] ≠ [] := by
    intro r
    unfold LdifRecord.Has LdifRecord.on
    rw [ne_eq, List.filter_eq_nil_iff]
    constructor
    · rintro ⟨a, ha, e⟩ hall
      exact hall _ (List.mem_map_of_mem ha) (by simp [e])
    · intro hall
      by_contra hno
      refine hall fun x hx => ?_
      obtain ⟨a, ha, rfl⟩ := List.mem_map.1 hx
      simpa using fun e => hno ⟨a, ha, e⟩
  rw [key, key, h _ hn]

/-- the rest of a contact -/
private def stripped (c : Contact) : Contact :=
  { c with uid := [], givenName := [], familyName := [], formattedName := [], prefix_ := [], nickNames := [], titles := [], roles := [], organizations := [], department := [], emails := [], note := [], extraUrls := [], phoneNumbers := [], addresses := [], revision := none, birthday := none, empty := true }

/-- what the parts of an imported contact are determines it -/
private theorem contact_eq {c d : Contact}
    (h1 : c.uid = d.uid) (h2 : c.givenName = d.givenName) (h3 : c.familyName = d.familyName) (h4 : c.formattedName = d.formattedName) (h5 : c.prefix_ = d.prefix_)
    (h6 : c.nickNames = d.nickNames) (h7 : c.titles = d.titles) (h8 : c.roles = d.roles) (h9 : c.organizations = d.organizations) (h10 : c.department = d.department)
    (h11 : c.emails = d.emails) (h12 : c.note = d.note) (h13 : c.extraUrls = d.extraUrls) (h14 : c.addresses = d.addresses) (h15 : c.birthday = d.birthday)
    (h16 : c.empty = d.empty) (hr : stripped c = stripped d) :
    ({ c with phoneNumbers := [], revision := none } : Contact) = { d with phoneNumbers := [], revision := none } := by
  have e : ∀ c : Contact, ({ c with phoneNumbers := [], revision := none } : Contact) =
      { stripped c with uid := c.uid, givenName := c.givenName, familyName := c.familyName, formattedName := c.formattedName, prefix_ := c.prefix_, nickNames := c.nickNames, titles := c.titles, roles := c.roles, organizations := c.organizations, department := c.department, emails := c.emails, note := c.note, extraUrls := c.extraUrls, addresses := c.addresses, birthday := c.birthday, empty := c.empty } := fun _ => rfl
  rw [e c, e d, hr, h1, h2, h3, h4, h5, h6, h7, h8, h9, h10, h11, h12, h13, h14, h15, h16]

/-- **C85.** Two entries that say the same on every topic are imported as the same contact or group: the order of attributes about different things, the
    letter case of names, attributes without a meaning, the distinguished name and the width of the lines make no difference. -/
theorem C85 (E : LdifEnv) (ids : Nat → QString) (hids : ∀ i j, ids i = ids j → i = j) (hu : ∀ u, E.urlValid u = true → u ≠ []) (now : QDateTime)
    (linelen linelen' : Nat) (r s : LdifRecord) (hr : r.Proper) (hs : s.Proper) (h : r.SaysTheSame s) :
    ∃ cs ds gs, ldifToAddressee E ids now (documentString (r.text linelen)) = some (cs, gs) ∧
      ldifToAddressee E ids now (documentString (s.text linelen')) = some (ds, gs) ∧ List.Forall₂ (SameContact E.toQtEnv) cs ds := by
  by_cases hm : r.Has (q! "member")
  · have hm' := (has_same h _ (by decide +kernel)).1 hm
    refine ⟨[], [], _, C76_group E ids now linelen r hr hm, ?_, .nil⟩
    rw [C76_group E ids now linelen' s hs hm', same_last h [q! "display-name"] [q! "display-name"] (by decide +kernel) (fun _ hx => hx),
      same_values h [q! "member"] [q! "member"] (by decide +kernel) (fun _ hx => hx)]
  have hm' : ¬ s.Has (q! "member") := fun e => hm ((has_same h _ (by decide +kernel)).2 e)
  have hcn := same_last h [q! "cn"] [q! "cn"] (by decide +kernel) (fun _ hx => hx)
  have hsn := same_last h [q! "sn"] [q! "sn"] (by decide +kernel) (fun _ hx => hx)
  by_cases hn : r.last [q! "cn"] ≠ [] ∨ r.last [q! "sn"] ≠ []
  · have hn' : s.last [q! "cn"] ≠ [] ∨ s.last [q! "sn"] ≠ [] := by rw [← hcn, ← hsn]; exact hn
    obtain ⟨c, h1, hc⟩ := C76 E ids hids hu now linelen r hr hm hn
    obtain ⟨d, h2, hd⟩ := C76 E ids hids hu now linelen' s hs hm' hn'
    refine ⟨[c], [d], [], h1, h2, .cons ⟨?_, ?_, contact_eq ?_ ?_ ?_ ?_ ?_ ?_ ?_ ?_ ?_ ?_ ?_ ?_ ?_ ?_ ?_ ?_ ?_⟩ .nil⟩
    · rw [hc.phones, hd.phones, same_kinded h ldifPhoneKinds (ldifPhoneKinds.map (·.1)) (by decide +kernel) (fun p hp => List.mem_map_of_mem hp)]
    · refine eq_transitive _ hc.revision ?_
      rw [same_values h [q! "modifytimestamp"] [q! "modifytimestamp"] (by decide +kernel) (fun _ hx => hx)]
      exact QDateTime.eq_symm' _ hd.revision
    · rw [hc.uid, hd.uid, same_values h [q! "uid"] [q! "uid"] (by decide +kernel) (fun _ hx => hx)]
    · rw [hc.givenName, hd.givenName, same_last h [q! "givenname"] [q! "givenname"] (by decide +kernel) (fun _ hx => hx)]
    · rw [hc.familyName, hd.familyName, hsn]
    · rw [hc.formattedName, hd.formattedName, hcn]
    · rw [hc.prefix_, hd.prefix_, same_last h [q! "vocation"] [q! "vocation"] (by decide +kernel) (fun _ hx => hx)]
    · rw [hc.nickNames, hd.nickNames, same_single h _ [q! "nickname", q! "xmozillanickname", q! "mozillanickname"] (by decide +kernel) (fun _ hx => hx)]
    · rw [hc.titles, hd.titles, same_single h _ [q! "title"] (by decide +kernel) (fun _ hx => hx)]
    · rw [hc.roles, hd.roles, same_single h _ [q! "ou"] (by decide +kernel) (fun _ hx => hx)]
    · rw [hc.organizations, hd.organizations, same_single h _ [q! "o", q! "organization", q! "organizationname"] (by decide +kernel) (fun _ hx => hx)]
    · rw [hc.department, hd.department, same_last h _ [q! "department"] (by decide +kernel) (fun _ hx => hx)]
    · rw [hc.emails, hd.emails, same_values h _ [q! "mail", q! "mozillasecondemail", q! "othermailbox"] (by decide +kernel) (fun _ hx => hx)]
    · rw [hc.note, hd.note, same_values h _ noteNames (by decide +kernel) (fun _ hx => hx)]
    · rw [hc.urls, hd.urls, same_values h _ [q! "homeurl", q! "workurl", q! "mozillahomeurl"] (by decide +kernel) (fun _ hx => hx)]
    · rw [hc.addresses, hd.addresses, same_home h, same_work h]
      have e1 := none_same h homeNames [homeStreetNames ++ homeStreet2Names, [q! "mozillahomelocalityname"], [q! "mozillahomestate"],
        [q! "mozillahomepostalcode"], [q! "mozillahomecountryname"]] (by decide +kernel) (by decide +kernel) (by decide +kernel)
      have e2 := none_same h workNames [workStreetNames ++ workStreet2Names, [q! "postalcode"], [q! "postofficebox"], [q! "locality", q! "l"],
        [q! "countryname", q! "c"], [q! "st"]] (by decide +kernel) (by decide +kernel) (by decide +kernel)
      simp only [e1, e2]
    · rw [hc.birthday, hd.birthday, same_birth h]
    · rw [hc.notEmpty, hd.notEmpty]
    · exact hc.rest.trans hd.rest.symm
  · push Not at hn
    refine ⟨[], [], [], C76_unnamed E ids now linelen r hr hm hn.1 hn.2, C76_unnamed E ids now linelen' s hs hm' (hcn ▸ hn.1) (hsn ▸ hn.2), .nil⟩

/-! ### What this means for single changes of an entry -/

/-- **C85.** Names in other letters. -/
theorem C85_respelled (r s : LdifRecord) (h : r.attrs.map (fun a => (toLowerQ a.1, a.2)) = s.attrs.map fun a => (toLowerQ a.1, a.2)) : r.SaysTheSame s := by
  intro topic _
  unfold LdifRecord.on
  rw [h]

/-- **C85.** An attribute whose name has no meaning, anywhere in the entry. -/
theorem C85_unknown (dn dn' : QByteArray) (a b : List (QString × QByteArray)) (x : QString × QByteArray) (hx : ∀ topic ∈ ldifTopics, toLowerQ x.1 ∉ topic) :
    LdifRecord.SaysTheSame ⟨dn, a ++ x :: b⟩ ⟨dn', a ++ b⟩ := by
  intro topic ht
  unfold LdifRecord.on
  rw [List.map_append, List.map_append, List.map_cons, List.filter_append, List.filter_append, List.filter_cons_of_neg]
  simpa using hx topic ht

/-- **C85.** Two attributes next to each other that are about different things, exchanged. -/
theorem C85_swapped (dn dn' : QByteArray) (a b : List (QString × QByteArray)) (x y : QString × QByteArray)
    (h : ∀ topic ∈ ldifTopics, ¬ (toLowerQ x.1 ∈ topic ∧ toLowerQ y.1 ∈ topic)) :
    LdifRecord.SaysTheSame ⟨dn, a ++ x :: y :: b⟩ ⟨dn', a ++ y :: x :: b⟩ := by
  intro topic ht
  unfold LdifRecord.on
  simp only [List.map_append, List.map_cons, List.filter_append]
  congr 1
  by_cases hx : toLowerQ x.1 ∈ topic
  · have hy : toLowerQ y.1 ∉ topic := fun hy => h topic ht ⟨hx, hy⟩
    simp [hx, hy]
  · by_cases hy : toLowerQ y.1 ∈ topic <;> simp [hx, hy]

/-! ### Instances -/

private def entryA : LdifRecord :=
  ⟨b! "cn=Ann Lee", [(q! "cn", b! "Ann Lee"), (q! "mail", b! "a@b"), (q! "homephone", b! "1"), (q! "street", b! "Road 1"), (q! "mail", b! "c@d"), (q! "pager", b! "2"),
    (q! "c", b! "DE")]⟩

private def entryB : LdifRecord :=
  ⟨b! "uid=7", [(q! "homephone", b! "1"), (q! "c", b! "DE"), (q! "shoesize", b! "42"), (q! "pager", b! "2"), (q! "mail", b! "a@b"), (q! "street", b! "Road 1"), (q! "mail", b! "c@d"),
    (q! "cn", b! "Ann Lee")]⟩

private theorem entry_proper : entryA.Proper ∧ entryB.Proper := by
  have hA : ∀ a ∈ entryA.attrs, plainName a.1 = true := by decide +kernel
  have hB : ∀ a ∈ entryB.attrs, plainName a.1 = true := by decide +kernel
  exact ⟨⟨fun a ha => plainName_ldif (hA a ha), _, _, rfl, by decide, by decide⟩, ⟨fun a ha => plainName_ldif (hB a ha), _, _, rfl, by decide, by decide⟩⟩

example : entryA.SaysTheSame entryB ∧ entryA.attrs ≠ entryB.attrs := by unfold LdifRecord.SaysTheSame; decide +kernel

example (now : QDateTime) :
    ∃ cs ds gs, ldifToAddressee sampleLdifEnv (Sample.ids .contact) now (documentString (entryA.text 0)) = some (cs, gs) ∧
      ldifToAddressee sampleLdifEnv (Sample.ids .contact) now (documentString (entryB.text 40)) = some (ds, gs) ∧ List.Forall₂ (SameContact sampleLdifEnv.toQtEnv) cs ds :=
  C85 _ _ (Sample.ids_inj .contact) (fun u hu e => by rw [e] at hu; exact absurd hu (by decide)) now 0 40 _ _ entry_proper.1 entry_proper.2 (by unfold LdifRecord.SaysTheSame; decide +kernel)

-- names in other letters, an attribute without a meaning, attributes about different things
example : LdifRecord.SaysTheSame ⟨[], [(q! "CN", b! "x"), (q! "Mail", b! "y")]⟩ ⟨[], [(q! "cn", b! "x"), (q! "mail", b! "y")]⟩ := C85_respelled _ _ (by decide)
example : ∀ topic ∈ ldifTopics, toLowerQ (q! "ShoeSize") ∉ topic := by decide +kernel
example : ∀ topic ∈ ldifTopics, ¬ (toLowerQ (q! "mail") ∈ topic ∧ toLowerQ (q! "homePhone") ∈ topic) := by decide +kernel

-- attributes about the same thing may not be exchanged
example : ¬ LdifRecord.SaysTheSame ⟨[], [(q! "cn", b! "x"), (q! "cn", b! "y")]⟩ ⟨[], [(q! "cn", b! "y"), (q! "cn", b! "x")]⟩ := by
  unfold LdifRecord.SaysTheSame; decide +kernel

end KC
