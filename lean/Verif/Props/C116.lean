import Verif.Props.C70
import Verif.Props.C85
/- C116: every field of a contact imported from LDIF comes from the attributes about it alone. -/
namespace KC
namespace Spec

/-- The names (in small letters) of the attributes of an LDIF entry about a field of the contact. -/
def ldifReadFrom : Field → List QString
  | .uid => [q! "uid"]
  | .formattedName => [q! "cn"]
  | .familyName => [q! "sn"]
  | .givenName => [q! "givenname"]
  | .prefix_ => [q! "vocation"]
  | .department => [q! "department"]
  | .note => noteNames
  | .revision => [q! "modifytimestamp"]
  | .extraUrls => [q! "homeurl", q! "workurl", q! "mozillahomeurl"]
  | .emails => [q! "mail", q! "mozillasecondemail", q! "othermailbox"]
  | .phoneNumbers => ldifPhoneKinds.map (·.1)
  | .addresses => homeNames ++ workNames
  | .birthday => [q! "birthyear", q! "birthmonth", q! "birthday", q! "xbatbirthday"]
  | .text .nickName => [q! "nickname", q! "xmozillanickname", q! "mozillanickname"]
  | .text .title => [q! "title"]
  | .text .role => [q! "ou"]
  | .text .organization => [q! "o", q! "organization", q! "organizationname"]
  | _ => []

/-- The same data in a field; ids of phone numbers, which are made up on import, and the way a time of revision is given do not count. -/
def SameImported (E : QtEnv) (c d : Contact) : Field → Prop
  | .phoneNumbers => c.phoneNumbers.map (fun p => (p.type, p.number)) = d.phoneNumbers.map fun p => (p.type, p.number)
  | .revision => QDateTime.eq E c.revision d.revision = true
  | f => SameIn c d f

/-- The addresses of a type. -/
def addressesOf (type : Nat) (c : Contact) : List Address := c.addresses.filter fun a => decide (a.type = type)

end Spec
open Spec

/-! ### Proof -/

section
variable {r s : LdifRecord} {topic : List QString} (h : r.on topic = s.on topic)
include h

private theorem on_values (names : List QString) (hn : ∀ n ∈ names, n ∈ topic) : r.values names = s.values names := by
  rw [values_on r topic names hn, values_on s topic names hn, h]

private theorem on_kinded {K : Type} (table : List (QString × K)) (hn : ∀ p ∈ table, p.1 ∈ topic) : r.kinded table = s.kinded table := by
  rw [kinded_on r topic table hn, kinded_on s topic table hn, h]

private theorem on_last (names : List QString) (hn : ∀ n ∈ names, n ∈ topic) : r.last names = s.last names := by
  unfold LdifRecord.last; rw [on_values h names hn]

private theorem on_single (names : List QString) (hn : ∀ n ∈ names, n ∈ topic) : r.single names = s.single names := by
  unfold LdifRecord.single; rw [on_values h names hn]

private theorem on_country (E : LdifEnv) (names : List QString) (hn : ∀ n ∈ names, n ∈ topic) : r.country E names = s.country E names := by
  unfold LdifRecord.country LdifRecord.last; rw [on_values h names hn]

private theorem on_number (n : QString) (o : Int) (hn : n ∈ topic) : r.number n o = s.number n o := by
  unfold LdifRecord.number; rw [on_values h [n] (by simpa using hn)]

private theorem on_street (main further : List QString) (hn : ∀ n ∈ main ++ further, n ∈ topic) : r.street main further = s.street main further := by
  unfold LdifRecord.street
  rw [on_kinded h]
  intro p hp
  rcases List.mem_append.1 hp with hp | hp <;> obtain ⟨n, hm, rfl⟩ := List.mem_map.1 hp
  · exact hn n (List.mem_append_left _ hm)
  · exact hn n (List.mem_append_right _ hm)

private theorem on_home (E : LdifEnv) (id : QString) (hn : ∀ n ∈ homeNames, n ∈ topic) : r.home E id = s.home E id := by
  have hs : ∀ names : List QString, (∀ n ∈ names, n ∈ homeNames) → ∀ n ∈ names, n ∈ topic := fun _ h n hx => hn n (h n hx)
  unfold LdifRecord.home
  rw [on_street h _ _ (hs _ (by decide +kernel)), on_last h _ (hs _ (by decide +kernel)), on_last h [q! "mozillahomestate"] (hs _ (by decide +kernel)),
    on_last h [q! "mozillahomepostalcode"] (hs _ (by decide +kernel)), on_country h E _ (hs _ (by decide +kernel))]

private theorem on_work (E : LdifEnv) (id : QString) (hn : ∀ n ∈ workNames, n ∈ topic) : r.work E id = s.work E id := by
  have hs : ∀ names : List QString, (∀ n ∈ names, n ∈ workNames) → ∀ n ∈ names, n ∈ topic := fun _ h n hx => hn n (h n hx)
  unfold LdifRecord.work
  rw [on_street h _ _ (hs _ (by decide +kernel)), on_last h [q! "locality", q! "l"] (hs _ (by decide +kernel)), on_last h [q! "st"] (hs _ (by decide +kernel)),
    on_last h [q! "postalcode"] (hs _ (by decide +kernel)), on_country h E _ (hs _ (by decide +kernel)), on_last h [q! "postofficebox"] (hs _ (by decide +kernel))]

private theorem on_birth (hn : ∀ n ∈ [q! "birthyear", q! "birthmonth", q! "birthday", q! "xbatbirthday"], n ∈ topic) : r.birthDate = s.birthDate := by
  unfold LdifRecord.birthDate
  rw [on_number h _ _ (hn _ (by decide)), on_number h _ _ (hn _ (by decide)), on_number h (q! "birthday") _ (hn _ (by decide)),
    on_values h [q! "xbatbirthday"] (fun n hx => hn n (by revert n; decide))]

end

private theorem imported_same (E : LdifEnv) (ids : Nat → QString) (now : QDateTime) {r s : LdifRecord} {c d : Contact} (hc : LdifImported E ids now r c)
    (hd : LdifImported E ids now s d) (f : Field) (h : r.on (ldifReadFrom f) = s.on (ldifReadFrom f)) : SameImported E.toQtEnv c d f := by
  have hr := hc.rest.trans hd.rest.symm
  cases f with
  | uid => dsimp only [ldifReadFrom] at h; show c.uid = d.uid; rw [hc.uid, hd.uid, on_values h _ fun _ hx => hx]
  | formattedName => dsimp only [ldifReadFrom] at h; show c.formattedName = d.formattedName; rw [hc.formattedName, hd.formattedName, on_last h _ fun _ hx => hx]
  | familyName => dsimp only [ldifReadFrom] at h; show c.familyName = d.familyName; rw [hc.familyName, hd.familyName, on_last h _ fun _ hx => hx]
  | givenName => dsimp only [ldifReadFrom] at h; show c.givenName = d.givenName; rw [hc.givenName, hd.givenName, on_last h _ fun _ hx => hx]
  | prefix_ => dsimp only [ldifReadFrom] at h; show c.prefix_ = d.prefix_; rw [hc.prefix_, hd.prefix_, on_last h _ fun _ hx => hx]
  | department => dsimp only [ldifReadFrom] at h; show c.department = d.department; rw [hc.department, hd.department, on_last h _ fun _ hx => hx]
  | note => dsimp only [ldifReadFrom] at h; show c.note = d.note; rw [hc.note, hd.note, on_values h _ fun _ hx => hx]
  | revision =>
    dsimp only [ldifReadFrom] at h
    refine eq_transitive _ hc.revision ?_
    rw [on_values h _ fun _ hx => hx]
    exact QDateTime.eq_symm' _ hd.revision
  | extraUrls => dsimp only [ldifReadFrom] at h; show c.extraUrls = d.extraUrls; rw [hc.urls, hd.urls, on_values h _ fun _ hx => hx]
  | emails => dsimp only [ldifReadFrom] at h; show c.emails = d.emails; rw [hc.emails, hd.emails, on_values h _ fun _ hx => hx]
  | phoneNumbers =>
    show c.phoneNumbers.map _ = d.phoneNumbers.map _
    rw [hc.phones, hd.phones, on_kinded h ldifPhoneKinds fun p hp => List.mem_map_of_mem hp]
  | addresses =>
    show c.addresses = d.addresses
    rw [hc.addresses, hd.addresses, on_values h homeNames fun n hx => List.mem_append_left _ hx, on_values h workNames fun n hx => List.mem_append_right _ hx,
      on_home h E _ fun n hx => List.mem_append_left _ hx, on_work h E _ fun n hx => List.mem_append_right _ hx]
  | birthday =>
    dsimp only [ldifReadFrom] at h
    refine ⟨by rw [hc.birthday, hd.birthday, on_birth h fun _ hx => hx], ?_⟩
    have := congrArg Contact.birthdayWithTime hr; exact this
  | text k =>
    cases k with
    | nickName => dsimp only [ldifReadFrom] at h; show c.nickNames = d.nickNames; rw [hc.nickNames, hd.nickNames, on_single h _ fun _ hx => hx]
    | title => dsimp only [ldifReadFrom] at h; show c.titles = d.titles; rw [hc.titles, hd.titles, on_single h _ fun _ hx => hx]
    | role => dsimp only [ldifReadFrom] at h; show c.roles = d.roles; rw [hc.roles, hd.roles, on_single h _ fun _ hx => hx]
    | organization => dsimp only [ldifReadFrom] at h; show c.organizations = d.organizations; rw [hc.organizations, hd.organizations, on_single h _ fun _ hx => hx]
  | name => have := congrArg Contact.name hr; exact this
  | kind => have := congrArg Contact.kind hr; exact this
  | additionalName => have := congrArg Contact.additionalName hr; exact this
  | suffix => have := congrArg Contact.suffix hr; exact this
  | mailer => have := congrArg Contact.mailer hr; exact this
  | productId => have := congrArg Contact.productId hr; exact this
  | sortString => have := congrArg Contact.sortString hr; exact this
  | secrecy => have := congrArg Contact.secrecy hr; exact this
  | gender => have := congrArg Contact.gender hr; exact this
  | timeZone => have := congrArg Contact.timeZone hr; exact this
  | geo => have := congrArg Contact.geo hr; exact this
  | logo => have := congrArg Contact.logo hr; exact this
  | photo => have := congrArg Contact.photo hr; exact this
  | sound => have := congrArg Contact.sound hr; exact this
  | deathDate => have := congrArg Contact.deathDate hr; exact this
  | extraSounds => have := congrArg Contact.extraSounds hr; exact this
  | extraPhotos => have := congrArg Contact.extraPhotos hr; exact this
  | extraLogos => have := congrArg Contact.extraLogos hr; exact this
  | sources => have := congrArg Contact.sources hr; exact this
  | fieldGroups => have := congrArg Contact.fieldGroups hr; exact this
  | clientPidMaps => have := congrArg Contact.clientPidMaps hr; exact this
  | impps => have := congrArg Contact.impps hr; exact this
  | calendarUrls => have := congrArg Contact.calendarUrls hr; exact this
  | langs => have := congrArg Contact.langs hr; exact this
  | keys => have := congrArg Contact.keys hr; exact this
  | categories => have := congrArg Contact.categories hr; exact this
  | members => have := congrArg Contact.members hr; exact this
  | relationships => have := congrArg Contact.relationships hr; exact this
  | customs => have := congrArg Contact.customs hr; exact this
  | changed => have := congrArg Contact.changed hr; exact this

/-! ### The property -/

/-- **C116.** Two LDIF entries of contacts with the same attributes about a field - whatever else is in them and however it is arranged - give contacts
    with the same data in that field. The home address and the business address each come from attributes of their own. -/
theorem C116 (E : LdifEnv) (ids : Nat → QString) (hids : ∀ i j, ids i = ids j → i = j) (hu : ∀ u, E.urlValid u = true → u ≠ []) (now : QDateTime)
    (linelen linelen' : Nat) (r s : LdifRecord) (hr : r.Proper) (hs : s.Proper) (hmr : ¬ r.Has (q! "member")) (hms : ¬ s.Has (q! "member"))
    (hnr : r.last [q! "cn"] ≠ [] ∨ r.last [q! "sn"] ≠ []) (hns : s.last [q! "cn"] ≠ [] ∨ s.last [q! "sn"] ≠ []) :
    ∃ c d, ldifToAddressee E ids now (documentString (r.text linelen)) = some ([c], []) ∧
      ldifToAddressee E ids now (documentString (s.text linelen')) = some ([d], []) ∧
      (∀ f, r.on (ldifReadFrom f) = s.on (ldifReadFrom f) → SameImported E.toQtEnv c d f) ∧
      (r.on homeNames = s.on homeNames → addressesOf 16 c = addressesOf 16 d) ∧ (r.on workNames = s.on workNames → addressesOf 32 c = addressesOf 32 d) := by
  obtain ⟨c, h1, hc⟩ := C76 E ids hids hu now linelen r hr hmr hnr
  obtain ⟨d, h2, hd⟩ := C76 E ids hids hu now linelen' s hs hms hns
  refine ⟨c, d, h1, h2, imported_same E ids now hc hd, fun h => ?_, fun h => ?_⟩
  · unfold addressesOf
    rw [hc.addresses, hd.addresses, on_values h homeNames fun _ hx => hx, on_home h E _ fun _ hx => hx, List.filter_append, List.filter_append]
    have hw : ∀ (r : LdifRecord) (p : Prop) [Decidable p], (if p then [] else [r.work E (ids 2)]).filter (fun a => decide (a.type = 16)) = [] := by
      intro r p _
      split <;> simp [LdifRecord.work]
    rw [hw, hw]
  · unfold addressesOf
    rw [hc.addresses, hd.addresses, on_values h workNames fun _ hx => hx, on_work h E _ fun _ hx => hx, List.filter_append, List.filter_append]
    have hw : ∀ (r : LdifRecord) (p : Prop) [Decidable p], (if p then [] else [r.home E (ids 1)]).filter (fun a => decide (a.type = 32)) = [] := by
      intro r p _
      split <;> simp [LdifRecord.home]
    rw [hw, hw]

/-- **C116.** A field no attribute is about is as in a new contact; without a time of revision the contact has the time of the import, without a
    unique identifier a made-up one. -/
theorem C116_absent (E : LdifEnv) (ids : Nat → QString) (hids : ∀ i j, ids i = ids j → i = j) (hu : ∀ u, E.urlValid u = true → u ≠ []) (now : QDateTime)
    (linelen : Nat) (r : LdifRecord) (hr : r.Proper) (hm : ¬ r.Has (q! "member")) (hn : r.last [q! "cn"] ≠ [] ∨ r.last [q! "sn"] ≠ []) :
    ∃ c, ldifToAddressee E ids now (documentString (r.text linelen)) = some ([c], []) ∧
      ∀ f, (∀ a ∈ r.attrs, toLowerQ a.1 ∉ ldifReadFrom f) → SameImported E.toQtEnv c { uid := ids 0, revision := now } f := by
  obtain ⟨c, h1, hc⟩ := C76 E ids hids hu now linelen r hr hm hn
  refine ⟨c, h1, fun f hf => ?_⟩
  have hd : LdifImported E ids now ⟨[], []⟩ { uid := ids 0, revision := now, empty := false } :=
    { uid := rfl, givenName := rfl, familyName := rfl, formattedName := rfl, prefix_ := rfl, nickNames := rfl, titles := rfl, roles := rfl, organizations := rfl,
      department := rfl, emails := rfl, note := rfl, urls := rfl, phones := rfl, phoneParams := (by simp), phoneIds := (by simp), addresses := rfl,
      revision := (by show QDateTime.eq _ now now = true; cases now <;> simp [QDateTime.eq]), revisionFrom := (.inl rfl), birthday := rfl, notEmpty := rfl, rest := rfl }
  have := imported_same E ids now hc hd f (by
    unfold LdifRecord.on
    rw [List.filter_eq_nil_iff.2]
    · rfl
    · intro a ha
      obtain ⟨b, hb, rfl⟩ := List.mem_map.1 ha
      simpa using hf b hb)
  cases f <;> exact this

/-- **C116.** An attribute put into an entry, at whatever place, changes the field it is about and no other. -/
theorem C116_added (E : LdifEnv) (ids : Nat → QString) (hids : ∀ i j, ids i = ids j → i = j) (hu : ∀ u, E.urlValid u = true → u ≠ []) (now : QDateTime)
    (linelen linelen' : Nat) (dn dn' : QByteArray) (a b : List (QString × QByteArray)) (x : QString × QByteArray)
    (hr : LdifRecord.Proper ⟨dn, a ++ b⟩) (hs : LdifRecord.Proper ⟨dn', a ++ x :: b⟩) (hm : ¬ LdifRecord.Has ⟨dn', a ++ x :: b⟩ (q! "member"))
    (hnr : LdifRecord.last ⟨dn, a ++ b⟩ [q! "cn"] ≠ [] ∨ LdifRecord.last ⟨dn, a ++ b⟩ [q! "sn"] ≠ [])
    (hns : LdifRecord.last ⟨dn', a ++ x :: b⟩ [q! "cn"] ≠ [] ∨ LdifRecord.last ⟨dn', a ++ x :: b⟩ [q! "sn"] ≠ []) :
    ∃ c d, ldifToAddressee E ids now (documentString (LdifRecord.text linelen ⟨dn, a ++ b⟩)) = some ([c], []) ∧
      ldifToAddressee E ids now (documentString (LdifRecord.text linelen' ⟨dn', a ++ x :: b⟩)) = some ([d], []) ∧
      (∀ f, toLowerQ x.1 ∉ ldifReadFrom f → SameImported E.toQtEnv c d f) ∧
      (toLowerQ x.1 ∉ homeNames → addressesOf 16 c = addressesOf 16 d) ∧ (toLowerQ x.1 ∉ workNames → addressesOf 32 c = addressesOf 32 d) := by
  have hm' : ¬ LdifRecord.Has ⟨dn, a ++ b⟩ (q! "member") := by
    rintro ⟨y, hy, e⟩
    refine hm ⟨y, ?_, e⟩
    rcases List.mem_append.1 hy with h | h
    · exact List.mem_append_left _ h
    · exact List.mem_append_right _ (List.mem_cons_of_mem _ h)
  have key : ∀ topic, toLowerQ x.1 ∉ topic → LdifRecord.on ⟨dn, a ++ b⟩ topic = LdifRecord.on ⟨dn', a ++ x :: b⟩ topic := by
    intro topic ht
    unfold LdifRecord.on
    simp only [List.map_append, List.map_cons, List.filter_append]
    rw [List.filter_cons_of_neg (by simpa using ht)]
  obtain ⟨c, d, h1, h2, h3, h4, h5⟩ := C116 E ids hids hu now linelen linelen' _ _ hr hs hm' hm hnr hns
  exact ⟨c, d, h1, h2, fun f hf => h3 f (key _ hf), fun h => h4 (key _ h), fun h => h5 (key _ h)⟩

/-! ### Instances -/

private def entryA : LdifRecord :=
  ⟨b! "cn=Ann Lee", [(q! "cn", b! "Ann Lee"), (q! "mail", b! "a@b"), (q! "homephone", b! "1"), (q! "street", b! "Road 1"), (q! "mozillahomelocalityname", b! "Ulm"), (q! "mail", b! "c@d")]⟩

private def entryB : LdifRecord :=
  ⟨b! "uid=7", [(q! "homephone", b! "1"), (q! "sn", b! "Roe"), (q! "mail", b! "a@b"), (q! "title", b! "Dr"), (q! "street", b! "Way 2"), (q! "mail", b! "c@d"), (q! "mozillahomelocalityname", b! "Ulm")]⟩

private theorem entry_proper : entryA.Proper ∧ entryB.Proper := by
  have hA : ∀ a ∈ entryA.attrs, plainName a.1 = true := by decide +kernel
  have hB : ∀ a ∈ entryB.attrs, plainName a.1 = true := by decide +kernel
  exact ⟨⟨fun a ha => plainName_ldif (hA a ha), _, _, rfl, by decide, by decide⟩, ⟨fun a ha => plainName_ldif (hB a ha), _, _, rfl, by decide, by decide⟩⟩

-- other names and another street: phone numbers, mail addresses and the home address are the same, the title is not
example (now : QDateTime) : ∃ c d, ldifToAddressee sampleLdifEnv (Sample.ids .contact) now (documentString (entryA.text 0)) = some ([c], []) ∧
    ldifToAddressee sampleLdifEnv (Sample.ids .contact) now (documentString (entryB.text 40)) = some ([d], []) ∧
    c.emails = d.emails ∧ c.birthday = d.birthday ∧ addressesOf 16 c = addressesOf 16 d := by
  obtain ⟨c, d, h1, h2, h3, h4, -⟩ := C116 sampleLdifEnv _ (Sample.ids_inj .contact) (fun u hu e => by rw [e] at hu; exact absurd hu (by decide)) now 0 40 entryA entryB
    entry_proper.1 entry_proper.2 (by unfold LdifRecord.Has; decide +kernel) (by unfold LdifRecord.Has; decide +kernel) (.inl (by decide +kernel)) (.inr (by decide +kernel))
  exact ⟨c, d, h1, h2, h3 .emails (by decide +kernel), (h3 .birthday (by decide +kernel)).1, h4 (by decide +kernel)⟩

example : entryA.on (ldifReadFrom .emails) ≠ [] ∧ entryA.on homeNames ≠ [] ∧ entryA.on (ldifReadFrom (.text .title)) ≠ entryB.on (ldifReadFrom (.text .title)) := by decide +kernel

-- nothing in the first entry is about birthdays or titles
example : (∀ a ∈ entryA.attrs, toLowerQ a.1 ∉ ldifReadFrom .birthday) ∧ ∀ a ∈ entryA.attrs, toLowerQ a.1 ∉ ldifReadFrom (.text .title) := by decide +kernel

-- a title is not about mail addresses, a locality not about the home address
example : toLowerQ (q! "Title") ∉ ldifReadFrom .emails ∧ toLowerQ (q! "l") ∉ homeNames ∧ toLowerQ (q! "L") ∈ workNames := by decide +kernel

end KC
