import Verif.Lemmas.Built
/-
  C111: what a program builds with calls whose arguments a vCard can carry comes back from a vCard.
-/
namespace KC
open Spec

theorem built_after (E : ToolEnv) (v : Version) (ops : List Op) (c : Contact) (h : Built E v c) (hf : AllFit E v c ops) :
    Built E v (ops.foldl (Contact.apply E.toQtEnv) c) := by
  induction ops generalizing c with
  | nil => exact h
  | cons op ops ih => exact ih _ (h.step op hf.1) hf.2

/-- C111: a contact is made and any modifying functions are called on it, in any order and number, each with arguments that the version can
    carry. The contact can be written and read: the text gives one contact, with the content listed in `Contact.restored`. -/
theorem C111 (E : ToolEnv) (v : Version) (ids : IdKind → Nat → QString) (hinj : ∀ k i j, ids k i = ids k j → i = j) (u : QString) (ops : List Op)
    (hu : SafeText u ∧ u ≠ []) (hf : AllFit E v (Contact.new u) ops) (hid : ∀ i, (contactAfter E.toQtEnv u ops).uid ≠ ids .contact i) :
    Readable E v (contactAfter E.toQtEnv u ops) ∧
      WrittenAndRead E v ids (contactAfter E.toQtEnv u ops) ((contactAfter E.toQtEnv u ops).restored E v ids 0 0 0) := by
  have h := (built_after E v ops _ (.new E v u hu) hf).toReadable
  exact ⟨h, C24_contact E v ids hinj _ h hid⟩

/-- C111 for the fields that every version writes (2.1 has no categories): each has what the calls have put there. -/
theorem C111_content (E : ToolEnv) (v : Version) (ids : IdKind → Nat → QString) (hinj : ∀ k i j, ids k i = ids k j → i = j) (u : QString) (ops : List Op)
    (hu : SafeText u ∧ u ≠ []) (hf : AllFit E v (Contact.new u) ops) (hid : ∀ i, (contactAfter E.toQtEnv u ops).uid ≠ ids .contact i) :
    ∃ c c', c = contactAfter E.toQtEnv u ops ∧ WrittenAndRead E v ids c c' ∧ c'.uid = c.uid ∧ c'.formattedName = c.formattedName ∧ c'.nameParts = c.nameParts ∧
      c'.addresses.map (fun a => (a.parts, a.label, a.named)) = c.addresses.map (fun a => (a.parts, a.label, a.named)) ∧
      c'.phoneNumbers.map (fun p => (p.number, p.named)) = c.phoneNumbers.map (fun p => (p.number, p.named)) ∧
      c'.emails = c.emails ∧ c'.organizations = c.organizations ∧ (c.organizations ≠ [] → c'.department = c.department) ∧ c'.note = c.note ∧
      (v ≠ .v2_1 → c'.categories = c.categories) ∧ c'.customs = c.customs := by
  obtain ⟨c', h⟩ := C24_content E v ids hinj _ (C111 E v ids hinj u ops hu hf hid).1 hid
  exact ⟨_, c', rfl, h⟩

/-- C111 for an address book: contacts built one by one come back in order, each with its own content. -/
theorem C111_book (E : ToolEnv) (v : Version) (ids : IdKind → Nat → QString) (hinj : ∀ k i j, ids k i = ids k j → i = j) (l : List (QString × List Op))
    (hu : ∀ p ∈ l, SafeText p.1 ∧ p.1 ≠ []) (hf : ∀ p ∈ l, AllFit E v (Contact.new p.1) p.2)
    (hid : ∀ p ∈ l, ∀ i, (contactAfter E.toQtEnv p.1 p.2).uid ≠ ids .contact i) :
    ∃ cs', ReadAs E v ids 0 0 0 (l.map fun p => contactAfter E.toQtEnv p.1 p.2) cs' ∧
      ∃ n, ∀ fuel, n ≤ fuel → parseContacts E ids fuel (createContacts E v false (l.map fun p => contactAfter E.toQtEnv p.1 p.2)) = .ok cs' := by
  apply C24_contacts E v ids hinj
  · intro c hc
    obtain ⟨p, hp, rfl⟩ := List.mem_map.1 hc
    exact (built_after E v p.2 _ (.new E v p.1 (hu p hp)) (hf p hp)).toReadable
  · intro c hc
    obtain ⟨p, hp, rfl⟩ := List.mem_map.1 hc
    exact hid p hp

/-! ### The hypotheses can be met -/

/-- A history: names are set and changed, addresses, e-mails, phone numbers, categories and custom fields are added, replaced and removed. -/
def sampleCalls : List Op :=
  [.givenName (q! "Jon"), .familyName (q! "Doe; x"), .givenName (q! "John"), .addEmail { mail := q! "b@x" }, .addEmail { mail := q! "a@x", params := [(q! "pref", [q! "1"])] },
   .addEmail { mail := q! "c@x" }, .removeEmail (q! "b@x"), .insertPhoneNumber { id := q! "p", number := q! "1", type := 2 },
   .insertPhoneNumber { id := q! "p", number := q! "2", type := 1 }, .text .organization (q! "Acme"), .department (q! "R, D"), .text .organization (q! "Acme Inc."),
   .insertCategory (q! "x, y"), .insertCategory (q! "z"), .removeCategory (q! "z"), .namedCustom (q! "B") (q! "1"), .namedCustom (q! "A") (q! "2"),
   .namedCustom (q! "B") (q! "3"), .note (q! "fine"), .changed true]

private theorem easy_lit {v : Version} {s : QString} (h : asciiSafe s = true) (hp : PlainAscii s) (hl : s.getLast? ≠ some (qc! '\\')) : EasyText v s := ⟨asciiSafe_safe h, hl, fun _ => hp⟩

theorem sampleCalls_fit (v : Version) : AllFit Sample.env v (Contact.new (q! "u")) sampleCalls := by
  have e1 : ∀ {s : QString}, asciiSafe s = true → s ≠ [] → EmailOK v { mail := s } := fun h h' => ⟨⟨asciiSafe_safe h, h'⟩, .nil, nofun⟩
  have cu : ∀ {n s : QString}, n ≠ [] → nameOkB (qualifiedName vendorId n) = true → startsWith (q! "messaging/") (qualifiedName vendorId n) = false →
      renamed importNames (toLowerQ (q! "X-" ++ qualifiedName vendorId n)) = none → PlainAscii s → asciiSafe s = true → s ≠ [] →
      qualifiedName vendorId n ≠ q! "KADDRESSBOOK-X-SpousesName" → qualifiedName vendorId n ≠ q! "KADDRESSBOOK-X-Anniversary" →
      CustomOK Sample.env.toCodecs v (qualifiedName vendorId n) s := fun {n s} h0 h1 h2 h3 h4 h5 h6 h7 h8 =>
    ⟨⟨vendorId, n, rfl, by decide, h0, by decide⟩, nameOK_lit h1, h2, (fun t ht => by rw [h3] at ht; cases ht), ⟨coded_plain h4 (asciiSafe_safe h5), h6⟩, fun _ => h7,
      fun _ h => absurd h h8⟩
  refine ⟨easy_lit (by decide) (by decide) (by decide), easy_lit (by decide) (by decide) (by decide), easy_lit (by decide) (by decide) (by decide), ⟨e1 (by decide) (by decide), nofun⟩,
    ⟨⟨⟨asciiSafe_safe (by decide), by decide⟩, paramsOK_lit (by decide), fun _ vs h => absurd h (by simp)⟩, fun _ => by decide⟩, ⟨e1 (by decide) (by decide), nofun⟩, trivial,
    ?_, ?_, ⟨nofun, fun _ => ⟨textOK_lit (by decide) (by decide) (by decide), easy_lit (by decide) (by decide) (by decide), nofun⟩⟩, easy_lit (by decide) (by decide) (by decide),
    ⟨nofun, fun _ => ⟨textOK_lit (by decide) (by decide) (by decide), easy_lit (by decide) (by decide) (by decide), nofun⟩⟩,
    fun _ => ⟨easy_lit (by decide) (by decide) (by decide), by decide⟩, fun _ => ⟨easy_lit (by decide) (by decide) (by decide), by decide⟩, trivial, ?_, ?_, ?_,
    coded_plain (by decide) (asciiSafe_safe (by decide)), trivial, trivial⟩
  · exact ⟨⟨asciiSafe_safe (by decide), by decide, by decide⟩, paramsOK_lit (by decide)⟩
  · exact ⟨⟨asciiSafe_safe (by decide), by decide, by decide⟩, paramsOK_lit (by decide)⟩
  all_goals exact fun _ _ => cu (by decide) (by decide) (by decide) (by decide +kernel) (by decide) (by decide) (by decide) (by decide) (by decide)

private theorem not_new {s : QString} (h : s.head? ≠ some (qc! 'c')) (i : Nat) : s ≠ Sample.ids .contact i := by
  rintro rfl
  rw [Sample.ids, List.replicate_succ, List.head?_cons] at h
  exact h rfl

/-- Non-vacuity of C111, C111_content: that history, in every version. -/
example (v : Version) : ∃ c', WrittenAndRead Sample.env v Sample.ids (contactAfter Sample.env.toQtEnv (q! "u") sampleCalls) c' ∧
    c'.givenName = q! "John" ∧ c'.emails.map (·.mail) = [q! "a@x", q! "c@x"] ∧ c'.phoneNumbers.map (·.number) = [q! "2"] ∧ c'.department = q! "R, D" ∧
    c'.customs = [(q! "KADDRESSBOOK-A", q! "2"), (q! "KADDRESSBOOK-B", q! "3")] := by
  have hid : ∀ i, (contactAfter Sample.env.toQtEnv (q! "u") sampleCalls).uid ≠ Sample.ids .contact i := not_new (by decide +kernel)
  refine ⟨_, (C111 Sample.env v Sample.ids Sample.ids_inj (q! "u") sampleCalls ⟨asciiSafe_safe (by decide), by decide⟩ (sampleCalls_fit v) hid).2, ?_⟩
  cases v <;> decide +kernel

/-- Non-vacuity of C111_book: two contacts with that history. -/
example : ∃ cs', ReadAs Sample.env .v3_0 Sample.ids 0 0 0 [contactAfter Sample.env.toQtEnv (q! "u") sampleCalls, contactAfter Sample.env.toQtEnv (q! "w") [.note (q! "x")]] cs' ∧
    ∃ n, ∀ fuel, n ≤ fuel → parseContacts Sample.env Sample.ids fuel
      (createContacts Sample.env .v3_0 false [contactAfter Sample.env.toQtEnv (q! "u") sampleCalls, contactAfter Sample.env.toQtEnv (q! "w") [.note (q! "x")]]) = .ok cs' := by
  refine C111_book Sample.env .v3_0 Sample.ids Sample.ids_inj [(q! "u", sampleCalls), (q! "w", [.note (q! "x")])] ?_ ?_ ?_
  · intro p hp
    simp only [List.mem_cons, List.not_mem_nil, or_false] at hp
    rcases hp with rfl | rfl <;> exact ⟨asciiSafe_safe (by decide), by decide⟩
  · intro p hp
    simp only [List.mem_cons, List.not_mem_nil, or_false] at hp
    rcases hp with rfl | rfl
    · exact sampleCalls_fit _
    · exact ⟨coded_plain (by decide) (asciiSafe_safe (by decide)), trivial⟩
  · intro p hp
    simp only [List.mem_cons, List.not_mem_nil, or_false] at hp
    rcases hp with rfl | rfl <;> exact not_new (by decide +kernel)

/-! ### The conditions that are not about one argument -/

/-- Two preferred e-mail addresses: each can be carried, but they change places. -/
theorem C111_preferred_false : ∃ (a b : Email), EmailOK .v3_0 a ∧ EmailOK .v3_0 b ∧
    (contactAfter Sample.env.toQtEnv (q! "u") [.addEmail a, .addEmail b]).emails = [b, a] ∧
    ∃ d, parseContacts Sample.env Sample.ids 200 (createContacts Sample.env .v3_0 false [contactAfter Sample.env.toQtEnv (q! "u") [.addEmail a, .addEmail b]]) = .ok [d] ∧
      d.emails = [a, b] := by
  refine ⟨{ mail := q! "a@x", params := [(q! "type", [q! "PREF"])] }, { mail := q! "b@x", params := [(q! "type", [q! "PREF"])] }, ⟨⟨asciiSafe_safe (by decide), by decide⟩, paramsOK_lit (by decide), nofun⟩, ⟨⟨asciiSafe_safe (by decide), by decide⟩, paramsOK_lit (by decide), nofun⟩, by decide +kernel,
    { Contact.new (q! "u") with empty := false, emails := [{ mail := q! "a@x", params := [(q! "type", [q! "PREF"])] }, { mail := q! "b@x", params := [(q! "type", [q! "PREF"])] }] }, by decide +kernel, by decide +kernel⟩

/-- A title made empty: it stays in the list of titles, and is not there after reading. -/
theorem C111_title_false : (contactAfter Sample.env.toQtEnv (q! "u") [.text .title (q! "x"), .text .title []]).titles = [{}] ∧
    ∃ d, parseContacts Sample.env Sample.ids 200 (createContacts Sample.env .v3_0 false [contactAfter Sample.env.toQtEnv (q! "u") [.text .title (q! "x"), .text .title []]]) = .ok [d] ∧
      d.titles = [] :=
  ⟨by decide +kernel, { Contact.new (q! "u") with empty := false }, by decide +kernel, by decide +kernel⟩

end KC
