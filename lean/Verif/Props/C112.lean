import Verif.Lemmas.CardFrom
import Verif.Props.C91
/-
  C112: a vCard file of another program, once imported, no longer changes: exporting what was imported and importing that gives the same contacts.
-/
namespace KC
open Spec

theorem cards_readable (E : ToolEnv) (v : Version) (ids : IdKind → Nat → QString) (hids : ∀ k i j, ids k i = ids k j → i = j)
    (hnew : ∀ i, SafeText (ids .contact i) ∧ ids .contact i ≠ []) (cards : List VCard) (n a p k : Nat) (cs : List Contact)
    (h : readCards E ids n a p k cards = some cs) (hf : ∀ card ∈ cards, CardFits E v (propertiesOf card)) : ∀ c ∈ cs, Readable E v c := by
  induction cards generalizing n a p k cs with
  | nil => cases h; intro c hc; cases hc
  | cons card0 cards ih =>
    simp only [readCards] at h
    split at h
    · cases h
    · cases hr : readCards E ids (n + 1) ((readingOrder card0).foldl (readLine E ids) { c := Contact.new (ids .contact n), addresses := a, phones := p, keys := k }).addresses
        ((readingOrder card0).foldl (readLine E ids) { c := Contact.new (ids .contact n), addresses := a, phones := p, keys := k }).phones
        ((readingOrder card0).foldl (readLine E ids) { c := Contact.new (ids .contact n), addresses := a, phones := p, keys := k }).keys cards with
      | none => rw [hr] at h; cases h
      | some cs' =>
        rw [hr] at h
        cases h
        intro c hc
        rcases List.mem_cons.1 hc with rfl | hc
        · exact card_readable E v ids hids _ _ _ _ _ (hnew n) (hf card0 (by simp))
        · exact ih _ _ _ _ _ hr (fun card hcard => hf card (by simp [hcard])) c hc

theorem imported_readable (E : ToolEnv) (v : Version) (ids : IdKind → Nat → QString) (hids : ∀ k i j, ids k i = ids k j → i = j)
    (hnew : ∀ i, SafeText (ids .contact i) ∧ ids .contact i ≠ []) (fuel : Nat) (text : QByteArray) (cards : List VCard) (cs : List Contact)
    (hcards : parseVCards E.toCodecs fuel text = some cards) (hread : parseContacts E ids fuel text = .ok cs)
    (hf : ∀ card ∈ cards, CardFits E v (propertiesOf card)) : ∀ c ∈ cs, Readable E v c := by
  unfold parseContacts at hread
  rw [hcards] at hread
  simp only at hread
  cases hr : readCards E ids 0 0 0 0 cards with
  | none => rw [hr] at hread; cases hread
  | some cs' =>
    rw [hr] at hread
    cases hread
    exact cards_readable E v ids hids hnew cards 0 0 0 0 cs hr hf

/-- C112: the text of a vCard file, by whatever program and in whatever version, is imported; each property says something that version `v` can carry. What
    was imported can be exported in version `v`, and importing that gives the same contacts, in order, each with the content listed in
    `Contact.restored`. -/
theorem C112 (E : ToolEnv) (v : Version) (ids ids' : IdKind → Nat → QString) (hids : ∀ k i j, ids k i = ids k j → i = j) (hids' : ∀ k i j, ids' k i = ids' k j → i = j)
    (hnew : ∀ i, SafeText (ids .contact i) ∧ ids .contact i ≠ []) (fuel : Nat) (text : QByteArray) (cards : List VCard) (cs : List Contact)
    (hcards : parseVCards E.toCodecs fuel text = some cards) (hread : parseContacts E ids fuel text = .ok cs)
    (hf : ∀ card ∈ cards, CardFits E v (propertiesOf card)) (hu : ∀ c ∈ cs, ∀ i, c.uid ≠ ids' .contact i) :
    ∃ cs', ReadAs E v ids' 0 0 0 cs cs' ∧ ∃ n, ∀ fuel, n ≤ fuel → parseContacts E ids' fuel (createContacts E v false cs) = .ok cs' :=
  C24_contacts E v ids' hids' cs (imported_readable E v ids hids hnew fuel text cards cs hcards hread hf) hu

theorem card_keys (E : ToolEnv) (ids : IdKind → Nat → QString) (hids : ∀ k i j, ids k i = ids k j → i = j) (fuel : Nat) (text : QByteArray) (cards : List VCard)
    (cs : List Contact) (hcards : parseVCards E.toCodecs fuel text = some cards) (hread : parseContacts E ids fuel text = .ok cs)
    (hk : ∀ card ∈ cards, ∀ l ∈ named (propertiesOf card) [q! "key"], (keyOf l).type ≠ .custom) : ∀ c ∈ cs, ∀ k ∈ c.keys, k.type ≠ .custom := by
  obtain ⟨hlen, hsay⟩ := C79 E ids hids fuel text cards cs hcards hread
  intro c hc k hkm
  obtain ⟨i, hi, rfl⟩ := List.getElem_of_mem hc
  have h := hsay i (cards[i]'(by omega)) cs[i] (List.getElem?_eq_getElem _) (List.getElem?_eq_getElem _)
  have : { k with id := [] } ∈ (named (propertiesOf (cards[i]'(by omega))) [q! "key"]).map keyOf := by
    rw [← h.keys]; exact List.mem_map_of_mem (f := fun p : Key => { p with id := [] }) hkm
  obtain ⟨l, hl, he⟩ := List.mem_map.1 this
  have ht : (keyOf l).type = k.type := by rw [he]
  rw [← ht]
  exact hk _ (List.getElem_mem _) l hl

/-- C112 in bytes: from the first export on, importing and exporting again give the same file. (Version 4 loses the name of a key's own type.) -/
theorem C112_text (E : ToolEnv) (v : Version) (ids ids' : IdKind → Nat → QString) (hids : ∀ k i j, ids k i = ids k j → i = j) (hids' : ∀ k i j, ids' k i = ids' k j → i = j)
    (hnew : ∀ i, SafeText (ids .contact i) ∧ ids .contact i ≠ []) (fuel : Nat) (text : QByteArray) (cards : List VCard) (cs : List Contact)
    (hcards : parseVCards E.toCodecs fuel text = some cards) (hread : parseContacts E ids fuel text = .ok cs)
    (hf : ∀ card ∈ cards, CardFits E v (propertiesOf card)) (hu : ∀ c ∈ cs, ∀ i, c.uid ≠ ids' .contact i)
    (hk : v = .v4_0 → ∀ card ∈ cards, ∀ l ∈ named (propertiesOf card) [q! "key"], (keyOf l).type ≠ .custom) :
    ∃ n, ∀ fuel, n ≤ fuel → ∃ cs', parseContacts E ids' fuel (createContacts E v false cs) = .ok cs' ∧ createContacts E v false cs' = createContacts E v false cs := by
  obtain ⟨n, hn⟩ := C91_text_partial E v ids' hids' cs (imported_readable E v ids hids hnew fuel text cards cs hcards hread hf)
    (fun hv => card_keys E ids hids fuel text cards cs hcards hread (hk hv)) hu
  exact ⟨n, fun f hf' => let ⟨cs', h1, h2, _⟩ := hn f hf'; ⟨cs', h1, h2⟩⟩

/-! ### The hypotheses can be met -/

/-- A card of another program, in version 2.1, with names and forms that this library does not write. -/
def text112 : QByteArray :=
  b! "BEGIN:VCARD\r\nVERSION:2.1\r\nUID:u\r\nN:Doe;Jo;;;\r\nFN:Jo Doe\r\nORG:Acme;Sales\r\nTEL;CELL:1  23\r\nEMAIL;TYPE=INTERNET:a@b\r\nADR;HOME:;;High St;Town;;12;X\r\nLABEL;HOME:there\r\nitem1.NOTE:n\r\nX-SPOUSE:Al\r\nX-JABBER:me@x\r\nEND:VCARD\r\n"

/-- Its properties. -/
def lines112 : List VCardLine :=
  ((parseVCards Sample.env.toCodecs 100 text112).getD []).flatMap propertiesOf

private theorem every {names : List QString} (f : VCardLine → Bool) (h : (named lines112 names).all f = true) {l : VCardLine} (hl : l ∈ named lines112 names) : f l = true :=
  List.all_eq_true.1 h l hl

private theorem none112 {names : List QString} (h : (named lines112 names).isEmpty = true) {l : VCardLine} (hl : l ∈ named lines112 names) {P : Prop} : P := by
  rw [List.isEmpty_iff.1 h] at hl; cases hl

private def easyB (s : QString) : Bool := asciiSafe s && decide (PlainAscii s) && decide (s.getLast? ≠ some (qc! '\\'))

private theorem easy_of {v : Version} {s : QString} (h : easyB s = true) : EasyText v s := by
  simp only [easyB, Bool.and_eq_true, decide_eq_true_eq] at h
  exact ⟨asciiSafe_safe h.1.1, h.2, fun _ => h.1.2⟩

/-- Every property of that card can be carried by version 3.0. -/
theorem lines112_fit : CardFits Sample.env .v3_0 lines112 where
  uid := fun l hl => by
    have := every (fun l => asciiSafe (valueText l) && !(valueText l).isEmpty) (by decide +kernel) hl
    simp only [Bool.and_eq_true, Bool.not_eq_true', List.isEmpty_eq_false_iff] at this
    exact ⟨asciiSafe_safe this.1, this.2⟩
  texts := fun l hl => coded_easy (easy_of (every (fun l => easyB (valueText l)) (by decide +kernel) hl))
  oldTexts := fun _ l hl => none112 (by decide +kernel) hl
  productId := fun _ l hl => none112 (by decide +kernel) hl
  kind := nofun
  names := fun l hl i s hs => by
    have := every (fun l => (splitString (qc! ';') (valueText l)).all easyB) (by decide +kernel) hl
    exact easy_of (List.all_eq_true.1 this s (List.mem_of_getElem? hs))
  organizations := fun l hl s hs hne => by
    have := every (fun l => (splitString (qc! ';') (valueText l)).all easyB && l.params.isEmpty) (by decide +kernel) hl
    simp only [Bool.and_eq_true, List.isEmpty_iff] at this
    have he := easy_of (v := .v3_0) (List.all_eq_true.1 this.1 s (List.mem_of_getElem? hs))
    rw [this.2]
    exact ⟨⟨⟨he.safe, hne⟩, .nil⟩, he, nofun⟩
  departments := fun l hl s hs => by
    have := every (fun l => (splitString (qc! ';') (valueText l)).all easyB) (by decide +kernel) hl
    exact easy_of (List.all_eq_true.1 this s (List.mem_of_getElem? hs))
  sorting := fun l hl s hs => by
    have := every (fun l => (sortText l).isNone) (by decide +kernel) hl
    rw [hs] at this
    cases this
  nickNames := fun l hl => none112 (by decide +kernel) hl
  titles := fun l hl => none112 (by decide +kernel) hl
  roles := fun l hl => none112 (by decide +kernel) hl
  birthday := fun l hl => none112 (by decide +kernel) hl
  revision := fun l hl => none112 (by decide +kernel) hl
  deathDate := nofun
  timeZone := fun l hl => none112 (by decide +kernel) hl
  geo := fun l hl => none112 (by decide +kernel) hl
  gender := nofun
  categories := fun _ l hl => none112 (by decide +kernel) hl
  emails := fun l hl => by
    have := every (fun l => asciiSafe (valueText l) && !(valueText l).isEmpty && paramsOkB l.params) (by decide +kernel) hl
    simp only [Bool.and_eq_true, Bool.not_eq_true', List.isEmpty_eq_false_iff] at this
    exact ⟨⟨asciiSafe_safe this.1.1, this.1.2⟩, paramsOK_lit this.2, nofun⟩
  langs := nofun
  phoneNumbers := fun l hl _ => by
    have := every (fun l => asciiSafe (simplified (valueText l)) && paramsOkB (l.params.filter fun q => q.1 ≠ q! "type")) (by decide +kernel) hl
    simp only [Bool.and_eq_true] at this
    exact ⟨asciiSafe_safe this.1, paramsOK_lit this.2⟩
  keys := fun l hl => none112 (by decide +kernel) hl
  messaging := fun l hl u hu _ _ => by
    have := List.all_eq_true.1 (show (lines112.all fun l => (messagingOf Sample.env l).all fun u => asciiSafe u.url && !u.url.isEmpty && u.params.isEmpty) = true by decide +kernel) l hl
    have := List.all_eq_true.1 this u hu
    simp only [Bool.and_eq_true, Bool.not_eq_true', List.isEmpty_eq_false_iff, List.isEmpty_iff] at this
    refine ⟨⟨asciiSafe_safe this.1.1, this.1.2, rfl⟩, ?_, ?_⟩ <;> rw [this.2]
    · exact .nil
    · nofun
  customs := fun p hp => by
    have h0 : customEntries lines112 = [(q! "KADDRESSBOOK-X-SpousesName", q! "Al")] := by decide +kernel
    rw [h0] at hp
    rw [List.mem_singleton.1 hp]
    exact ⟨⟨q! "KADDRESSBOOK", q! "X-SpousesName", rfl, by decide, by decide, by decide⟩, nameOK_lit (by decide), by decide,
      fun t ht => Option.some.inj (ht.symm.trans (show _ = some (q! "X-KADDRESSBOOK-X-SpousesName") by decide +kernel)),
      ⟨coded_plain (by decide) (asciiSafe_safe (by decide)), by decide⟩, nofun, nofun⟩
  calendars := nofun
  urls := fun l hl => none112 (by decide +kernel) hl
  sources := fun l hl => none112 (by decide +kernel) hl
  members := nofun
  relationships := fun l hl => none112 (by decide +kernel) hl
  clientPidMaps := nofun
  fieldGroups := fun l hl g hg => by
    have h0 : lines112.filterMap groupField = [{ fieldGroupName := q! "item1.NOTE", value := q! "n" }] := by decide +kernel
    have : g ∈ lines112.filterMap groupField := List.mem_filterMap.2 ⟨l, hl, hg⟩
    rw [h0] at this
    rw [List.mem_singleton.1 this]
    exact ⟨⟨q! "item1", q! "NOTE", rfl, by decide, nameOK_lit (by decide), nameOK_lit (by decide), by decide, fun c h => by cases h; decide⟩, ⟨asciiSafe_safe (by decide), by decide⟩, .nil⟩
  pictures := fun l hl => none112 (by decide +kernel) hl
  sounds := fun l hl => none112 (by decide +kernel) hl
  addresses := fun a ha => by
    have h0 : (((named lines112 [q! "adr", q! "label"]).foldl (addressStep Sample.env) []).all fun a => a.parts.all easyB && a.parts.any (fun s => !s.isEmpty) && easyB a.label) = true := by
      decide +kernel
    have := List.all_eq_true.1 h0 a ha
    simp only [Bool.and_eq_true, List.any_eq_true, Bool.not_eq_true', List.isEmpty_eq_false_iff] at this
    exact ⟨this.1.2, compound_easy fun s hs => easy_of (List.all_eq_true.1 this.1.1 s hs), fun _ => coded_easy (easy_of this.2), nofun, nofun⟩
  labels := fun _ => by decide +kernel
  preferred := fun l hl l' hl' h1 _ => by
    have := every (fun l => !paramIsPreferred l.params) (by decide +kernel) hl
    rw [h1] at this
    cases this

theorem ids112_safe (i : Nat) : SafeText (Sample.ids .contact i) ∧ Sample.ids .contact i ≠ [] := by
  refine ⟨asciiSafe_safe ?_, by simp [Sample.ids]⟩
  have h1 : ∀ n, (List.replicate n (99 : UInt16)).all (fun u => decide (u.toNat < 128)) = true := fun n => by simp [List.all_eq_true, List.mem_replicate]
  have h2 : ∀ n, (List.replicate n (99 : UInt16)).foldl (fun (p : UInt16 × Bool) u => (u, p.2 && (p.1 != 92 || (u != 110 && u != 78 && u != 114)))) ((99 : UInt16), true) = (99, true) := by
    intro n
    induction n with
    | zero => rfl
    | succ n ih => exact ih
  have h3 : asciiSafe (List.replicate (i + 1) (99 : UInt16)) = ((List.replicate (i + 1) (99 : UInt16)).all (fun u => decide (u.toNat < 128)) && ((List.replicate i (99 : UInt16)).foldl (fun (p : UInt16 × Bool) u => (u, p.2 && (p.1 != 92 || (u != 110 && u != 78 && u != 114)))) ((99 : UInt16), true)).2) := rfl
  exact h3.trans (by rw [h1, h2]; rfl)

/-- The contact read from that card. -/
def contact112 : Contact := match parseContacts Sample.env Sample.ids 100 text112 with | .ok [c] => c | _ => Contact.new []

/-- Non-vacuity of C112 and C112_text: that card is imported, exported in version 3.0, and imported again. -/
example : ∃ cs', ReadAs Sample.env .v3_0 Sample.ids 0 0 0 [contact112] cs' ∧
    ∃ n, ∀ fuel, n ≤ fuel → parseContacts Sample.env Sample.ids fuel (createContacts Sample.env .v3_0 false [contact112]) = .ok cs' := by
  have hc : parseVCards Sample.env.toCodecs 100 text112 = some ((parseVCards Sample.env.toCodecs 100 text112).getD []) := by decide +kernel
  refine C112 Sample.env .v3_0 Sample.ids Sample.ids Sample.ids_inj Sample.ids_inj ids112_safe 100 text112 _ [contact112] hc (by decide +kernel) ?_ ?_
  · have hl : ((parseVCards Sample.env.toCodecs 100 text112).getD []).length = 1 := by decide +kernel
    have hf := lines112_fit
    unfold lines112 at hf
    generalize (parseVCards Sample.env.toCodecs 100 text112).getD [] = cards at hl hf
    obtain ⟨card, rfl⟩ := List.length_eq_one_iff.1 hl
    intro c hc
    rw [List.mem_singleton.1 hc]
    simpa using hf
  · intro c hc i h
    rw [List.mem_singleton.1 hc] at h
    have h' : contact112.uid.head? = some (qc! 'c') := by rw [h, Sample.ids, List.replicate_succ, List.head?_cons]
    exact absurd h' (by decide +kernel)

/-- What is in it. -/
example : contact112.phoneNumbers.map (·.number) = [q! "1 23"] ∧ contact112.addresses.map (fun a => (a.street, a.label)) = [(q! "High St", q! "there")] ∧
    contact112.customs = [(q! "KADDRESSBOOK-X-SpousesName", q! "Al")] ∧ contact112.impps.map (·.url) = [q! "xmpp:me@x"] ∧ contact112.department = q! "Sales" := by decide +kernel

/-! ### Conditions that matter -/

/-- The text of a card with one property. -/
def card112 (line : QByteArray) : QByteArray := b! "BEGIN:VCARD\r\nVERSION:3.0\r\n" ++ line ++ b! "\r\nEND:VCARD\r\n"

/-- An empty UID: the contact is imported with an empty identifier, which is not exported, so that the next import makes one up. -/
theorem C112_uid_false : ∃ c d, parseContacts Sample.env Sample.ids 100 (card112 (b! "UID:")) = .ok [c] ∧ c.uid = [] ∧
    parseContacts Sample.env Sample.ids 100 (createContacts Sample.env .v3_0 false [c]) = .ok [d] ∧ d.uid = Sample.ids .contact 0 :=
  ⟨{ Contact.new [] with empty := false }, Contact.new (Sample.ids .contact 0), by decide +kernel, rfl, by decide +kernel, rfl⟩

/-- A messaging address with the name of its service: the parameter is imported but not exported. -/
theorem C112_service_false : ∃ c d, parseContacts Sample.env Sample.ids 100 (card112 (b! "UID:u\r\nIMPP;X-SERVICE-TYPE=Jabber:me")) = .ok [c] ∧
    parseContacts Sample.env Sample.ids 100 (createContacts Sample.env .v3_0 false [c]) = .ok [d] ∧
    c.impps = [{ params := [(q! "x-service-type", [q! "Jabber"])], url := q! "xmpp:me" }] ∧ d.impps = [{ url := q! "xmpp:me" }] :=
  ⟨{ Contact.new (q! "u") with empty := false, impps := [{ params := [(q! "x-service-type", [q! "Jabber"])], url := q! "xmpp:me" }] },
    { Contact.new (q! "u") with empty := false, impps := [{ url := q! "xmpp:me" }] }, by decide +kernel, by decide +kernel, rfl, rfl⟩

end KC
