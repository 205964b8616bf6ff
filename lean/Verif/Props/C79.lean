import Verif.Spec.CardEntry
import Verif.Spec.Sample
import Verif.Lemmas.CardFields6
/-
  C79: each property of a vCard is read into the field of the contact that its name stands for, in the way `Spec.CardSays` writes down
  name by name; nothing else in the contact is set.
-/
namespace KC
open KC.Spec

namespace Spec
/-- The properties of a card, grouped by name (the names in the order of the map of a card, see C12). -/
def propertiesOf (card : VCard) : List VCardLine := card.identifiers.flatMap card.lines
end Spec

/-- The properties of one card. -/
theorem card_says (E : ToolEnv) (ids : IdKind → Nat → QString) (hids : ∀ k i j, ids k i = ids k j → i = j) (L : List VCardLine) (u : QString) (a p k : Nat) :
    CardSays E u L (L.foldl (readLine E ids) { c := Contact.new u, addresses := a, phones := p, keys := k }).c where
  uid := part_uid E ids _ L
  name := part_name E ids _ L
  formattedName := part_formattedName E ids _ L
  kind := part_kind E ids _ L
  mailer := part_mailer E ids _ L
  note := part_note E ids _ L
  productId := part_productId E ids _ L
  familyName := part_familyName E ids _ L
  givenName := part_givenName E ids _ L
  additionalName := part_additionalName E ids _ L
  prefix_ := part_prefix_ E ids _ L
  suffix := part_suffix E ids _ L
  department := part_department E ids _ L
  sortString := part_sortString E ids _ L
  nickNames := part_nickNames E ids _ L rfl
  titles := part_titles E ids _ L rfl
  roles := part_roles E ids _ L rfl
  organizations := part_organizations E ids _ L rfl
  categories := part_categories E ids _ L
  birthday := (part_birthday E ids _ L rfl rfl).1
  birthdayWithTime := (part_birthday E ids _ L rfl rfl).2
  deathDate := part_deathDate E ids _ L rfl
  revision := part_revision E ids _ L rfl
  timeZone := part_timeZone E ids _ L
  geo := part_geo E ids _ L rfl
  secrecy := part_secrecy E ids _ L
  gender := part_gender E ids _ L
  emails := part_emails E ids _ L rfl
  langs := part_langs E ids _ L rfl
  phoneNumbers := (part_phones E ids hids _ L rfl).1
  phoneIds := (part_phones E ids hids _ L rfl).2
  keys := (part_keys E ids hids _ L rfl).1
  keyIds := (part_keys E ids hids _ L rfl).2
  addresses := (part_addresses E ids hids _ L rfl).1
  addressIds := (part_addresses E ids hids _ L rfl).2
  impps := part_impps E ids _ L rfl
  customs := (part_customs E ids _ L rfl).1
  customNames := (part_customs E ids _ L rfl).2
  calendarUrls := part_calendarUrls E ids _ L rfl
  extraUrls := part_extraUrls E ids _ L rfl
  sources := part_sources E ids _ L rfl
  members := part_members E ids _ L rfl
  relationships := part_relationships E ids _ L rfl
  clientPidMaps := part_clientPidMaps E ids _ L rfl
  fieldGroups := part_fieldGroups E ids _ L rfl
  photo := part_photo E ids _ L rfl rfl
  logo := part_logo E ids _ L rfl rfl
  sound := part_sound E ids _ L rfl rfl
  changed := part_changed E ids _ L

theorem cards_say (E : ToolEnv) (ids : IdKind → Nat → QString) (hids : ∀ k i j, ids k i = ids k j → i = j) (cards : List VCard) (n a p k : Nat) (cs : List Contact)
    (h : readCards E ids n a p k cards = some cs) :
    cs.length = cards.length ∧ ∀ i card c, cards[i]? = some card → cs[i]? = some c → CardSays E (ids .contact (n + i)) (propertiesOf card) c := by
  induction cards generalizing n a p k cs with
  | nil =>
    cases h
    exact ⟨rfl, fun i card c hc => by simp at hc⟩
  | cons card0 cards ih =>
    simp only [readCards] at h
    split at h
    · cases h
    · cases hr : readCards E ids (n + 1) ((readingOrder card0).foldl (readLine E ids) { c := Contact.new (ids .contact n), addresses := a, phones := p, keys := k }).addresses
        ((readingOrder card0).foldl (readLine E ids) { c := Contact.new (ids .contact n), addresses := a, phones := p, keys := k }).phones
        ((readingOrder card0).foldl (readLine E ids) { c := Contact.new (ids .contact n), addresses := a, phones := p, keys := k }).keys cards with
      | none => rw [hr] at h; cases h
      | some cs' =>
        rw [hr] at h
        cases h
        obtain ⟨hl, hi⟩ := ih _ _ _ _ _ hr
        refine ⟨by simp [hl], ?_⟩
        intro i card c hc hc'
        cases i with
        | zero =>
          simp only [List.getElem?_cons_zero, Option.some.injEq] at hc hc'
          subst hc
          subst hc'
          exact card_says E ids hids _ _ _ _ _
        | succ i =>
          simp only [List.getElem?_cons_succ] at hc hc'
          have := hi i card c hc hc'
          rw [show n + (i + 1) = n + 1 + i by omega]
          exact this

/-- **C79.** Each card of a text becomes one contact, in order, and each contact is what the properties of its card say. The ids that are
    made up along the way are all different. -/
theorem C79 (E : ToolEnv) (ids : IdKind → Nat → QString) (hids : ∀ k i j, ids k i = ids k j → i = j) (fuel : Nat) (text : QByteArray) (cards : List VCard) (cs : List Contact)
    (hcards : parseVCards E.toCodecs fuel text = some cards) (hread : parseContacts E ids fuel text = .ok cs) :
    cs.length = cards.length ∧
    ∀ i card c, cards[i]? = some card → cs[i]? = some c → CardSays E (ids .contact i) (propertiesOf card) c := by
  unfold parseContacts at hread
  rw [hcards] at hread
  simp only at hread
  cases hr : readCards E ids 0 0 0 0 cards with
  | none => rw [hr] at hread; cases hread
  | some cs' =>
    rw [hr] at hread
    cases hread
    have := cards_say E ids hids cards 0 0 0 0 cs hr
    simpa using this

/-! ### the hypotheses are met -/

/-- two cards with properties of many kinds -/
def text79 : QByteArray :=
  b! "BEGIN:VCARD\r\nVERSION:3.0\r\nN:Doe;Jo;Kim;Dr.;jr.\r\nfn:Jo Doe\r\nORG:Acme;Sales\r\nTEL;TYPE=work,CELL:1  23\r\nTEL:4\r\nEMAIL:a@b\r\nEMAIL;TYPE=PREF:c@d\r\nADR;TYPE=home:;;High St;Town;;12;X\r\nLABEL;TYPE=HOME:there\r\nitem1.NOTE:n\r\nX-SPOUSE:Al\r\nX-ICQ:77\r\nIMPP;X-SERVICE-TYPE=Jabber:me\r\nCLASS:Private\r\nGENDER:F;x\r\nEND:VCARD\r\nBEGIN:VCARD\r\nVERSION:3.0\r\nUID:u\r\nEND:VCARD\r\n"

/-- what is in them -/
def check79 : Outcome → Bool
  | .ok [c, d] => decide (d.uid = q! "u") && decide (c.uid = q! "c")
    && decide (c.familyName = q! "Doe") && decide (c.suffix = q! "jr.") && decide (c.formattedName = q! "Jo Doe") && decide (c.department = q! "Sales")
    && decide (c.phoneNumbers.map (fun p => (p.number, p.type)) = [(q! "1 23", 66), (q! "4", 16384)])
    && decide (c.emails.map (·.mail) = [q! "c@d", q! "a@b"])
    && decide (c.addresses.map (fun a => [a.street, a.locality, a.postalCode, a.country, a.label]) = [[q! "High St", q! "Town", q! "12", q! "X", q! "there"]])
    && decide (c.fieldGroups.map (fun g => (g.fieldGroupName, g.value)) = [(q! "item1.NOTE", q! "n")]) && decide (c.note = [])
    && decide (c.customs.find (q! "KADDRESSBOOK-X-SpousesName") = some (q! "Al"))
    && decide (c.impps.map (·.url) = [q! "xmpp:me", q! "icq:77"]) && decide (c.secrecy = .priv) && decide (c.gender = { gender := q! "F", comment := q! "x" })
  | _ => false

theorem sample79 : check79 (parseContacts Sample.env Sample.ids 100 text79) = true := by decide +kernel

theorem sample79_ok {o : Outcome} (h : check79 o = true) : ∃ c d, o = .ok [c, d] := by
  rcases o with (_ | ⟨c, _ | ⟨d, _ | ⟨e, r⟩⟩⟩) | _ | _
  case ok.cons.cons.nil => exact ⟨c, d, rfl⟩
  all_goals cases h

example : ∃ cards cs, parseVCards Sample.env.toCodecs 100 text79 = some cards ∧ parseContacts Sample.env Sample.ids 100 text79 = .ok cs ∧ cs.length = 2 := by
  obtain ⟨c, d, h⟩ := sample79_ok sample79
  cases hc : parseVCards Sample.env.toCodecs 100 text79 with
  | none => simp only [parseContacts, hc] at h; cases h
  | some cards => exact ⟨cards, _, rfl, h, rfl⟩

end KC
