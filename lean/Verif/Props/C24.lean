import Verif.Lemmas.Whole
import Verif.Spec.Sample
/-
  C24: whole contacts survive a vCard.
-/
namespace KC
open Spec

/-- C24 in full: any number of contacts that the version can carry (`Readable`), written as one text and parsed, come back in order, each
    with the content listed in `Contact.restored`. New ids differ from each other, and no contact already has a newly made uid. -/
theorem C24_contacts (E : ToolEnv) (v : Version) (ids : IdKind → Nat → QString) (hinj : ∀ k i j, ids k i = ids k j → i = j) (cs : List Contact)
    (hR : ∀ c ∈ cs, Readable E v c) (hu : ∀ c ∈ cs, ∀ i, c.uid ≠ ids .contact i) :
    ∃ cs', ReadAs E v ids 0 0 0 cs cs' ∧ ∃ n, ∀ fuel, n ≤ fuel → parseContacts E ids fuel (createContacts E v false cs) = .ok cs' := by
  obtain ⟨cs', h1, h2⟩ := parseContacts_back ids hinj cs hR hu
  exact ⟨cs', h1, _, h2⟩

/-- C24 for one contact: it comes back as `Contact.restored` says. -/
theorem C24_contact (E : ToolEnv) (v : Version) (ids : IdKind → Nat → QString) (hinj : ∀ k i j, ids k i = ids k j → i = j) (c : Contact)
    (hR : Readable E v c) (hu : ∀ i, c.uid ≠ ids .contact i) :
    WrittenAndRead E v ids c (c.restored E v ids 0 0 0) := by
  obtain ⟨cs', h1, h2⟩ := C24_contacts E v ids hinj [c] (by simpa using hR) (by simpa using hu)
  cases h1 with
  | @cons _ _ _ _ c' _ _ b d =>
    cases d
    rw [← b]
    exact h2

theorem map_mapIdx_same {α β : Type} {f : Nat → α → α} (g : α → β) (l : List α) (h : ∀ i x, g (f i x) = g x) : (l.mapIdx f).map g = l.map g := by
  apply List.ext_getElem
  · simp
  · intro i _ _; simp [h]

theorem PhoneNumber.named_restored (v : Version) (id : QString) (p : PhoneNumber) : (p.restored v id).named = p.named := by
  show (if p.named = 0 then 16384 else p.named) &&& 16383 = p.named
  by_cases h0 : p.named = 0
  · rw [if_pos h0, h0]; rfl
  · rw [if_neg h0]; unfold PhoneNumber.named; rw [Nat.and_assoc]; rfl

/-- C24 as stated: names, addresses, phone numbers, e-mails, organisation, note, categories and custom fields have the same content in
    every version that writes them (2.1 has no categories). -/
theorem C24_content (E : ToolEnv) (v : Version) (ids : IdKind → Nat → QString) (hinj : ∀ k i j, ids k i = ids k j → i = j) (c : Contact)
    (hR : Readable E v c) (hu : ∀ i, c.uid ≠ ids .contact i) :
    ∃ c', WrittenAndRead E v ids c c' ∧ c'.uid = c.uid ∧ c'.formattedName = c.formattedName ∧ c'.nameParts = c.nameParts ∧
      c'.addresses.map (fun a => (a.parts, a.label, a.named)) = c.addresses.map (fun a => (a.parts, a.label, a.named)) ∧
      c'.phoneNumbers.map (fun p => (p.number, p.named)) = c.phoneNumbers.map (fun p => (p.number, p.named)) ∧
      c'.emails = c.emails ∧ c'.organizations = c.organizations ∧ (c.organizations ≠ [] → c'.department = c.department) ∧ c'.note = c.note ∧
      (v ≠ .v2_1 → c'.categories = c.categories) ∧ c'.customs = c.customs := by
  have h := C24_contact E v ids hinj c hR hu
  refine ⟨_, h, rfl, rfl, rfl, ?_, ?_, rfl, rfl, fun ho => if_neg ho, rfl, fun hv => if_neg hv, rfl⟩
  · exact map_mapIdx_same _ _ fun i a => by simp [Address.restored, Address.parts, Address.named, Nat.and_assoc]
  · exact map_mapIdx_same _ _ fun i p => Prod.ext rfl (PhoneNumber.named_restored v _ p)

/-! ### The hypotheses can be met -/

theorem coded_plain {E : Codecs} {v : Version} {s : QString} (h : PlainAscii s) (hs : SafeText s) : CodedText E v s := by
  unfold CodedText; rw [if_neg (fun x => x.2 h)]; exact hs

theorem compound_plain {E : Codecs} {v : Version} {sep : UInt16} {l : List QString} (h : ∀ s ∈ l, PlainAscii s) (hs : ∀ s ∈ l, SafeText s)
    (hb : ∀ s ∈ l.dropLast, s.getLast? ≠ some (qc! '\\')) : Compound E v sep l :=
  ⟨hb, by rw [if_neg (fun ⟨_, s, hs, hn⟩ => hn (h s hs))]; exact hs⟩

theorem all_safe {l : List QString} (h : l.all asciiSafe = true) : ∀ s ∈ l, SafeText s := fun s hs => asciiSafe_safe (List.all_eq_true.1 h s hs)

theorem ascending_lit {l : List QString} (h : l.Pairwise fun a b => qlt a b = true) : Ascending l := h.imp fun hab => (qlt_iff_less _ _).1 hab

/-- boolean check for parameter maps -/
def paramOkB (k v : QString) : Bool :=
  k.all (fun u => u.toNat < 256 && !(65 ≤ u.toNat && u.toNat ≤ 90)) && v.all (fun u => u.toNat < 256) && decide (qc! ';' ∉ k ∧ qc! ':' ∉ k ∧ qc! '=' ∉ k ∧ (10 : UInt16) ∉ k) &&
    !v.isEmpty && decide (qc! ';' ∉ v ∧ qc! ':' ∉ v ∧ qc! ',' ∉ v ∧ (10 : UInt16) ∉ v) && decide (v.head? ≠ some (qc! '"'))

theorem paramOK_lit {k v : QString} (h : paramOkB k v = true) : ParamOK k v := by
  simp only [paramOkB, Bool.and_eq_true, List.all_eq_true, decide_eq_true_eq, Bool.not_eq_true', List.isEmpty_eq_false_iff] at h
  obtain ⟨⟨⟨⟨⟨h1, h2⟩, h3⟩, h4⟩, h5⟩, h6⟩ := h
  exact ⟨fun u hu => (h1 u hu).1, h2, fun u hu => by have := (h1 u hu).2; simp only [Bool.and_eq_false_iff, decide_eq_false_iff_not] at this; omega, h3, h4, h5, h6⟩

def paramsOkB (m : ParameterMap) : Bool :=
  decide ((m.map (·.1)).Pairwise fun a b => qlt a b = true) && m.all (fun p => !p.2.isEmpty && decide p.2.Nodup && decide (p.1 ≠ q! "encoding" ∧ p.1 ≠ q! "charset") && p.2.all (paramOkB p.1))

theorem paramsOK_lit {m : ParameterMap} (h : paramsOkB m = true) : ParamsOK m := by
  simp only [paramsOkB, Bool.and_eq_true, List.all_eq_true, decide_eq_true_eq, Bool.not_eq_true', List.isEmpty_eq_false_iff] at h
  exact ⟨ascending_lit h.1, fun p hp => (h.2 p hp).1.1, fun p hp => (h.2 p hp).1.2, fun p hp v hv => paramOK_lit ((h.2 p hp).2 v hv)⟩

def nameOkB (s : QString) : Bool := s.all (fun u => u.toNat < 256) && decide (qc! ';' ∉ s ∧ qc! ':' ∉ s ∧ qc! '.' ∉ s ∧ (10 : UInt16) ∉ s)
theorem nameOK_lit {s : QString} (h : nameOkB s = true) : NameOK s := by
  simp only [nameOkB, Bool.and_eq_true, List.all_eq_true, decide_eq_true_eq] at h
  exact ⟨h.1, h.2⟩

theorem textOK_lit {t : ParamText} (h : asciiSafe t.text = true) (h' : t.text ≠ []) (hp : paramsOkB t.params = true) : TextOK t := ⟨⟨asciiSafe_safe h, h'⟩, paramsOK_lit hp⟩

/-- A contact with something in most fields can be carried by every version. -/
theorem C24_sample_readable (v : Version) : Readable Sample.env v Sample.contact where
  uid := ⟨asciiSafe_safe (by decide), by decide⟩
  formattedName := coded_plain (by decide) (asciiSafe_safe (by decide))
  note := by
    have hw : WellFormed Sample.contact.note := ⟨[Char.ofNat 102, Char.ofNat 0xfc, Char.ofNat 114, Char.ofNat 10, Char.ofNat 0x4e2d], by decide⟩
    have hs : SafeText Sample.contact.note := ⟨hw, by decide, fun pre post c h => by
      have : (92 : UInt16) ∈ Sample.contact.note := by rw [h]; simp
      exact absurd this (by decide)⟩
    unfold CodedText
    split
    · refine ⟨toUtf8, fromUtf8, rfl, rfl, by decide +kernel, by decide +kernel, ?_, by decide +kernel⟩
      intro pre post c h
      have : (92 : UInt8) ∈ Sample.env.qpEncode (toUtf8 Sample.contact.note) := by rw [h]; simp
      exact absurd this (by decide +kernel)
    · exact hs
  mailer := fun _ => coded_plain (by decide) (asciiSafe_safe (by decide))
  name := fun _ => coded_plain (by decide) (asciiSafe_safe (by decide))
  nameParts := compound_plain (by decide) (all_safe (by decide)) (by decide)
  sortString := fun _ => asciiSafe_safe (by decide)
  sortAs := fun _ _ => paramOK_lit (by decide)
  productId := fun _ => asciiSafe_safe (by decide)
  birthday := by
    rintro x h
    cases h
    exact ⟨⟨.inr (by decide), by decide⟩, fun _ => ⟨by decide, by decide, by decide, rfl, by rintro o h; cases h; decide⟩⟩
  revision := by
    rintro x h
    cases h
    exact ⟨⟨.inr (by decide), by decide⟩, ⟨by decide, by decide, by decide, rfl, by rintro o h; cases h⟩⟩
  deathDate := by
    rintro - x h
    cases h
    exact ⟨⟨.inr (by decide), by decide⟩, ⟨by decide, by decide, by decide, rfl, by rintro o h; cases h; decide⟩⟩
  timeZone := fun _ => by decide
  geo := fun _ => ⟨by decide +kernel, by decide +kernel, ⟨by decide +kernel, by decide +kernel, by decide +kernel⟩, ⟨by decide +kernel, by decide +kernel, by decide +kernel⟩⟩
  categories := fun _ => ⟨by decide, compound_plain (by decide) (all_safe (by decide)) (by decide)⟩
  addresses := by
    intro a ha
    simp only [Sample.contact, List.mem_cons, List.not_mem_nil, or_false] at ha
    rcases ha with rfl | rfl
    · exact ⟨⟨q! "Town", by decide, by decide⟩, compound_plain (by decide) (all_safe (by decide)) (by decide), fun _ => coded_plain (by decide) (asciiSafe_safe (by decide)),
        fun _ => ⟨by unfold Latin1; decide, by decide, by decide⟩, fun _ h => absurd h (by decide)⟩
    · exact ⟨⟨q! "C", by decide, by decide⟩, compound_plain (by decide) (all_safe (by decide)) (by decide), fun _ => coded_plain (by decide) (asciiSafe_safe (by decide)),
        fun _ => ⟨by unfold Latin1; decide, by decide, by decide⟩, fun _ h => absurd h (by decide)⟩
  labels := fun _ => by decide
  phoneNumbers := by
    intro a ha
    simp only [Sample.contact, List.mem_cons, List.not_mem_nil, or_false] at ha
    rcases ha with rfl | rfl
    · exact ⟨⟨asciiSafe_safe (by decide), by decide, by decide⟩, paramsOK_lit (by decide)⟩
    · exact ⟨⟨asciiSafe_safe (by decide), by decide, by decide⟩, paramsOK_lit (by decide)⟩
  emails := by
    refine ⟨?_, by decide, by decide⟩
    intro a ha
    simp only [Sample.contact, List.mem_cons, List.not_mem_nil, or_false] at ha
    rcases ha with rfl | rfl
    · refine ⟨⟨asciiSafe_safe (by decide), by decide⟩, paramsOK_lit (by decide), ?_⟩
      intro _ vs h
      simp only [List.mem_cons, List.not_mem_nil, or_false, Prod.mk.injEq, true_and] at h
      subst h
      exact ⟨ascending_lit (by decide), by unfold CapitalName; decide⟩
    · exact ⟨⟨asciiSafe_safe (by decide), by decide⟩, paramsOK_lit (by decide), fun _ vs h => absurd h (by simp)⟩
  organizations := by
    intro a ha
    simp only [Sample.contact, List.mem_cons, List.not_mem_nil, or_false] at ha
    subst ha
    refine ⟨textOK_lit (by decide) (by decide) (by decide), by simp, ?_, fun _ => by decide⟩
    exact compound_plain (by decide) (all_safe (by decide)) (by decide)
  titles := by
    intro a ha
    simp only [Sample.contact, List.mem_cons, List.not_mem_nil, or_false] at ha
    subst ha
    exact ⟨textOK_lit (by decide) (by decide) (by decide), fun _ => by decide⟩
  roles := by
    intro a ha
    simp only [Sample.contact, List.mem_cons, List.not_mem_nil, or_false] at ha
    subst ha
    exact ⟨textOK_lit (by decide) (by decide) (by decide), fun _ => by decide⟩
  nickNames := by
    intro _ a ha
    simp only [Sample.contact, List.mem_cons, List.not_mem_nil, or_false] at ha
    subst ha
    exact textOK_lit (by decide) (by decide) (by decide)
  relationships := by
    refine ⟨?_, by decide⟩
    intro a ha
    simp only [Sample.contact, List.mem_cons, List.not_mem_nil, or_false] at ha
    subst ha
    exact textOK_lit (by decide) (by decide) (by decide)
  langs := by
    intro _
    refine ⟨?_, by decide⟩
    intro a ha
    simp only [Sample.contact, List.mem_cons, List.not_mem_nil, or_false] at ha
    subst ha
    exact ⟨textOK_lit (by decide) (by decide) (by decide), by decide⟩
  clientPidMaps := by
    intro _ a ha
    simp only [Sample.contact, List.mem_cons, List.not_mem_nil, or_false] at ha
    subst ha
    exact textOK_lit (by decide) (by decide) (by decide)
  members := fun _ => ⟨fun m hm => absurd hm (by simp [Sample.contact]), List.nodup_nil⟩
  sources := by
    intro a ha
    simp only [Sample.contact, List.mem_cons, List.not_mem_nil, or_false] at ha
    subst ha
    exact ⟨asciiSafe_safe (by decide), by decide, rfl⟩
  extraUrls := by
    intro a ha
    simp only [Sample.contact, List.mem_cons, List.not_mem_nil, or_false] at ha
    subst ha
    exact ⟨⟨asciiSafe_safe (by decide), by decide, rfl⟩, paramsOK_lit (by decide), by decide⟩
  impps := by
    intro a ha
    simp only [Sample.contact, List.mem_cons, List.not_mem_nil, or_false] at ha
    subst ha
    exact ⟨⟨asciiSafe_safe (by decide), by decide, rfl⟩, paramsOK_lit (by decide), by simp, by decide⟩
  calendarUrls := by
    intro _ a ha
    simp only [Sample.contact, List.mem_cons, List.not_mem_nil, or_false] at ha
    rcases ha with rfl | rfl
    · exact ⟨paramsOK_lit (by decide), by decide, by decide, asciiSafe_safe (by decide), by decide, rfl⟩
    · exact ⟨paramsOK_lit (by decide), by decide, by decide, asciiSafe_safe (by decide), by decide, rfl⟩
  gender := fun _ => ⟨by decide, by decide, asciiSafe_safe (by decide), asciiSafe_safe (by decide)⟩
  kind := fun _ => asciiSafe_safe (by decide)
  keys := by
    intro a ha
    simp only [Sample.contact, List.mem_cons, List.not_mem_nil, or_false] at ha
    subst ha
    exact fun _ => ⟨fun _ => rfl, fun _ => asciiSafe_safe (by decide), fun h => absurd h (by decide)⟩
  pictures := by
    have h : ∀ p ∈ Sample.contact.logo :: Sample.contact.extraLogos ++ Sample.contact.photo :: Sample.contact.extraPhotos, p.isIntern = false ∧ asciiSafe p.url = true ∧
      indexOfStr? (b! "data:") (toUtf8 p.url) = none := by decide +kernel
    have hp : ∀ p ∈ Sample.contact.logo :: Sample.contact.extraLogos ++ Sample.contact.photo :: Sample.contact.extraPhotos, PictureOK Sample.env v p := fun p hp =>
      ⟨fun x => absurd x (by rw [(h p hp).1]; decide), fun _ => ⟨asciiSafe_safe (h p hp).2.1, fun _ => (h p hp).2.2⟩⟩
    intro p hm
    split
    · exact hp p hm
    · exact fun _ => hp p hm
  sounds := by
    have h : ∀ p ∈ Sample.contact.sound :: Sample.contact.extraSounds, p.isIntern = false ∧ asciiSafe p.url = true := by decide +kernel
    exact fun p hp _ => ⟨fun x => absurd x (by rw [(h p hp).1]; decide), fun _ => asciiSafe_safe (h p hp).2⟩
  fieldGroups := by
    intro a ha
    simp only [Sample.contact, List.mem_cons, List.not_mem_nil, or_false] at ha
    rcases ha with rfl | rfl
    · exact ⟨⟨q! "item2", q! "X-FOO", rfl, by decide, nameOK_lit (by decide), nameOK_lit (by decide), by decide, by decide⟩, ⟨asciiSafe_safe (by decide), by decide⟩, paramsOK_lit (by decide)⟩
    · exact ⟨⟨q! "item1", q! "URL", rfl, by decide, nameOK_lit (by decide), nameOK_lit (by decide), by decide, by decide⟩, ⟨asciiSafe_safe (by decide), by decide⟩, paramsOK_lit (by decide)⟩
  customs := by
    refine ⟨ascending_lit (by decide), ?_⟩
    intro a ha
    simp only [Sample.contact, List.mem_cons, List.not_mem_nil, or_false] at ha
    rcases ha with rfl | rfl
    · exact ⟨⟨q! "APP", q! "Name", rfl, by decide, by decide, by decide⟩, nameOK_lit (by decide), by decide,
        fun s h => absurd h (by rw [show renamed importNames (toLowerQ (q! "X-" ++ q! "APP-Name")) = none from by decide +kernel]; simp),
        ⟨coded_plain (by decide) (asciiSafe_safe (by decide)), by decide⟩, fun _ => by decide, fun _ h => absurd h (by decide)⟩
    · exact ⟨⟨q! "KADDRESSBOOK", q! "X-Profession", rfl, by decide, by decide, by decide⟩, nameOK_lit (by decide), by decide,
        fun s h => by
          rw [show renamed importNames (toLowerQ (q! "X-" ++ q! "KADDRESSBOOK-X-Profession")) = some (q! "X-KADDRESSBOOK-X-Profession") from by decide +kernel] at h
          exact (Option.some.inj h).symm,
        ⟨coded_plain (by decide) (asciiSafe_safe (by decide)), by decide⟩, fun _ => by decide, fun _ h => absurd h (by decide)⟩

theorem C24_sample_uid : ∀ i, Sample.contact.uid ≠ Sample.ids .contact i := by
  intro i h
  have : Sample.contact.uid.head? = (Sample.ids .contact i).head? := by rw [h]
  rw [Sample.ids, List.replicate_succ, List.head?_cons] at this
  exact absurd this (by decide)

/-- Non-vacuity: three copies of the sample contact in one text of any version. -/
example (v : Version) : ∃ cs', ReadAs Sample.env v Sample.ids 0 0 0 [Sample.contact, Sample.contact, Sample.contact] cs' ∧ ∃ n, ∀ fuel, n ≤ fuel →
    parseContacts Sample.env Sample.ids fuel (createContacts Sample.env v false [Sample.contact, Sample.contact, Sample.contact]) = .ok cs' :=
  C24_contacts _ v _ Sample.ids_inj _ (by intro c hc; simp at hc; subst hc; exact C24_sample_readable v) (by intro c hc; simp at hc; subst hc; exact C24_sample_uid)

/-- C24 for components with backslashes at their ends and addresses for which nothing is written: the contacts read are those without these
    addresses, with these components `merged`. -/
theorem C24_merged (E : ToolEnv) (v : Version) (ids : IdKind → Nat → QString) (hinj : ∀ k i j, ids k i = ids k j → i = j) (cs : List Contact)
    (hR : ∀ c ∈ cs, Carriable E v (c.written v)) (hu : ∀ c ∈ cs, ∀ i, c.uid ≠ ids .contact i) :
    ∃ cs', ReadAs E v ids 0 0 0 (cs.map fun c => (c.written v).merged) cs' ∧ ∃ n, ∀ fuel, n ≤ fuel → parseContacts E ids fuel (createContacts E v false cs) = .ok cs' := by
  obtain ⟨cs', h1, h2⟩ := parseContacts_written ids hinj cs hR hu
  exact ⟨cs', h1, _, h2⟩

/-- The sample contact with a family name that ends in a backslash, and with an address that has no component. -/
def ending : Contact :=
  { Sample.contact with familyName := q! "A\\", givenName := q! "B", addresses := Sample.contact.addresses ++ [{ empty := false, id := q! "x", type := 16 }] }

theorem C24_ending_carriable (v : Version) : Carriable Sample.env v (ending.written v) := by
  have h := (C24_sample_readable v).carriable
  have e : ending.written v = { Sample.contact with familyName := q! "A\\", givenName := q! "B" } := by cases v <;> decide +kernel
  rw [e]
  refine { h with nameParts := ?_ }
  unfold Joined
  rw [if_neg (by cases v <;> decide)]
  exact all_safe (by decide)

/-- the same contact as it is read -/
def endingRead : Contact :=
  { Sample.contact with familyName := q! "A;B", givenName := Sample.contact.additionalName, additionalName := Sample.contact.prefix_, prefix_ := Sample.contact.suffix, suffix := [] }

/-- Non-vacuity: that contact is read, after the sample contact, without the given name and without the third address. -/
example (v : Version) : ∃ cs', ReadAs Sample.env v Sample.ids 0 0 0
    [Sample.contact, endingRead] cs' ∧ ∃ n, ∀ fuel, n ≤ fuel →
    parseContacts Sample.env Sample.ids fuel (createContacts Sample.env v false [Sample.contact, ending]) = .ok cs' := by
  have h := C24_merged Sample.env v Sample.ids Sample.ids_inj [Sample.contact, ending]
    (by intro c hc
        rcases List.mem_cons.1 hc with rfl | hc
        · have e : Sample.contact.written v = Sample.contact := by cases v <;> decide +kernel
          rw [e]; exact (C24_sample_readable v).carriable
        · have : c = ending := by simpa using hc
          rw [this]; exact C24_ending_carriable v)
    (by intro c hc i
        rcases List.mem_cons.1 hc with rfl | hc
        · exact C24_sample_uid i
        · have : c = ending := by simpa using hc
          rw [this]; exact C24_sample_uid i)
  have e1 : (Sample.contact.written v).merged = Sample.contact := by cases v <;> decide +kernel
  have e2 : (ending.written v).merged = endingRead := by cases v <;> decide +kernel
  rw [List.map_cons, List.map_cons, List.map_nil, e1, e2] at h
  exact h

end KC
