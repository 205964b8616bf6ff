import Verif.Props.C91
/-
  C98. Two lists of contacts are written as the same vCard text exactly if a card carries the same of them: different contents never have the same text,
  and nothing that is not carried shows in the text.
-/
namespace KC
namespace Spec

/-- What a card of version `v` carries of a contact: the contact that is read back (`Contact.restored`), without the ids of addresses, phone numbers and
    keys, which are not written. -/
def Contact.content (E : ToolEnv) (v : Version) (c : Contact) : Contact := c.restored E v (fun _ _ => []) 0 0 0

end Spec
open Spec

/-! ### Proof -/

/-- The contact with the given ids. -/
def relabelled (ids : IdKind → Nat → QString) (a p k : Nat) (x : Contact) : Contact :=
  { x with
    phoneNumbers := x.phoneNumbers.mapIdx fun i y => { y with id := ids .phone (p + i) }
    addresses := x.addresses.mapIdx fun i y => { y with id := ids .address (a + i) }
    keys := x.keys.mapIdx fun i y => { y with id := ids .key (k + i) } }

theorem relabelled_restored (E : ToolEnv) (v : Version) (ids ids' : IdKind → Nat → QString) (a p k a' p' k' : Nat) (c : Contact) :
    relabelled ids a p k (c.restored E v ids' a' p' k') = c.restored E v ids a p k := by
  unfold relabelled Contact.restored
  simp only [List.mapIdx_mapIdx]
  rfl

theorem content_iff (E : ToolEnv) (v : Version) (ids : IdKind → Nat → QString) (a p k : Nat) (c c' : Contact) :
    Contact.content E v c = Contact.content E v c' ↔ c.restored E v ids a p k = c'.restored E v ids a p k := by
  unfold Contact.content
  constructor
  · intro h
    rw [← relabelled_restored E v ids (fun _ _ => []) a p k 0 0 0 c, h, relabelled_restored]
  · intro h
    rw [← relabelled_restored E v (fun _ _ => []) ids 0 0 0 a p k c, h, relabelled_restored]

theorem restored_counts {E : ToolEnv} {v : Version} {c c' : Contact} (h : Contact.content E v c = Contact.content E v c') :
    c.addresses.length = c'.addresses.length ∧ c.phoneNumbers.length = c'.phoneNumbers.length ∧
      (c.keys.filter Key.hasData).length = (c'.keys.filter Key.hasData).length := by
  have h1 := congrArg (fun x => x.addresses.length) h
  have h2 := congrArg (fun x => x.phoneNumbers.length) h
  have h3 := congrArg (fun x => x.keys.length) h
  simp only [Contact.content, Contact.restored, List.length_mapIdx] at h1 h2 h3
  exact ⟨h1, h2, h3⟩

theorem readAs_content {E : ToolEnv} {v : Version} {ids : IdKind → Nat → QString} {cs ds : List Contact} {a p k : Nat} (h : ReadAs E v ids a p k cs ds) :
    ∀ cs', ReadAs E v ids a p k cs' ds → cs.map (Contact.content E v) = cs'.map (Contact.content E v) := by
  induction h with
  | nil => intro cs' h'; cases h'; rfl
  | @cons a p k c d cs ds he _ ih =>
    intro cs' h'
    cases h' with
    | @cons _ _ _ c' _ cs' _ he' hr =>
      have hc : Contact.content E v c = Contact.content E v c' := (content_iff E v ids a p k c c').2 (he.symm.trans he')
      obtain ⟨h1, h2, h3⟩ := restored_counts hc
      rw [← h1, ← h2, ← h3] at hr
      rw [List.map_cons, List.map_cons, hc, ih cs' hr]

theorem content_readAs {E : ToolEnv} {v : Version} {ids : IdKind → Nat → QString} {cs ds : List Contact} {a p k : Nat} (h : ReadAs E v ids a p k cs ds) :
    ∀ cs', cs.map (Contact.content E v) = cs'.map (Contact.content E v) → ReadAs E v ids a p k cs' ds := by
  induction h with
  | nil =>
    intro cs' h'
    cases cs' with
    | nil => exact .nil
    | cons => cases h'
  | @cons a p k c d cs ds he _ ih =>
    intro cs' h'
    cases cs' with
    | nil => cases h'
    | cons c' cs' =>
      obtain ⟨hc, ht⟩ := List.cons.inj h'
      obtain ⟨h1, h2, h3⟩ := restored_counts hc
      refine .cons (he.trans ((content_iff E v ids a p k c c').1 hc)) ?_
      rw [← h1, ← h2, ← h3]
      exact ih cs' ht

/-- Ids that are longer than some length. -/
def longIds (n : Nat) : IdKind → Nat → QString := fun _ i => List.replicate (n + i + 1) (qc! 'x')

theorem longIds_inj (n : Nat) : ∀ k i j, longIds n k i = longIds n k j → i = j := by
  intro k i j h
  have := congrArg List.length h
  simpa [longIds] using this

theorem longIds_new (n : Nat) (cs : List Contact) (h : ∀ c ∈ cs, c.uid.length ≤ n) : ∀ c ∈ cs, ∀ i, c.uid ≠ longIds n .contact i := by
  intro c hc i e
  have := h c hc
  rw [e, longIds, List.length_replicate] at this
  omega

theorem readAs_exists (E : ToolEnv) (v : Version) (ids : IdKind → Nat → QString) (cs : List Contact) : ∀ a p k, ∃ ds, ReadAs E v ids a p k cs ds := by
  induction cs with
  | nil => exact fun a p k => ⟨[], .nil⟩
  | cons c cs ih => exact fun a p k => ⟨_, .cons rfl (ih _ _ _).choose_spec⟩

theorem uid_bound (l : List Contact) : ∃ n, ∀ c ∈ l, c.uid.length ≤ n := by
  induction l with
  | nil => exact ⟨0, fun c hc => by cases hc⟩
  | cons d l ih =>
    obtain ⟨n, hn⟩ := ih
    refine ⟨max d.uid.length n, fun c hc => ?_⟩
    rcases List.mem_cons.1 hc with rfl | hc
    · exact Nat.le_max_left _ _
    · exact Nat.le_trans (hn c hc) (Nat.le_max_right _ _)

/-! ### Theorems -/

/-- Different contents have different texts: contacts that are written as the same text have the same content, one by one and in order. -/
theorem C98_distinct (E : ToolEnv) (v : Version) (cs cs' : List Contact) (hR : ∀ c ∈ cs, Readable E v c) (hR' : ∀ c ∈ cs', Readable E v c)
    (h : createContacts E v false cs = createContacts E v false cs') : cs.map (Contact.content E v) = cs'.map (Contact.content E v) := by
  obtain ⟨n, hm⟩ := uid_bound (cs ++ cs')
  have hn := longIds_new n (cs ++ cs') hm
  obtain ⟨ds, h1, f1, r1⟩ := C24_contacts E v (longIds n) (longIds_inj n) cs hR fun c hc => hn c (by simp [hc])
  obtain ⟨ds', h2, f2, r2⟩ := C24_contacts E v (longIds n) (longIds_inj n) cs' hR' fun c hc => hn c (by simp [hc])
  have e1 := r1 (max f1 f2) (Nat.le_max_left _ _)
  have e2 := r2 (max f1 f2) (Nat.le_max_right _ _)
  rw [h, e2] at e1
  obtain rfl : ds' = ds := by injection e1
  exact readAs_content h1 cs' h2

/-- **C98.** Two lists of contacts that a version can carry are written as the same text if and only if the same is carried of them. -/
theorem C98_partial (E : ToolEnv) (v : Version) (cs cs' : List Contact) (hR : ∀ c ∈ cs, Readable E v c) (hR' : ∀ c ∈ cs', Readable E v c)
    (hk : v = .v4_0 → ∀ c ∈ cs ++ cs', ∀ k ∈ c.keys, k.type ≠ .custom) :
    createContacts E v false cs = createContacts E v false cs' ↔ cs.map (Contact.content E v) = cs'.map (Contact.content E v) := by
  refine ⟨C98_distinct E v cs cs' hR hR', fun h => ?_⟩
  obtain ⟨ds, hd⟩ := readAs_exists E v (longIds 0) cs 0 0 0
  rw [← readAs_text hd hR (fun hv c hc => hk hv c (by simp [hc])) false,
    ← readAs_text (content_readAs hd cs' h) hR' (fun hv c hc => hk hv c (by simp [hc])) false]

/-- For `exportVCards`, which renames some custom fields: nothing that is not carried shows in the text. -/
theorem C98_export_partial (E : ToolEnv) (v : Version) (cs cs' : List Contact) (hR : ∀ c ∈ cs, Readable E v c) (hR' : ∀ c ∈ cs', Readable E v c)
    (hk : v = .v4_0 → ∀ c ∈ cs ++ cs', ∀ k ∈ c.keys, k.type ≠ .custom)
    (h : cs.map (Contact.content E v) = cs'.map (Contact.content E v)) : createContacts E v true cs = createContacts E v true cs' := by
  obtain ⟨ds, hd⟩ := readAs_exists E v (longIds 0) cs 0 0 0
  rw [← readAs_text hd hR (fun hv c hc => hk hv c (by simp [hc])) true,
    ← readAs_text (content_readAs hd cs' h) hR' (fun hv c hc => hk hv c (by simp [hc])) true]

/-- Keys with a type of their own in version 4.0: the name of the type shows in the text, although it is not carried. -/
theorem C98_custom_key_false : ∃ c c' : Contact, c ≠ c' ∧ Contact.content Sample.env .v4_0 c = Contact.content Sample.env .v4_0 c' ∧
    createContacts Sample.env .v4_0 false [c] ≠ createContacts Sample.env .v4_0 false [c'] := by
  refine ⟨{ uid := q! "u", empty := false, keys := [{ id := [], textData := q! "k", type := .custom, customTypeString := q! "A" }] },
    { uid := q! "u", empty := false, keys := [{ id := [], textData := q! "k", type := .custom, customTypeString := q! "B" }] }, ?_, rfl, by decide +kernel⟩
  intro h
  exact absurd (congrArg (fun x => x.keys.map fun k => k.customTypeString) h) (by decide)

/-- In terms of the fields: two contacts that are written as the same text have the same uid, names, addresses, phone numbers, e-mail addresses,
    organizations, titles, roles, notes, URLs, messaging addresses, relationships, custom fields and birthday, and in the versions that have them the same
    categories. -/
theorem C98_fields (E : ToolEnv) (v : Version) (c c' : Contact) (hR : Readable E v c) (hR' : Readable E v c')
    (h : createContacts E v false [c] = createContacts E v false [c']) :
    c.uid = c'.uid ∧ c.formattedName = c'.formattedName ∧ c.nameParts = c'.nameParts ∧
      c.addresses.map (fun a => (a.parts, a.label, a.named)) = c'.addresses.map (fun a => (a.parts, a.label, a.named)) ∧
      c.phoneNumbers.map (fun p => (p.number, p.named)) = c'.phoneNumbers.map (fun p => (p.number, p.named)) ∧
      c.emails = c'.emails ∧ c.organizations = c'.organizations ∧ c.note = c'.note ∧ (v ≠ .v2_1 → c.categories = c'.categories) ∧
      c.customs = c'.customs ∧ c.titles = c'.titles ∧ c.roles = c'.roles ∧ c.extraUrls = c'.extraUrls ∧ c.impps = c'.impps ∧
      c.relationships = c'.relationships := by
  have e := C98_distinct E v [c] [c'] (by simpa using hR) (by simpa using hR') h
  have e : Contact.content E v c = Contact.content E v c' := (List.cons.inj e).1
  refine ⟨congrArg (fun x => x.uid) e, congrArg (fun x => x.formattedName) e, congrArg (fun x => x.nameParts) e, ?_, ?_, congrArg (fun x => x.emails) e,
    congrArg (fun x => x.organizations) e, congrArg (fun x => x.note) e, ?_, congrArg (fun x => x.customs) e, congrArg (fun x => x.titles) e,
    congrArg (fun x => x.roles) e, congrArg (fun x => x.extraUrls) e, congrArg (fun x => x.impps) e, congrArg (fun x => x.relationships) e⟩
  · have := congrArg (fun x => x.addresses.map fun a => (a.parts, a.label, a.named)) e
    have r : ∀ d : Contact, (Contact.content E v d).addresses.map (fun a => (a.parts, a.label, a.named)) = d.addresses.map (fun a => (a.parts, a.label, a.named)) :=
      fun d => map_mapIdx_same _ _ fun i a => by simp [Address.restored, Address.parts, Address.named, Nat.and_assoc]
    exact (r c).symm.trans (this.trans (r c'))
  · have := congrArg (fun x => x.phoneNumbers.map fun p => (p.number, p.named)) e
    have r : ∀ d : Contact, (Contact.content E v d).phoneNumbers.map (fun p => (p.number, p.named)) = d.phoneNumbers.map (fun p => (p.number, p.named)) :=
      fun d => map_mapIdx_same _ _ fun i p => Prod.ext rfl (PhoneNumber.named_restored v _ p)
    exact (r c).symm.trans (this.trans (r c'))
  · intro hv
    have := congrArg (fun x => x.categories) e
    simp only [Contact.content, Contact.restored, if_neg hv] at this
    exact this

/-- The hypotheses are met, by contacts with different contents and by different contacts with the same content. -/
example (v : Version) : (∀ c ∈ [Sample.contact], Readable Sample.env v c) ∧
    (∀ c ∈ [Sample.contact, Sample.contact], ∀ k ∈ c.keys, k.type ≠ .custom) ∧
    Contact.content Sample.env v Sample.contact ≠ Contact.content Sample.env v { Sample.contact with note := q! "x" } ∧
    (Sample.contact ≠ { Sample.contact with changed := true }) ∧
    Contact.content Sample.env v Sample.contact = Contact.content Sample.env v { Sample.contact with changed := true } := by
  refine ⟨by simpa using C24_sample_readable v, by decide, ?_, ?_, rfl⟩
  · intro h
    have := congrArg (fun x => x.note) h
    exact absurd (show Sample.contact.note = q! "x" from this) (by decide)
  · intro h
    exact absurd (congrArg (fun x => x.changed) h) (by decide)

end KC
