import Verif.Lemmas.MergeParts
import Verif.Props.C24
/-
  C89: what a vCard of version 3.0 or 4.0 makes of a contact with any texts.
-/
namespace KC
open Spec

/-- C89 in full: any number of contacts, written as one text in version 3.0 or 4.0 and parsed, come back in order, as the contacts in which
    every text is `carried`: half a surrogate pair is a question mark, n and N behind a backslash are line feeds, r behind a backslash is a
    carriage return; addresses for which nothing is written are left out; components that end in a backslash are `merged` with the next
    ones; and nothing else is different. The contacts with these texts are the ones that must be `Carriable`. -/
theorem C89_contacts (E : ToolEnv) (v : Version) (hv : v ≠ .v2_1) (ids : IdKind → Nat → QString) (hinj : ∀ k i j, ids k i = ids k j → i = j) (cs : List Contact)
    (hR : ∀ c ∈ cs, Carriable E v ((c.carried v).written v)) (hu : ∀ c ∈ cs, ∀ i, carried c.uid ≠ ids .contact i) :
    ∃ cs', ReadAs E v ids 0 0 0 (cs.map fun c => ((c.carried v).written v).merged) cs' ∧
      ∃ n, ∀ fuel, n ≤ fuel → parseContacts E ids fuel (createContacts E v false cs) = .ok cs' := by
  obtain ⟨cs', h1, h2⟩ := parseContacts_any hv ids hinj cs hR hu
  exact ⟨cs', h1, _, h2⟩

/-- C89 for one contact. -/
theorem C89_contact (E : ToolEnv) (v : Version) (hv : v ≠ .v2_1) (ids : IdKind → Nat → QString) (hinj : ∀ k i j, ids k i = ids k j → i = j) (c : Contact)
    (hR : Carriable E v ((c.carried v).written v)) (hu : ∀ i, carried c.uid ≠ ids .contact i) :
    WrittenAndRead E v ids c ((((c.carried v).written v).merged).restored E v ids 0 0 0) := by
  obtain ⟨cs', h1, h2⟩ := C89_contacts E v hv ids hinj [c] (by simpa using hR) (by simpa using hu)
  cases h1 with
  | @cons _ _ _ _ c' _ _ b d =>
    cases d
    rw [← b]
    exact h2

/-- What is read, field by field, for the texts a user sees. -/
theorem C89_content (E : ToolEnv) (v : Version) (hv : v ≠ .v2_1) (ids : IdKind → Nat → QString) (hinj : ∀ k i j, ids k i = ids k j → i = j) (c : Contact)
    (hR : Carriable E v ((c.carried v).written v)) (hu : ∀ i, carried c.uid ≠ ids .contact i) :
    ∃ c', WrittenAndRead E v ids c c' ∧ c'.uid = carried c.uid ∧ c'.formattedName = carried c.formattedName ∧
      c'.nameParts = inPlaces 5 (merged (qc! ';') (c.nameParts.map carried)) ∧
      c'.note = carried c.note ∧ c'.categories = (if c.categories = [[]] then [] else merged (qc! ',') (c.categories.map carried)) ∧
      c'.customs = c.customs.map (fun p => (p.1, carried p.2)) ∧
      c'.addresses.map Address.parts = (c.addresses.filter fun a => a.parts.any (· ≠ [])).map (fun a => inPlaces 7 (merged (qc! ';') (a.parts.map carried))) ∧
      c'.phoneNumbers.map (·.number) = c.phoneNumbers.map (fun p => carried p.number) ∧
      c'.emails.map (·.mail) = c.emails.map (fun e => carried e.mail) ∧
      c'.organizations.map (·.text) = c.organizations.map (fun o =>
        if o.text.getLast? = some (qc! '\\') ∧ c.department ≠ [] then (carried o.text).dropLast ++ qc! ';' :: carried c.department else carried o.text) ∧
      c'.titles.map (·.text) = c.titles.map (fun o => carried o.text) := by
  have h := C89_contact E v hv ids hinj c hR hu
  refine ⟨_, h, rfl, rfl, rfl, rfl, (if_neg hv).trans ?_, rfl, ?_, ?_, ?_, ?_, ?_⟩
  · show (if c.categories.map carried = [[]] then [] else _) = _
    have : c.categories.map carried = [[]] ↔ c.categories = [[]] := by
      constructor
      · intro e
        match hc : c.categories with
        | [] => rw [hc] at e; cases e
        | [a] => rw [hc] at e; simp [carried_eq_nil] at e; rw [e]
        | a :: b :: t => rw [hc] at e; simp at e
      · intro e; rw [e]; rfl
    simp only [this]
    rfl
  · have hw := address_filter hR
    show ((((c.carried v).written v).addresses.map Address.merged).mapIdx _).map _ = _
    refine (map_mapIdx_same Address.parts _ (fun i a => ?_)).trans ?_
    · rfl
    · rw [List.map_map, hw]; exact carried_filter v c
  · show ((c.phoneNumbers.map PhoneNumber.carried).mapIdx _).map _ = _
    refine (map_mapIdx_same (fun p : PhoneNumber => p.number) _ (fun i a => ?_)).trans ?_
    · rfl
    · rw [List.map_map]; rfl
  · show (c.emails.map Email.carried).map _ = _
    rw [List.map_map]; rfl
  · show ((c.organizations.map ParamText.carried).map _).map _ = _
    rw [List.map_map, List.map_map]
    refine List.map_congr_left fun o _ => ?_
    show (merged (qc! ';') (orgTexts (carried c.department) o.carried)).headD [] = _
    unfold orgTexts
    by_cases hd : c.department = []
    · rw [if_pos (carried_eq_nil.2 hd), if_neg (by simp [hd])]; rfl
    · rw [if_neg (fun x => hd (carried_eq_nil.1 x))]
      show (merged (qc! ';') [carried o.text, carried c.department]).headD [] = _
      unfold merged
      by_cases hl : o.text.getLast? = some (qc! '\\')
      · rw [if_pos ((carried_last _).2 hl), if_pos ⟨hl, hd⟩]; rfl
      · rw [if_neg (fun x => hl ((carried_last _).1 x)), if_neg (fun x => hl x.1)]; rfl
  · show (c.titles.map ParamText.carried).map _ = _
    rw [List.map_map]; rfl

/-- The texts that are not changed: exactly the well-formed ones in which no backslash stands directly before n, N or r. -/
theorem C89_unchanged (s : QString) : carried s = s ↔ WellFormed s ∧ ∀ pre post c, s = pre ++ 92 :: c :: post → c ≠ 110 ∧ c ≠ 78 ∧ c ≠ 114 := by
  rw [safe16_iff]
  constructor
  · intro h
    rw [← h]
    exact ⟨wf_carried _ _, (chain_carried _ _).1⟩
  · rintro ⟨h1, h2⟩; exact carried_plain h1 h2

/-- A second round trip changes no text any more. -/
theorem C89_stable (s : QString) : carried (carried s) = carried s := carried_plain (wf_carried _ _) (chain_carried _ _).1

/-! ### The hypotheses can be met -/

/-- The sample contact with backslashes before n, N and r and with half a surrogate pair. -/
def backslashes : Contact := { Sample.contact with note := q! "C:\\new\\red\\Notes" ++ [0xD83D], familyName := q! "Lee;\\nRoe" }

/-- the same contact as it is read -/
def backslashesRead : Contact := { Sample.contact with note := q! "C:\\" ++ 10 :: q! "ew\\" ++ 13 :: q! "ed\\" ++ 10 :: q! "otes?", familyName := q! "Lee;\\" ++ 10 :: q! "Roe" }

theorem C89_sample_read (v : Version) : backslashes.carried v = backslashesRead := by cases v <;> decide +kernel

theorem C89_sample_readable (v : Version) (hv : v ≠ .v2_1) : Readable Sample.env v backslashesRead where
  uid := (C24_sample_readable v).uid
  formattedName := (C24_sample_readable v).formattedName
  note := by
    unfold CodedText; rw [if_neg (fun x => hv x.1)]; exact asciiSafe_safe (by decide)
  mailer := (C24_sample_readable v).mailer
  name := (C24_sample_readable v).name
  nameParts := ⟨by decide, by rw [if_neg (fun x => hv x.1)]; exact all_safe (by decide)⟩
  sortString := (C24_sample_readable v).sortString
  sortAs := (C24_sample_readable v).sortAs
  productId := (C24_sample_readable v).productId
  birthday := (C24_sample_readable v).birthday
  revision := (C24_sample_readable v).revision
  deathDate := (C24_sample_readable v).deathDate
  timeZone := (C24_sample_readable v).timeZone
  geo := (C24_sample_readable v).geo
  categories := (C24_sample_readable v).categories
  addresses := (C24_sample_readable v).addresses
  labels := (C24_sample_readable v).labels
  phoneNumbers := (C24_sample_readable v).phoneNumbers
  emails := (C24_sample_readable v).emails
  organizations := (C24_sample_readable v).organizations
  titles := (C24_sample_readable v).titles
  roles := (C24_sample_readable v).roles
  nickNames := (C24_sample_readable v).nickNames
  relationships := (C24_sample_readable v).relationships
  langs := (C24_sample_readable v).langs
  clientPidMaps := (C24_sample_readable v).clientPidMaps
  members := (C24_sample_readable v).members
  sources := (C24_sample_readable v).sources
  extraUrls := (C24_sample_readable v).extraUrls
  impps := (C24_sample_readable v).impps
  calendarUrls := (C24_sample_readable v).calendarUrls
  gender := (C24_sample_readable v).gender
  kind := (C24_sample_readable v).kind
  keys := (C24_sample_readable v).keys
  pictures := (C24_sample_readable v).pictures
  sounds := (C24_sample_readable v).sounds
  fieldGroups := (C24_sample_readable v).fieldGroups
  customs := (C24_sample_readable v).customs

/-- Nothing is merged and no address is left out in it. -/
theorem C89_sample_merged (v : Version) : (backslashes.carried v).written v = backslashesRead ∧ backslashesRead.merged = backslashesRead := by
  cases v <;> decide +kernel

/-- Non-vacuity: version 3.0 and 4.0 carry that contact twice. -/
example (v : Version) (hv : v ≠ .v2_1) : ∃ cs', ReadAs Sample.env v Sample.ids 0 0 0 [backslashesRead, backslashesRead] cs' ∧
    ∃ n, ∀ fuel, n ≤ fuel → parseContacts Sample.env Sample.ids fuel (createContacts Sample.env v false [backslashes, backslashes]) = .ok cs' := by
  have := C89_contacts Sample.env v hv Sample.ids Sample.ids_inj [backslashes, backslashes]
    (by intro c hc; have : c = backslashes := by simpa using hc
        rw [this, (C89_sample_merged v).1]; exact (C89_sample_readable v hv).carriable)
    (by intro c hc i; have : c = backslashes := by simpa using hc
        rw [this]; exact C24_sample_uid i)
  simpa only [List.map_cons, List.map_nil, (C89_sample_merged v).1, (C89_sample_merged v).2] using this

/-- Every text comes back: false. The text of a path on a disk is read with line breaks in it. -/
theorem C89_false : ∃ s : QString, (∀ u ∈ s, 32 ≤ u.toNat ∧ u.toNat ≤ 126) ∧ carried s ≠ s ∧ (10 : UInt16) ∈ carried s :=
  ⟨q! "C:\\new", by decide, by decide, by decide⟩

end KC
