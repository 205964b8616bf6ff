import Verif.Lemmas.Compute
/-
  C24: what happens without the conditions of `Readable`: each theorem is a contact that comes back different.
-/
namespace KC
open Spec

/-- shorthand: the contact is read back and then has the property -/
theorem back_is {v : Version} (c : Contact) (P : Contact → Prop) [DecidablePred P] (h : (oneBack Sample.env v Sample.ids c).any (fun c' => decide (P c')) = true) :
    ∃ c', WrittenAndRead Sample.env v Sample.ids c c' ∧ P c' := by
  obtain ⟨c', h1, h2⟩ := oneBack_not (E := Sample.env) (v := v) (ids := Sample.ids) c (fun c' => ¬ P c') (by
    cases ho : oneBack Sample.env v Sample.ids c with
    | none => rw [ho] at h; simp at h
    | some x => rw [ho] at h; simpa using h)
  exact ⟨c', h1, not_not.1 h2⟩

/-- The conditions cannot be dropped: C24 is false for all contacts. -/
theorem C24_all_contacts_false : ¬ ∀ c c' : Contact, WrittenAndRead Sample.env .v3_0 Sample.ids c c' → c'.note = c.note := by
  intro h
  obtain ⟨c', h1, h2⟩ := back_is (v := .v3_0) { uid := q! "u", note := q! "a\\nb" } (fun c' => c'.note ≠ q! "a\\nb") (by decide +kernel)
  exact h2 (h _ _ h1)

/-- A contact without uid gets a new one. -/
theorem C24_empty_uid : ∃ c', WrittenAndRead Sample.env .v3_0 Sample.ids { uid := [] } c' ∧ c'.uid = Sample.ids .contact 0 :=
  back_is _ _ (by decide +kernel)

/-- A single empty category is lost; a trailing backslash joins two categories. -/
theorem C24_categories : (∃ c', WrittenAndRead Sample.env .v3_0 Sample.ids { uid := q! "u", categories := [[]] } c' ∧ c'.categories = []) ∧
    ∃ c', WrittenAndRead Sample.env .v3_0 Sample.ids { uid := q! "u", categories := [q! "a\\", q! "b"] } c' ∧ c'.categories = [q! "a,b"] :=
  ⟨back_is _ _ (by decide +kernel), back_is _ _ (by decide +kernel)⟩

/-- The sort string of version 4 ends at a comma. -/
theorem C24_sort_string : ∃ c', WrittenAndRead Sample.env .v4_0 Sample.ids { uid := q! "u", familyName := q! "Lee", sortString := q! "Lee,Ann" } c' ∧ c'.sortString = q! "Lee" :=
  back_is _ _ (by decide +kernel)

/-- A preferred e-mail address that is not the first one becomes the first. -/
theorem C24_preferred_email : ∃ c', WrittenAndRead Sample.env .v3_0 Sample.ids
      { uid := q! "u", emails := [{ mail := q! "a@b" }, { mail := q! "c@d" }, { mail := q! "e@f", params := [(q! "type", [q! "PREF"])] }] } c' ∧
    c'.emails.map (·.mail) = [q! "e@f", q! "a@b", q! "c@d"] :=
  back_is _ _ (by decide +kernel)

/-- Two e-mail entries with the same address become one. -/
theorem C24_same_email : ∃ c', WrittenAndRead Sample.env .v3_0 Sample.ids { uid := q! "u", emails := [{ mail := q! "a@b" }, { mail := q! "a@b", params := [(q! "type", [q! "work"])] }] } c' ∧
    c'.emails = [{ mail := q! "a@b", params := [(q! "type", [q! "work"])] }] :=
  back_is _ _ (by decide +kernel)

/-- Field groups come back in the order of their names, not in their order. -/
theorem C24_group_order : ∃ c', WrittenAndRead Sample.env .v3_0 Sample.ids Sample.contact c' ∧
    c'.fieldGroups.map (·.fieldGroupName) = [q! "item1.URL", q! "item2.X-FOO"] ∧ Sample.contact.fieldGroups.map (·.fieldGroupName) = [q! "item2.X-FOO", q! "item1.URL"] := by
  obtain ⟨c', h1, h2⟩ := back_is (v := .v3_0) Sample.contact (fun c' => c'.fieldGroups.map (·.fieldGroupName) = [q! "item1.URL", q! "item2.X-FOO"]) (by decide +kernel)
  exact ⟨c', h1, h2, rfl⟩

/-- A field group named after an address is read as an address. -/
theorem C24_group_address : ∃ c', WrittenAndRead Sample.env .v3_0 Sample.ids { uid := q! "u", fieldGroups := [{ fieldGroupName := q! "item1.ADR", value := q! ";;Street" }] } c' ∧
    c'.fieldGroups = [] ∧ c'.addresses.map (·.street) = [q! "Street"] :=
  back_is _ _ (by decide +kernel)

/-- Calendar URLs come back grouped by their type. -/
theorem C24_calendar_order : ∃ c', WrittenAndRead Sample.env .v4_0 Sample.ids
      { uid := q! "u", calendarUrls := [{ url := q! "http://a", type := 1 }, { url := q! "http://b", type := 2 }, { url := q! "http://c", type := 1 }] } c' ∧
    c'.calendarUrls.map (·.url) = [q! "http://b", q! "http://a", q! "http://c"] :=
  back_is _ _ (by decide +kernel)

/-- In version 2.1 the parameters of a title that is not plain ASCII gain its coding. -/
theorem C24_title_2_1 : ∃ c', WrittenAndRead Sample.env .v2_1 Sample.ids { uid := q! "u", titles := [{ text := [0xe9] }] } c' ∧
    c'.titles = [{ text := [0xe9], params := [(q! "charset", [q! "UTF-8"]), (q! "encoding", [q! "QUOTED-PRINTABLE"])] }] :=
  back_is _ _ (by decide +kernel)

/-- A parameter without values gains its own name as type. -/
theorem C24_empty_parameter : ∃ c', WrittenAndRead Sample.env .v3_0 Sample.ids { uid := q! "u", titles := [{ text := q! "T", params := [(q! "x", [])] }] } c' ∧
    c'.titles ≠ [{ text := q! "T", params := [(q! "x", [])] }] :=
  back_is _ _ (by decide +kernel)

/-- An organisation without text is lost, and with it the department. -/
theorem C24_empty_organisation : ∃ c', WrittenAndRead Sample.env .v3_0 Sample.ids { uid := q! "u", department := q! "D" } c' ∧ c'.department = [] :=
  back_is _ _ (by decide +kernel)

/-- A label that is not the first of its type of address goes to the first. -/
theorem C24_label : ∃ c', WrittenAndRead Sample.env .v3_0 Sample.ids
      { uid := q! "u", addresses := [{ empty := false, id := q! "x", type := 16, street := q! "A" }, { empty := false, id := q! "y", type := 16, street := q! "B", label := q! "L" }] } c' ∧
    c'.addresses.map (fun a => (a.street, a.label)) = [(q! "A", q! "L"), (q! "B", [])] :=
  back_is _ _ (by decide +kernel)

end KC
