import Verif.Spec.Sample
import Verif.Lemmas.CardNames
import Verif.Props.C14
/-
  C80: a written card keeps to the properties of its version of vCard, and says each thing about the contact once.
-/
namespace KC
open KC.Spec

/-- The lines of a written card: the text is BEGIN, these lines, END; they are the lines of the contact in another order. -/
theorem written_lines (E : ToolEnv) (v : Version) (ex : Bool) (c : Contact) :
    ∃ lines : List VCardLine, createContacts E v ex [c] = b! "BEGIN:VCARD\r\n" ++ lines.flatMap (writeLine E.toCodecs) ++ b! "END:VCARD\r\n\r\n" ∧
      lines.Perm (contactLines E v ex c) ∧ ∃ rest, lines = versionLines v ++ rest := by
  obtain ⟨names, ht, hnd, hall, hv, _⟩ := C14_order E.toCodecs (contactLines E v ex c)
  refine ⟨names.flatMap fun n => (contactLines E v ex c).filter fun l => decide (l.identifier = n), ?_, ?_, ?_⟩
  · rw [List.flatMap_assoc]
    exact ht
  · exact perm_by_name names hnd _ fun l hl => (hall _).2 ⟨l, hl, rfl⟩
  · have hmem : q! "VERSION" ∈ names := (hall _).2 ⟨_, by
      unfold contactLines contactSections versionLines
      rw [List.flatten_cons]
      exact List.mem_append_left _ (List.mem_singleton.2 rfl), rfl⟩
    obtain ⟨rest, e, _⟩ := hv hmem
    rw [e, List.flatMap_cons]
    have h1 : (contactLines E v ex c).filter (fun l => decide (l.identifier = q! "VERSION")) =
        versionLines v ++ (contactSections E v ex c).tail.flatten.filter fun l => decide (l.identifier = q! "VERSION") := by
      unfold contactLines contactSections
      rw [List.flatten_cons, List.filter_append, filter_named (named_version v), if_pos rfl]
      rfl
    rw [h1, List.append_assoc]
    exact ⟨_, rfl⟩

/-- **C80** (names). The text written for a contact is BEGIN:VCARD, a sequence of property lines and END:VCARD. Every line is a property of the
    version of vCard the card is written in, an extension, a line of one of the contact's field groups, or – version 4.0 – an embedded picture.
    Missing: in versions 2.1 and 3.0 the four properties of `laterNames` can occur too (`C80_later_false`). -/
theorem C80_names_partial (E : ToolEnv) (v : Version) (ex : Bool) (c : Contact) :
    ∃ lines : List VCardLine, createContacts E v ex [c] = b! "BEGIN:VCARD\r\n" ++ lines.flatMap (writeLine E.toCodecs) ++ b! "END:VCARD\r\n\r\n" ∧
      ∀ l ∈ lines, l.identifier ∈ standardNames v ∨ l.identifier ∈ laterNames v ∨ OwnName c l.identifier ∨ (v = .v4_0 ∧ EmbeddedPicture l.identifier) := by
  obtain ⟨lines, ht, hp, _⟩ := written_lines E v ex c
  exact ⟨lines, ht, fun l hl => contact_names E v ex c l (hp.mem_iff.1 hl)⟩

/-- In version 4.0 nothing is missing: a contact without field groups is written with properties of RFC 6350, extensions and embedded pictures only. -/
theorem C80_names_v4 (E : ToolEnv) (ex : Bool) (c : Contact) (hg : c.fieldGroups = []) :
    ∃ lines : List VCardLine, createContacts E .v4_0 ex [c] = b! "BEGIN:VCARD\r\n" ++ lines.flatMap (writeLine E.toCodecs) ++ b! "END:VCARD\r\n\r\n" ∧
      ∀ l ∈ lines, l.identifier ∈ standardNames .v4_0 ∨ q! "X-" <+: l.identifier ∨ EmbeddedPicture l.identifier := by
  obtain ⟨lines, ht, h⟩ := C80_names_partial E .v4_0 ex c
  refine ⟨lines, ht, fun l hl => ?_⟩
  rcases h l hl with h | h | (h | ⟨g, hg', _⟩) | h
  · exact Or.inl h
  · cases h
  · exact Or.inr (Or.inl h)
  · rw [hg] at hg'; cases hg'
  · exact Or.inr (Or.inr h.2)

/-- **C80** (once). Each property that says one thing about the contact is on at most one line. -/
theorem C80_once (E : ToolEnv) (v : Version) (ex : Bool) (c : Contact) :
    ∃ lines : List VCardLine, createContacts E v ex [c] = b! "BEGIN:VCARD\r\n" ++ lines.flatMap (writeLine E.toCodecs) ++ b! "END:VCARD\r\n\r\n" ∧
      ∀ n ∈ singleNames, (∀ g ∈ c.fieldGroups, g.fieldGroupName ≠ n) → (lines.filter fun l => decide (l.identifier = n)).length ≤ 1 := by
  obtain ⟨lines, ht, hp, _⟩ := written_lines E v ex c
  refine ⟨lines, ht, fun n hn hg => ?_⟩
  rw [(hp.filter _).length_eq]
  exact contact_single E v ex c n hn hg

/-- **C80** (version). Every card begins with the number of its version. -/
theorem C80_version (E : ToolEnv) (v : Version) (ex : Bool) (c : Contact) :
    b! "BEGIN:VCARD\r\nVERSION:" ++ (match v with | .v2_1 => b! "2.1" | .v3_0 => b! "3.0" | .v4_0 => b! "4.0") ++ b! "\r\n" <+: createContacts E v ex [c] := by
  obtain ⟨lines, ht, _, rest, rfl⟩ := written_lines E v ex c
  rw [ht, List.flatMap_append]
  have : (versionLines v).flatMap (writeLine E.toCodecs) =
      b! "VERSION:" ++ (match v with | .v2_1 => b! "2.1" | .v3_0 => b! "3.0" | .v4_0 => b! "4.0") ++ b! "\r\n" := by
    cases v <;> rfl
  rw [this]
  refine ⟨rest.flatMap (writeLine E.toCodecs) ++ b! "END:VCARD\r\n\r\n", ?_⟩
  cases v <;> simp

/-- **C80** (N). Versions 3.0 and 4.0 require N. It is always written, with the five parts of the name. -/
theorem C80_n (E : ToolEnv) (v : Version) (hv : v ≠ .v2_1) (ex : Bool) (c : Contact) (hs : v = .v4_0 → c.sortString = []) :
    ∃ before line after, createContacts E v ex [c] = before ++ line ++ after ∧
      unfold line = b! "N:" ++ addEscapes (toUtf8 (joinEscaped (qc! ';') [c.familyName, c.givenName, c.additionalName, c.prefix_, c.suffix])) false := by
  obtain ⟨lines, ht, hp, _⟩ := written_lines E v ex c
  have e : nLines v c = [textLine (q! "N") (joinEscaped (qc! ';') [c.familyName, c.givenName, c.additionalName, c.prefix_, c.suffix])] := by
    unfold nLines encoded
    by_cases h4 : v = .v4_0
    · simp [hv, hs h4]
    · simp [hv, h4]
  have hm : textLine (q! "N") (joinEscaped (qc! ';') [c.familyName, c.givenName, c.additionalName, c.prefix_, c.suffix]) ∈ lines := by
    rw [hp.mem_iff]
    unfold contactLines
    rw [List.mem_flatten]
    exact ⟨nLines v c, by simp [contactSections], by rw [e]; simp⟩
  obtain ⟨pre, post, rfl⟩ := List.append_of_mem hm
  have hne : joinEscaped (qc! ';') [c.familyName, c.givenName, c.additionalName, c.prefix_, c.suffix] ≠ [] := by
    simp [joinEscaped, join]
  have := (C14_text_line_written E.toCodecs (textLine (q! "N") _) _ rfl hne (by intro x; simp [textLine]) (by
    show (10 : UInt8) ∉ toLatin1 (q! "N"); decide)).1
  refine ⟨b! "BEGIN:VCARD\r\n" ++ pre.flatMap (writeLine E.toCodecs), writeLine E.toCodecs _, post.flatMap (writeLine E.toCodecs) ++ b! "END:VCARD\r\n\r\n", ?_, this⟩
  rw [ht, List.flatMap_append, List.flatMap_cons]
  simp only [List.append_assoc]

/-- **C80** (cards). A list of contacts is written card by card. -/
theorem C80_cards (E : ToolEnv) (v : Version) (ex : Bool) (cs : List Contact) : createContacts E v ex cs = cs.flatMap fun c => createContacts E v ex [c] := by
  unfold createContacts createVCardText
  rw [List.flatMap_map]
  apply List.flatMap_congr
  intro c _
  simp

/-- The hypotheses are met: a full contact, and what is written for it. -/
example : { Sample.contact with fieldGroups := [] }.fieldGroups = [] ∧ Sample.contact.fieldGroups ≠ [] ∧ (∀ n ∈ singleNames, ∀ g ∈ Sample.contact.fieldGroups, g.fieldGroupName ≠ n) ∧
    b! "BEGIN:VCARD\r\nVERSION:3.0\r\n" <+: createContacts Sample.env .v3_0 false [Sample.contact] ∧
    b! "\r\nN:Lee" <:+: createContacts Sample.env .v3_0 false [Sample.contact] := by decide +kernel

/-- The four properties of later versions do occur, each in a card of a version that does not have it. -/
theorem C80_later_false (ex : Bool) :
    (∀ v ∈ [Version.v2_1, .v3_0], b! "RELATED:friend\r\n" <:+: createContacts Sample.env v ex [{ uid := q! "u", relationships := [{ text := q! "friend" }] }]) ∧
    b! "NAME:n\r\n" <:+: createContacts Sample.env .v2_1 ex [{ uid := q! "u", name := q! "n" }] ∧
    b! "SOURCE:http://a\r\n" <:+: createContacts Sample.env .v2_1 ex [{ uid := q! "u", sources := [q! "http://a"] }] ∧
    b! "IMPP:xmpp:a\r\n" <:+: createContacts Sample.env .v2_1 ex [{ uid := q! "u", impps := [{ url := q! "xmpp:a" }] }] := by
  cases ex <;> decide +kernel

/-- Versions 3.0 and 4.0 require FN. A contact without a formatted name is written without it. -/
theorem C80_fn_false (ex : Bool) : ¬ b! "FN" <:+: createContacts Sample.env .v4_0 ex [{ uid := q! "u", familyName := q! "Lee", givenName := q! "Ann" }] ∧
    ¬ b! "FN" <:+: createContacts Sample.env .v3_0 ex [{ uid := q! "u", familyName := q! "Lee", givenName := q! "Ann" }] := by
  cases ex <;> decide +kernel

end KC
