import Verif.Model.Converter
import Verif.Lemmas.Compute
/-
  C56: reading a single card gives the first card of the text, an empty contact if there is none; dropped data is accepted only when it
  holds at least one contact.
-/
namespace KC
open Spec

/-! ### the contacts in a text -/

/-- The text "end:vcard", in any letter case, is nowhere in the text. -/
def NoCardEnd (text : QByteArray) : Prop := ∀ i, toLowerB (mid text i 9) ≠ b! "end:vcard"

/-- a piece of the text -/
def PieceOf (text cur : QByteArray) : Prop := ∃ i, cur <+: text.drop i

theorem piece_mid (text : QByteArray) (a b : Int) : PieceOf text (chopCR (midI text a b)) := by
  have h : midI text a b <+: text.drop a.toNat := by
    unfold midI
    split
    · exact List.prefix_refl _
    · exact List.take_prefix _ _
  refine ⟨a.toNat, ?_⟩
  unfold chopCR
  split
  · unfold chop1; exact (List.dropLast_prefix _).trans h
  · exact h

theorem no_end {text cur : QByteArray} (h : NoCardEnd text) (hp : PieceOf text cur) : startsWithCI (b! "end:vcard") cur = false := by
  obtain ⟨i, hp⟩ := hp
  rw [Bool.eq_false_iff]
  intro hc
  apply h i
  unfold startsWithCI at hc
  have hc : toLowerB (cur.take 9) = b! "end:vcard" := by simpa using hc
  have hl : 9 ≤ cur.length := by
    have := congrArg List.length hc
    unfold toLowerB at this
    rw [List.length_map, List.length_take] at this
    have e : (b! "end:vcard").length = 9 := rfl
    omega
  unfold mid
  rw [← hc]
  congr 1
  obtain ⟨t, ht⟩ := hp
  rw [← ht, List.take_append_of_le_length hl]

theorem joinQP_piece {text : QByteArray} (n : Nat) (value : QByteArray) (σ : Cursor) (hσ : PieceOf text σ.cur) {v : QByteArray} {σ' : Cursor}
    (h : joinQP text n value σ = some (v, σ')) : PieceOf text σ'.cur := by
  induction n generalizing value σ with
  | zero => cases h
  | succ n ih =>
    unfold joinQP at h
    split at h
    · refine ih _ _ ?_ h
      simp only
      split
      · exact piece_mid _ _ _
      · exact hσ
    · cases h; exact hσ

theorem parseLine_piece {E : Codecs} {text : QByteArray} {fuel : Nat} {cl : QByteArray} {σ σ' : Cursor} {l : VCardLine} (hσ : PieceOf text σ.cur)
    (h : parseLine E text fuel cl σ = some (l, σ')) : PieceOf text σ'.cur := by
  unfold parseLine at h
  split at h
  · cases h; exact hσ
  · simp only at h
    split at h
    · split at h
      · cases h
      · rename_i hj
        cases h
        exact joinQP_piece _ _ _ hσ hj
    · cases h; exact hσ

theorem markers_out {text cur : QByteArray} (h : NoCardEnd text) (hp : PieceOf text cur) (r : Reader) : (markers cur r).out = r.out := by
  unfold markers
  split
  · rfl
  · rw [no_end h hp]; rfl

theorem readLoop_out {E : Codecs} {text : QByteArray} (h : NoCardEnd text) (fuel : Nat) (r : Reader) (cards : List VCard)
    (hr : readLoop E text fuel r = some cards) : cards = r.out := by
  induction fuel generalizing r with
  | zero => cases hr
  | succ n ih =>
    unfold readLoop at hr
    split at hr
    · exact (Option.some.inj hr).symm
    · cases hb : readBody E text n r with
      | none => rw [hb] at hr; cases hr
      | some r' =>
        rw [hb] at hr
        rw [ih _ hr]
        show r'.out = r.out
        unfold readBody at hb
        simp only at hb
        split at hb
        · cases hb; rfl
        · split at hb
          · cases hb; rfl
          · split at hb
            · split at hb
              · cases hb
              · rename_i hl
                cases hb
                exact markers_out h (parseLine_piece (piece_mid _ _ _) hl) _
            · cases hb
              exact markers_out h (piece_mid _ _ _) _

/-- C56: a text without the end of a card gives no contact, however it is read, and no undefined behaviour. -/
theorem C56_no_card (E : ToolEnv) (ids : IdKind → Nat → QString) (fuel : Nat) (text : QByteArray) (h : NoCardEnd text) :
    parseContacts E ids fuel text = .ok [] ∨ parseContacts E ids fuel text = .unfinished := by
  unfold parseContacts
  cases hp : parseVCards E.toCodecs fuel text with
  | none => exact .inr rfl
  | some cards =>
    unfold parseVCards at hp
    rw [readLoop_out h fuel _ cards hp]
    exact .inl rfl

/-! ### one contact -/

/-- C56: reading a single card of a text of one or more written contacts gives the first of them. -/
theorem C56_first (E : ToolEnv) (v : Version) (ids : IdKind → Nat → QString) (hinj : ∀ k i j, ids k i = ids k j → i = j) (c : Contact) (cs : List Contact)
    (hR : ∀ d ∈ c :: cs, Readable E v d) (hu : ∀ d ∈ c :: cs, ∀ i, d.uid ≠ ids .contact i) :
    ∃ n, ∀ fuel, n ≤ fuel → parseContact E ids fuel (createContacts E v false (c :: cs)) = .ok (c.restored E v ids 0 0 0) := by
  obtain ⟨cs', h1, n, h2⟩ := C24_contacts E v ids hinj (c :: cs) hR hu
  cases h1 with
  | @cons _ _ _ _ c' _ _ b d =>
    refine ⟨n, fun fuel hf => ?_⟩
    unfold parseContact
    rw [h2 fuel hf, ← b]

/-- C56: it is the first contact of what reading all cards gives, whatever the text. -/
theorem C56_first_of_all (E : ToolEnv) (ids : IdKind → Nat → QString) (fuel : Nat) (text : QByteArray) (cs : List Contact)
    (h : parseContacts E ids fuel text = .ok cs) : ∃ c, parseContact E ids fuel text = .ok c ∧ (∀ d, cs.head? = some d → c = d) ∧
      (cs = [] → c.empty = true ∧ c = Contact.new c.uid) := by
  unfold parseContact
  rw [h]
  cases cs with
  | nil => exact ⟨_, rfl, by simp, fun _ => ⟨rfl, rfl⟩⟩
  | cons c cs => exact ⟨c, rfl, by simp, by simp⟩

/-- C56: a text without the end of a card gives an empty contact. -/
theorem C56_empty (E : ToolEnv) (ids : IdKind → Nat → QString) (fuel : Nat) (text : QByteArray) (h : NoCardEnd text) (c : Contact)
    (hc : parseContact E ids fuel text = .ok c) : c.empty = true := by
  unfold parseContact at hc
  rcases C56_no_card E ids fuel text h with e | e <;> rw [e] at hc
  · cases hc; rfl
  · cases hc

/-! ### drag and drop -/

/-- C56: dropped data is accepted exactly if one of its formats is suitable and the data of that format holds at least one contact. -/
theorem C56_drag (E : ToolEnv) (ids : IdKind → Nat → QString) (inherits : QString → Bool) (fuel : Nat) (md : Option MimeData) (cs : List Contact) :
    contactsFrom E ids inherits fuel md = .done true (some cs) ↔ cs ≠ [] ∧ canDecode inherits md = true ∧ ∃ f, f = findCompatibleMimeType inherits md ∧
      ∃ m, md = some m ∧ parseContacts E ids fuel (m.data f) = .ok cs := by
  unfold contactsFrom canDecode
  cases md with
  | none => simp [findCompatibleMimeType]
  | some m =>
    simp only [Option.getD_some]
    split
    · rename_i h; simp [h]
    · rename_i h
      cases hp : parseContacts E ids fuel (m.data (findCompatibleMimeType inherits (some m))) with
      | unfinished => simp [hp]
      | undefined => simp [hp]
      | ok ds =>
        simp only [DragOutcome.done.injEq, Option.some.injEq]
        constructor
        · rintro ⟨h1, rfl⟩
          refine ⟨by rintro rfl; simp at h1, by simpa using h, _, rfl, m, rfl, hp⟩
        · rintro ⟨h1, -, f, rfl, m', hm, h3⟩
          cases hm
          rw [hp] at h3
          cases h3
          refine ⟨?_, rfl⟩
          cases cs with
          | nil => exact absurd rfl h1
          | cons => rfl

/-- C56: the suitable format is one of the offered ones, "text/directory" before all others. -/
theorem C56_format (inherits : QString → Bool) (m : MimeData) (h : canDecode inherits (some m) = true) :
    findCompatibleMimeType inherits (some m) ∈ m.map (·.1) ∧
    (q! "text/directory" ∈ m.map (·.1) → findCompatibleMimeType inherits (some m) = q! "text/directory") ∧
    (q! "text/directory" ∉ m.map (·.1) → inherits (findCompatibleMimeType inherits (some m)) = true) := by
  unfold canDecode findCompatibleMimeType at *
  by_cases hm : (m.any fun p => p.1 = mimeType) = true
  · have hin : mimeType ∈ m.map (·.1) := by
      obtain ⟨p, hp, e⟩ := List.any_eq_true.1 hm
      exact List.mem_map.2 ⟨p, hp, by simpa using e⟩
    simp only [if_pos hm]
    exact ⟨hin, fun _ => rfl, fun h => absurd hin h⟩
  · have hin : mimeType ∉ m.map (·.1) := by
      intro hin
      obtain ⟨p, hp, e⟩ := List.mem_map.1 hin
      exact hm (List.any_eq_true.2 ⟨p, hp, by simpa using e⟩)
    simp only [if_neg hm] at h ⊢
    cases hf : (m.map (·.1)).find? inherits with
    | none => rw [hf] at h; simp at h
    | some f =>
      exact ⟨List.mem_of_find?_eq_some hf, fun h => absurd h hin, fun _ => List.find?_some hf⟩

/-- C56: data without a contact is never accepted. -/
theorem C56_drag_no_card (E : ToolEnv) (ids : IdKind → Nat → QString) (inherits : QString → Bool) (fuel : Nat) (m : MimeData)
    (h : ∀ p ∈ m, NoCardEnd p.2) (r : Option (List Contact)) : contactsFrom E ids inherits fuel (some m) ≠ .done true r := by
  have hd : ∀ f, NoCardEnd (m.data f) := by
    intro f
    unfold MimeData.data
    cases hf : m.find? fun p => decide (p.1 = f) with
    | none =>
      intro i
      have : mid ([] : QByteArray) i 9 = [] := by simp [mid]
      simp only [Option.map_none, Option.getD_none]
      rw [this]; decide
    | some p => exact h p (List.mem_of_find?_eq_some hf)
  intro hc
  unfold contactsFrom at hc
  simp only [Option.getD_some] at hc
  split at hc
  · cases hc
  · rcases C56_no_card E ids fuel _ (hd (findCompatibleMimeType inherits (some m))) with e | e <;> rw [e] at hc <;> cases hc

theorem MimeData.data_setData (m : MimeData) (f : QString) (d : QByteArray) : (m.setData f d).data f = d ∧ ((m.setData f d).any fun p => p.1 = f) = true := by
  unfold MimeData.setData MimeData.data
  split
  · rename_i h
    induction m with
    | nil => simp at h
    | cons p m ih =>
      by_cases e : p.1 = f
      · simp [e]
      · have h' : (m.any fun p => decide (p.1 = f)) = true := by simpa [e] using h
        obtain ⟨h1, h2⟩ := ih h'
        constructor
        · rw [List.map_cons, if_neg e, List.find?_cons]
          simp only [e, decide_false]
          exact h1
        · rw [List.map_cons, List.any_cons, h2, Bool.or_true]
  · rename_i h
    induction m with
    | nil => simp
    | cons p m ih =>
      have e : p.1 ≠ f := by rintro rfl; simp at h
      have h' : ¬ (m.any fun p => decide (p.1 = f)) = true := by simpa [e] using h
      obtain ⟨h1, h2⟩ := ih h'
      constructor
      · rw [List.cons_append, List.find?_cons]
        simp only [e, decide_false]
        exact h1
      · rw [List.cons_append, List.any_cons, h2, Bool.or_true]

theorem MimeData.data_setData_other (m : MimeData) (f g : QString) (d : QByteArray) (h : g ≠ f) : (m.setData f d).data g = m.data g := by
  unfold MimeData.setData MimeData.data
  split
  · congr 2
    clear * - h
    induction m with
    | nil => rfl
    | cons p m ih =>
      rw [List.map_cons]
      by_cases e : p.1 = f
      · have h1 : p.1 ≠ g := fun e' => h (e'.symm.trans e)
        rw [if_pos e, List.find?_cons_of_neg (by simpa using fun e' => h e'.symm), List.find?_cons_of_neg (by simpa using h1)]
        exact ih
      · rw [if_neg e]
        by_cases e2 : p.1 = g
        · rw [List.find?_cons_of_pos (by simpa using e2), List.find?_cons_of_pos (by simpa using e2)]
        · rw [List.find?_cons_of_neg (by simpa using e2), List.find?_cons_of_neg (by simpa using e2)]
          exact ih
  · rw [List.find?_append]
    have : ([(f, d)] : MimeData).find? (fun p => decide (p.1 = g)) = none := by
      rw [List.find?_cons_of_neg (by simpa using fun e : f = g => h e.symm)]; rfl
    rw [this, Option.or_none]

/-- C56: contacts put into a drag object come out of it, whatever else it offers; no contacts are not put. -/
theorem C56_drag_roundtrip (E : ToolEnv) (ids : IdKind → Nat → QString) (hinj : ∀ k i j, ids k i = ids k j → i = j) (inherits : QString → Bool)
    (md : MimeData) (cs : List Contact) (hR : ∀ d ∈ cs, Readable E .v3_0 d) (hu : ∀ d ∈ cs, ∀ i, d.uid ≠ ids .contact i) :
    ((populateContacts E md cs).1 = true ↔ cs ≠ []) ∧
    (cs ≠ [] → canDecode inherits (some (populateContacts E md cs).2) = true ∧ ∃ cs', ReadAs E .v3_0 ids 0 0 0 cs cs' ∧ ∃ n, ∀ fuel, n ≤ fuel →
      contactsFrom E ids inherits fuel (some (populateContacts E md cs).2) = .done true (some cs')) ∧
    (cs = [] → (populateContacts E md cs).2 = md) := by
  have hne : (createContacts E .v3_0 false cs).isEmpty = cs.isEmpty := by
    cases cs with
    | nil => rfl
    | cons c cs => rfl
  refine ⟨?_, ?_, ?_⟩
  · unfold populateContacts
    simp only [hne]
    cases cs <;> simp [populateBytes]
  · intro h
    have hp : (populateContacts E md cs).2 = md.setData mimeType (createContacts E .v3_0 false cs) := by
      unfold populateContacts
      simp only [hne]
      cases cs with
      | nil => exact absurd rfl h
      | cons => rfl
    rw [hp]
    obtain ⟨h1, h2⟩ := MimeData.data_setData md mimeType (createContacts E .v3_0 false cs)
    have hf : findCompatibleMimeType inherits (some (md.setData mimeType (createContacts E .v3_0 false cs))) = mimeType := by
      unfold findCompatibleMimeType
      simp only
      rw [if_pos h2]
    refine ⟨by unfold canDecode; rw [hf]; rfl, ?_⟩
    obtain ⟨cs', h3, n, h4⟩ := C24_contacts E .v3_0 ids hinj cs hR hu
    refine ⟨cs', h3, n, fun fuel hn => ?_⟩
    unfold contactsFrom
    simp only [hf, Option.getD_some, h1, h4 fuel hn]
    rw [if_neg (by decide)]
    congr 1
    cases h3 with
    | nil => exact absurd rfl h
    | cons => rfl
  · rintro rfl; rfl

/-- C56: contacts are put under the format "text/directory", as a vCard text of version 3.0; the other formats are left alone. -/
theorem C56_put (E : ToolEnv) (md : MimeData) (cs : List Contact) (h : cs ≠ []) :
    (populateContacts E md cs).2.data (q! "text/directory") = createContacts E .v3_0 false cs ∧
    ∀ f, f ≠ q! "text/directory" → (populateContacts E md cs).2.data f = md.data f := by
  have hp : (populateContacts E md cs).2 = md.setData (q! "text/directory") (createContacts E .v3_0 false cs) := by
    cases cs with
    | nil => exact absurd rfl h
    | cons => rfl
  rw [hp]
  exact ⟨(MimeData.data_setData md _ _).1, fun f hf => MimeData.data_setData_other md _ f _ hf⟩

/-- C56: text is put under the same format. -/
theorem C56_put_text (md : MimeData) (text : QByteArray) : (populateBytes md text).1 = true ∧ (populateBytes md text).2.data (q! "text/directory") = text ∧
    ∀ f, f ≠ q! "text/directory" → (populateBytes md text).2.data f = md.data f :=
  ⟨rfl, (MimeData.data_setData md _ _).1, fun f hf => MimeData.data_setData_other md _ f _ hf⟩

/-- C56: text is taken from dropped data exactly if one of its formats is suitable; it is accepted exactly if it is not empty. Without a suitable
    format nothing is taken and nothing is accepted. -/
theorem C56_text (inherits : QString → Bool) (md : Option MimeData) :
    (canDecode inherits md = false → bytesFrom inherits md = (false, none)) ∧
    (canDecode inherits md = true → ∃ m, md = some m ∧ ∃ p ∈ m, p.1 = findCompatibleMimeType inherits md ∧
      bytesFrom inherits md = (decide (m.data p.1 ≠ []), some (m.data p.1))) := by
  refine ⟨fun h => ?_, fun h => ?_⟩
  · unfold canDecode at h
    unfold bytesFrom
    simp only
    rw [if_pos (by simpa using h)]
  · cases md with
    | none => simp [canDecode, findCompatibleMimeType] at h
    | some m =>
      obtain ⟨p, hp, e⟩ := List.mem_map.1 (C56_format inherits m h).1
      refine ⟨m, rfl, p, hp, e, ?_⟩
      unfold canDecode at h
      unfold bytesFrom
      simp only
      rw [if_neg (by simpa using h), ← e]
      simp only [Option.getD_some]
      cases m.data p.1 <;> rfl

/-- C56: a text put into a drag object comes out of it, if it is not empty. -/
theorem C56_text_roundtrip (inherits : QString → Bool) (md : MimeData) (text : QByteArray) (h : text ≠ []) :
    bytesFrom inherits (some (populateBytes md text).2) = (true, some text) := by
  obtain ⟨h1, h2⟩ := MimeData.data_setData md mimeType text
  have hf : findCompatibleMimeType inherits (some (md.setData mimeType text)) = mimeType := by
    unfold findCompatibleMimeType
    simp only
    rw [if_pos h2]
  unfold bytesFrom populateBytes
  simp only [hf, Option.getD_some, h1]
  rw [if_neg (by decide)]
  cases text with
  | nil => exact absurd rfl h
  | cons => rfl

/-- Non-vacuity. -/
example : NoCardEnd (b! "BEGIN:VCARD\nFN:Ann\n") := by
  intro i
  by_cases h : i < 19
  · have : ∀ i < 19, toLowerB (mid (b! "BEGIN:VCARD\nFN:Ann\n") i 9) ≠ b! "end:vcard" := by decide +kernel
    exact this i h
  · have : mid (b! "BEGIN:VCARD\nFN:Ann\n") i 9 = [] := by
      unfold mid
      rw [List.drop_eq_nil_of_le (by have : (b! "BEGIN:VCARD\nFN:Ann\n").length = 19 := rfl; omega)]; rfl
    rw [this]; decide

example : ∃ n, ∀ fuel, n ≤ fuel → ∃ c, parseContact Sample.env Sample.ids fuel (createContacts Sample.env .v4_0 false [Sample.contact, { Sample.contact with note := q! "2" }]) = .ok c ∧
    c.note = Sample.contact.note := by
  have h2 : Readable Sample.env .v4_0 { Sample.contact with note := q! "2" } :=
    { C24_sample_readable .v4_0 with note := coded_plain (by unfold PlainAscii; decide) (asciiSafe_safe (by decide)) }
  obtain ⟨n, h⟩ := C56_first Sample.env .v4_0 Sample.ids Sample.ids_inj Sample.contact [{ Sample.contact with note := q! "2" }]
    (by intro d hd; rcases List.mem_cons.1 hd with rfl | hd
        · exact C24_sample_readable _
        · rw [List.mem_singleton.1 hd]; exact h2)
    (by intro d hd; rcases List.mem_cons.1 hd with rfl | hd
        · exact C24_sample_uid
        · rw [List.mem_singleton.1 hd]; exact C24_sample_uid)
  exact ⟨n, fun fuel hf => ⟨_, h fuel hf, rfl⟩⟩

/-- "Holds at least one contact" is less than it seems: the end of a card that never began counts as a contact. -/
theorem C56_stray_end : ∃ c, (∃ n, ∀ fuel, n ≤ fuel → parseContacts Sample.env Sample.ids fuel (b! "END:VCARD\n") = .ok [c]) ∧ c.empty = true :=
  contactsIn_one (fun c => c.empty = true) (by decide +kernel)

end KC
