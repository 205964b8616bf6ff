import Verif.Spec.Filled
import Verif.Props.C91
/-
  C93. Entries of a contact that have no content (an empty title, a phone number without digits, an address without any component, a key without data,
  ...) leave no trace in an exported vCard: the text is, byte for byte, that of the contact without these entries.

  Proved for all contacts, versions, both names of custom fields and any number of contacts in one text (`C93`); so a contact that a version can carry
  but for such entries is read back without them and written to the same bytes again (`C93_read`).
-/
namespace KC
open Spec

/-! ### Proof -/

section
variable {E : ToolEnv} {v : Version}

/-- The line has no content. -/
def Void (l : VCardLine) : Prop := (l.value = .str [] ∨ l.value = .invalid) ∧ l.base64Value = []

theorem void_text (h : NothingFromNothing E.toCodecs) {l : VCardLine} (hl : Void l) (id : QString) : textNamed E.toCodecs id l = [] := by
  unfold textNamed
  split
  · unfold writeLine
    rcases hl with ⟨hv | hv, hb⟩
    · have hw : (writeValue E.toCodecs l).1 = [] := by
        unfold writeValue
        simp only [hv, QVariant.toString]
        have hu : toUtf8 [] = [] := rfl
        have : ∀ (x : QByteArray × Bool), x.1 = [] →
            (if q! "encoding" ∈ l.parameterList then
              if toLowerQ (l.parameter (q! "encoding")) = q! "b" then (toBase64 x.1, false)
              else if toLowerQ (l.parameter (q! "encoding")) = q! "quoted-printable" then (E.qpEncode x.1, false) else ([], x.2)
            else x : QByteArray × Bool).1 = [] := by
          intro x hx
          rw [hx]
          split
          · split
            · rfl
            · split
              · exact h.qp
              · rfl
          · exact hx
        apply this
        split
        · split
          · rename_i enc he
            exact h.encoder _ _ he
          · rfl
        · rfl
      have hc : writeContent E.toCodecs l = none := by
        unfold writeContent
        simp only [hw]
        cases excludesComma l <;> rfl
      rw [hv]
      simp only [hc]
    · rw [hv]
      simp [hb]
  · rfl

theorem Void.add {l : VCardLine} (h : Void l) (k x : QString) : Void (l.addParameter k x) := h

theorem Void.foldl {α : Type} (f : VCardLine → α → VCardLine) (hf : ∀ l a, Void l → Void (f l a)) (m : List α) {l : VCardLine} (h : Void l) : Void (m.foldl f l) := by
  induction m generalizing l with
  | nil => exact h
  | cons a m ih => exact ih (hf l a h)

theorem Void.adds {l : VCardLine} (h : Void l) (ps : ParameterMap) : Void (l.addParameters ps) := by
  refine Void.foldl (fun (l : VCardLine) (p : QString × List QString) => l.addParameter p.1 (join [qc! ','] p.2)) ?_ ps h
  exact fun _ _ h => h

theorem Void.tool {l : VCardLine} (h : Void l) (k : QString) (xs : List QString) : Void (toolAddParameter l v k xs) := by
  unfold toolAddParameter
  split
  · exact Void.foldl (fun (l : VCardLine) s => l.addParameter s []) (fun _ _ h => h) xs h
  · exact h
  · split <;> exact h

theorem Void.enc {l : VCardLine} (h : Void l) (s : QString) : Void (encoded v s l) := by
  unfold encoded
  split <;> exact h

theorem void_empty (id : QString) : Void (textLine id []) := ⟨.inl rfl, rfl⟩

theorem dropped (h : NothingFromNothing E.toCodecs) {α : Type} (m : List α) (P : α → Bool) (f : α → VCardLine) (hf : ∀ x, P x = false → Void (f x)) (n : QString) :
    ((m.filter P).map f).flatMap (textNamed E.toCodecs n) = (m.map f).flatMap (textNamed E.toCodecs n) := by
  rw [List.flatMap_map, List.flatMap_map, flat_dropped]
  intro x _ hx
  exact void_text h (hf x hx) n

theorem joinEscaped_empty (c : UInt16) : joinEscaped c [[]] = [] := rfl

theorem void_picture (id : QString) (p : Picture) (h : p.isEmpty = true) : Void (createPicture E id p v) := by
  unfold createPicture
  simp only [h, if_true]
  exact ⟨.inr rfl, rfl⟩

theorem void_picture4 (id : QString) (p : Picture) (h : p.isEmpty = true) : Void (createPicturev4 E id p) := by
  unfold Picture.isEmpty at h
  unfold createPicturev4
  cases hi : p.isIntern with
  | false =>
    simp only [hi, Bool.false_and, Bool.or_false, Bool.not_false, Bool.true_and, List.isEmpty_iff] at h
    simp only [Bool.false_eq_true, if_false, h]
    exact void_empty id
  | true =>
    simp only [hi, Bool.not_true, Bool.false_and, Bool.false_or, Bool.true_and, Bool.and_eq_true, List.isEmpty_iff, Option.isNone_iff_eq_none] at h
    have : p.rawBytes E = [] := by
      unfold Picture.rawBytes
      rw [h.1, h.2]
    simp only [if_true, this]
    exact ⟨.inr rfl, rfl⟩

theorem void_sound (s : Sound) (h : s.isEmpty = true) : Void (createSound s v) := by
  unfold Sound.isEmpty at h
  unfold createSound
  cases hi : s.isIntern with
  | false =>
    simp only [hi, Bool.false_and, Bool.false_or, Bool.not_false, Bool.true_and] at h
    simp only [h, Bool.not_true, Bool.false_eq_true, if_false]
    exact ⟨.inr rfl, rfl⟩
  | true =>
    simp only [hi, Bool.not_true, Bool.false_and, Bool.or_false, Bool.true_and] at h
    simp only [h, Bool.not_true, Bool.false_eq_true, if_false, if_true]
    exact ⟨.inr rfl, rfl⟩

theorem void_key (k : Key) (h : k.hasData = false) : Void (createKey k v) := by
  unfold Key.hasData at h
  unfold createKey
  cases hi : k.isBinary with
  | false =>
    simp only [hi, Bool.false_eq_true, if_false, Bool.not_eq_false'] at h
    simp only [h, Bool.not_true, Bool.false_eq_true, if_false]
    split <;> exact ⟨.inr rfl, rfl⟩
  | true =>
    simp only [hi, if_true, Bool.not_eq_false'] at h
    simp only [h, Bool.not_true, Bool.false_eq_true, if_false, if_true]
    split <;> exact ⟨.inr rfl, rfl⟩

theorem filled_texts (h : NothingFromNothing E.toCodecs) (ex : Bool) (c : Contact) (n : QString) :
    (contactLines E v ex (c.filled E.toQtEnv v)).flatMap (textNamed E.toCodecs n) = (contactLines E v ex c).flatMap (textNamed E.toCodecs n) := by
  have hp : ∀ (id : QString) (t : ParamText), decide (t.text ≠ []) = false → Void (paramTextLine id t) := by
    intro id t ht
    have : t.text = [] := by simpa using ht
    unfold paramTextLine
    rw [this]; exact (void_empty id).adds _
  have hc : ∀ (id : QString) (t : ParamText), decide (t.text ≠ []) = false → Void (codedTextLine v id t) := by
    intro id t ht
    have : t.text = [] := by simpa using ht
    unfold codedTextLine
    rw [this]; exact ((void_empty id).enc _).adds _
  have e1 : adrLines E v (c.filled E.toQtEnv v) = adrLines E v c := by
    exact adrLines_written (E := E) (v := v) c
  have t1 : (memberLines v (c.filled E.toQtEnv v)).flatMap (textNamed E.toCodecs n) = (memberLines v c).flatMap (textNamed E.toCodecs n) := by
    unfold memberLines
    show List.flatMap _ (if (decide (v = .v4_0) && decide (toLowerQ c.kind = q! "group")) = true then _ else _) = _
    split
    · exact dropped h _ _ _ (fun x hx => by have : x = [] := by simpa using hx
                                            rw [this]; exact void_empty _) n
    · rfl
  have t2 : (sourceLines (c.filled E.toQtEnv v)).flatMap (textNamed E.toCodecs n) = (sourceLines c).flatMap (textNamed E.toCodecs n) :=
    dropped h _ _ _ (fun x hx => by have : x = [] := by simpa using hx
                                    rw [this]; exact void_empty _) n
  have t3 : (relatedLines (c.filled E.toQtEnv v)).flatMap (textNamed E.toCodecs n) = (relatedLines c).flatMap (textNamed E.toCodecs n) :=
    dropped h _ _ _ (hp _) n
  have t4 : (langLines v (c.filled E.toQtEnv v)).flatMap (textNamed E.toCodecs n) = (langLines v c).flatMap (textNamed E.toCodecs n) := by
    unfold langLines
    split
    · exact dropped h _ _ _ (hp _) n
    · rfl
  have t5 : (pidLines v (c.filled E.toQtEnv v)).flatMap (textNamed E.toCodecs n) = (pidLines v c).flatMap (textNamed E.toCodecs n) := by
    unfold pidLines
    split
    · exact dropped h _ _ _ (hp _) n
    · rfl
  have t6 : (emailLines v (c.filled E.toQtEnv v)).flatMap (textNamed E.toCodecs n) = (emailLines v c).flatMap (textNamed E.toCodecs n) := by
    refine dropped h _ _ _ (fun e he => ?_) n
    have : e.mail = [] := by simpa using he
    unfold emailLine
    rw [this]
    refine Void.foldl _ (fun l p hl => ?_) _ (void_empty _)
    split
    · simp only
      split <;> split <;> first | exact hl | exact hl.tool _ _
    · exact hl
  have t7 : (keyLines v (c.filled E.toQtEnv v)).flatMap (textNamed E.toCodecs n) = (keyLines v c).flatMap (textNamed E.toCodecs n) :=
    dropped h _ _ _ (fun k hk => void_key k hk) n
  have pics : ∀ (id : QString) (p : Picture) (m : List Picture),
      (pictureLines E v id p (m.filter (!·.isEmpty))).flatMap (textNamed E.toCodecs n) = (pictureLines E v id p m).flatMap (textNamed E.toCodecs n) := by
    intro id p m
    unfold pictureLines
    split
    · rw [List.flatMap_cons, List.flatMap_cons, dropped h _ _ _ (fun x hx => void_picture4 id x (by simpa using hx)) n]
    · rw [List.flatMap_cons, List.flatMap_cons, dropped h _ _ _ (fun x hx => void_picture id x (by simpa using hx)) n]
  have t8 : (logoLines E v (c.filled E.toQtEnv v)).flatMap (textNamed E.toCodecs n) = (logoLines E v c).flatMap (textNamed E.toCodecs n) := pics _ _ _
  have t9 : (photoLines E v (c.filled E.toQtEnv v)).flatMap (textNamed E.toCodecs n) = (photoLines E v c).flatMap (textNamed E.toCodecs n) := pics _ _ _
  have t10 : (nickLines v (c.filled E.toQtEnv v)).flatMap (textNamed E.toCodecs n) = (nickLines v c).flatMap (textNamed E.toCodecs n) := by
    unfold nickLines
    split
    · exact dropped h _ _ _ (hp _) n
    · rfl
  have t11 : (orgLines v (c.filled E.toQtEnv v)).flatMap (textNamed E.toCodecs n) = (orgLines v c).flatMap (textNamed E.toCodecs n) := by
    refine dropped h _ _ _ (fun o ho => ?_) n
    have : o.text = [] ∧ c.department = [] := by simpa using ho
    unfold orgLine
    have hd : (c.filled E.toQtEnv v).department = c.department := rfl
    simp only [hd, this, List.isEmpty_nil, if_true, joinEscaped_empty]
    exact ((void_empty _).enc _).adds _
  have t12 : (roleLines v (c.filled E.toQtEnv v)).flatMap (textNamed E.toCodecs n) = (roleLines v c).flatMap (textNamed E.toCodecs n) :=
    dropped h _ _ _ (hc _) n
  have t13 : (soundLines v (c.filled E.toQtEnv v)).flatMap (textNamed E.toCodecs n) = (soundLines v c).flatMap (textNamed E.toCodecs n) := by
    unfold soundLines
    split
    · rfl
    · rw [List.flatMap_cons, List.flatMap_cons]
      exact congrArg (_ ++ ·) (dropped h _ _ _ (fun x hx => void_sound x (by simpa using hx)) n)
  have t14 : (telLines v (c.filled E.toQtEnv v)).flatMap (textNamed E.toCodecs n) = (telLines v c).flatMap (textNamed E.toCodecs n) := by
    refine dropped h _ _ _ (fun p hp => ?_) n
    have : p.number = [] := by simpa using hp
    unfold phoneLine
    rw [this]
    have hv : Void (p.params.foldl (fun line q => if toUpperQ q.1 ≠ q! "TYPE" then addJoined line q else line) (textLine (q! "TEL") [])) := by
      refine Void.foldl _ (fun l q hl => ?_) _ (void_empty _)
      split <;> exact hl
    have : ∀ names : List QString, Void (if names.isEmpty = true then p.params.foldl (fun line q => if toUpperQ q.1 ≠ q! "TYPE" then addJoined line q else line) (textLine (q! "TEL") [])
        else toolAddParameter (p.params.foldl (fun line q => if toUpperQ q.1 ≠ q! "TYPE" then addJoined line q else line) (textLine (q! "TEL") [])) v (q! "TYPE") names) := by
      intro names
      split
      · exact hv
      · exact hv.tool _ _
    exact this _
  have t15 : (titleLines v (c.filled E.toQtEnv v)).flatMap (textNamed E.toCodecs n) = (titleLines v c).flatMap (textNamed E.toCodecs n) :=
    dropped h _ _ _ (hc _) n
  have t16 : (urlLines (c.filled E.toQtEnv v)).flatMap (textNamed E.toCodecs n) = (urlLines c).flatMap (textNamed E.toCodecs n) := by
    refine dropped h _ _ _ (fun u hu => ?_) n
    have : u.url = [] := by simpa using hu
    rw [this]; exact (void_empty _).adds _
  have e2 : calendarLines E v (c.filled E.toQtEnv v) = calendarLines E v c := by
    unfold calendarLines
    show (if _ then List.map _ (List.filter _ (List.filter _ _)) else _) = _
    rw [List.filter_filter]
    split
    · congr 2
      funext u
      cases u.isValid E.toQtEnv <;> simp
    · rfl
  have t17 : (groupLines (c.filled E.toQtEnv v)).flatMap (textNamed E.toCodecs n) = (groupLines c).flatMap (textNamed E.toCodecs n) := by
    refine dropped h _ _ _ (fun g hg => ?_) n
    have : g.value = [] := by simpa using hg
    rw [this]; exact (void_empty _).adds _
  have t18 : (imppLines (c.filled E.toQtEnv v)).flatMap (textNamed E.toCodecs n) = (imppLines c).flatMap (textNamed E.toCodecs n) := by
    refine dropped h _ _ _ (fun u hu => ?_) n
    have : u.url = [] := by simpa using hu
    rw [this]
    refine Void.foldl _ (fun l q hl => ?_) _ (void_empty _)
    split <;> exact hl
  have e3 : customLines E v ex (c.filled E.toQtEnv v) = customLines E v ex c := by
    show ((c.customs.filter _).map _).flatMap _ = (c.customs.map _).flatMap _
    rw [List.flatMap_map, List.flatMap_map, flat_dropped]
    intro p _ hp
    have hp : p.2 = [] ∧ qc! ':' ∉ p.1 := by simpa using hp
    unfold customLine
    rw [indexOf?_append _ _ _ hp.2, hp.1]
    simp
  unfold contactLines contactSections
  simp only [List.flatten_cons, List.flatten_nil, List.flatMap_append, e1, e2, e3, t1, t2, t3, t4, t5, t6, t7, t8, t9, t10, t11, t12, t13, t14, t15, t16, t17, t18]
  rfl

end

/-! ### Theorems -/

/-- The exported text is that of the contacts without their entries that have no content. -/
theorem C93 (E : ToolEnv) (hE : NothingFromNothing E.toCodecs) (v : Version) (ex : Bool) (cs : List Contact) :
    createContacts E v ex (cs.map (Contact.filled E.toQtEnv v)) = createContacts E v ex cs := by
  unfold createContacts createVCardText
  rw [List.map_map, List.flatMap_map, List.flatMap_map]
  congr 1
  funext c
  exact card_text _ _ _ (version_line E v ex _) (version_line E v ex c) (filled_texts hE ex c)

/-- Contacts that a version can carry but for entries without content: the exported text is read as the contacts without these entries, and exporting what
    was read gives the same bytes. (Keys with a type of their own are excluded in version 4, see `C91_custom_key_false`.) -/
theorem C93_read (E : ToolEnv) (hE : NothingFromNothing E.toCodecs) (v : Version) (ids : IdKind → Nat → QString) (hinj : ∀ k i j, ids k i = ids k j → i = j)
    (cs : List Contact) (hR : ∀ c ∈ cs, Readable E v (c.filled E.toQtEnv v)) (hk : v = .v4_0 → ∀ c ∈ cs, ∀ k ∈ c.keys, k.hasData = true → k.type ≠ .custom)
    (hu : ∀ c ∈ cs, ∀ i, c.uid ≠ ids .contact i) :
    ∃ cs', ReadAs E v ids 0 0 0 (cs.map (Contact.filled E.toQtEnv v)) cs' ∧ ∃ n, ∀ fuel, n ≤ fuel →
      parseContacts E ids fuel (createContacts E v false cs) = .ok cs' ∧ createContacts E v false cs' = createContacts E v false cs := by
  have hR' : ∀ c ∈ cs.map (Contact.filled E.toQtEnv v), Readable E v c := by
    intro c hc; obtain ⟨d, hd, rfl⟩ := List.mem_map.1 hc; exact hR d hd
  have hk' : v = .v4_0 → ∀ c ∈ cs.map (Contact.filled E.toQtEnv v), ∀ k ∈ c.keys, k.type ≠ .custom := by
    intro hv c hc k hkm
    obtain ⟨d, hd, rfl⟩ := List.mem_map.1 hc
    exact hk hv d hd k (List.mem_filter.1 hkm).1 (List.mem_filter.1 hkm).2
  obtain ⟨cs', h, n, hn⟩ := C24_contacts E v ids hinj (cs.map (Contact.filled E.toQtEnv v)) hR' (by
    intro c hc; obtain ⟨d, hd, rfl⟩ := List.mem_map.1 hc; exact hu d hd)
  rw [C93 E hE] at hn
  refine ⟨cs', h, n, fun fuel hf => ⟨hn fuel hf, ?_⟩⟩
  rw [readAs_text h hR' hk' false, C93 E hE]

/-- Contacts with any texts (C89) and with entries without content, in version 3.0 and 4.0. -/
theorem C93_any (E : ToolEnv) (hE : NothingFromNothing E.toCodecs) (v : Version) (hv : v ≠ .v2_1) (ids : IdKind → Nat → QString)
    (hinj : ∀ k i j, ids k i = ids k j → i = j) (cs : List Contact) (hR : ∀ c ∈ cs, Carriable E v (((c.filled E.toQtEnv v).carried v).written v))
    (hu : ∀ c ∈ cs, ∀ i, carried c.uid ≠ ids .contact i) :
    ∃ cs', ReadAs E v ids 0 0 0 (cs.map fun c => (((c.filled E.toQtEnv v).carried v).written v).merged) cs' ∧
      ∃ n, ∀ fuel, n ≤ fuel → parseContacts E ids fuel (createContacts E v false cs) = .ok cs' := by
  obtain ⟨cs', h, n, hn⟩ := C89_contacts E v hv ids hinj (cs.map (Contact.filled E.toQtEnv v)) (by
    intro c hc; obtain ⟨d, hd, rfl⟩ := List.mem_map.1 hc; exact hR d hd) (by
    intro c hc i; obtain ⟨d, hd, rfl⟩ := List.mem_map.1 hc; exact hu d hd i)
  rw [C93 E hE] at hn
  rw [List.map_map] at h
  exact ⟨cs', h, n, hn⟩

/-! ### The hypotheses are met -/

example (v : Version) (hv : v ≠ .v2_1) : Carriable Sample.env v ((((
    { backslashes with titles := { text := [] } :: backslashes.titles, sources := [] :: backslashes.sources } : Contact).filled Sample.env.toQtEnv v).carried v).written v) := by
  have h : ({ backslashes with titles := { text := [] } :: backslashes.titles, sources := [] :: backslashes.sources } : Contact).filled Sample.env.toQtEnv v = backslashes := by
    cases v <;> decide
  rw [h, (C89_sample_merged v).1]
  exact (C89_sample_readable v hv).carriable

/-- The sample contact of C24 with entries that have no content. -/
def Sample.padded : Contact :=
  { Sample.contact with
    titles := { text := [], params := [(q! "language", [q! "de"])] } :: Sample.contact.titles
    roles := Sample.contact.roles ++ [{ text := [] }]
    emails := Sample.contact.emails ++ [{ mail := [], params := [(q! "type", [q! "home"])] }]
    phoneNumbers := { id := q! "p0", number := [], type := 2 } :: Sample.contact.phoneNumbers
    addresses := Sample.contact.addresses ++ [{ id := q! "a0", type := 1 }]
    extraUrls := Sample.contact.extraUrls ++ [{ url := [] }]
    customs := Sample.contact.customs ++ [(q! "ZZZ-Name", [])]
    extraPhotos := Sample.contact.extraPhotos ++ [{}] }

theorem Sample.nothing : NothingFromNothing Sample.env.toCodecs := by
  refine ⟨?_, by decide⟩
  intro name enc h
  have h : (if name = b! "UTF-8" then some toUtf8 else none) = some enc := h
  split at h
  · cases h; rfl
  · cases h

example (v : Version) : Sample.padded ≠ Sample.padded.filled Sample.env.toQtEnv v ∧ Readable Sample.env v (Sample.padded.filled Sample.env.toQtEnv v) := by
  have h : Sample.padded.filled Sample.env.toQtEnv v = Sample.contact := by cases v <;> decide
  rw [h]
  exact ⟨by decide, C24_sample_readable v⟩

/-- The entries that are dropped are really not written, and others are. -/
example : createContacts Sample.env .v3_0 false [{ uid := q! "u", titles := [{ text := [] }, { text := q! "Dr." }, { text := [] }], phoneNumbers := [{ id := q! "p", number := [] }] }]
    = b! "BEGIN:VCARD\r\nVERSION:3.0\r\nN:;;;;\r\nTITLE:Dr.\r\nUID:u\r\nEND:VCARD\r\n\r\n" := by decide +kernel

end KC
