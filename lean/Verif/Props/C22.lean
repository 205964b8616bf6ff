import Verif.Lemmas.Compute
/-
  C22: keys, sounds and pictures survive a vCard; parsing never reads outside the value.
-/
namespace KC
open Spec

/-- What a key shows: its data, its type, and the name of a type of its own. -/
def Key.visible (k : Key) : Bool × List UInt8 × QString × KeyType := (k.isBinary, if k.isBinary then k.binaryData else [], if k.isBinary then [] else k.textData, k.type)

/-- What a picture shows: whether it is embedded; then the encoded image and its type, otherwise the location. -/
def Picture.visible (E : ToolEnv) (p : Picture) : Bool × List UInt8 × QString × QString :=
  (p.isIntern, if p.isIntern then p.rawBytes E else [], if p.isIntern then p.type else [], if p.isIntern then [] else p.url)

/-- What a sound shows. -/
def Sound.visible (s : Sound) : Bool × List UInt8 × QString := (s.isIntern, if s.isIntern then s.data else [], if s.isIntern then [] else s.url)

theorem rawBytes_restored (E : ToolEnv) (p : Picture) (h : p.isIntern = true → p.rawBytes E ≠ []) : (p.restored E).visible E = p.visible E := by
  unfold Picture.restored Picture.visible
  cases hp : p.isIntern with
  | true =>
    have := h hp
    simp only [if_true]
    congr 2
    generalize p.rawBytes E = r at *
    unfold Picture.rawBytes
    cases r with
    | nil => exact absurd rfl this
    | cons a t => rfl
  | false => rfl

theorem sound_restored (s : Sound) : s.restored.visible = s.visible := by
  unfold Sound.restored Sound.visible
  cases h : s.isIntern <;> rfl

theorem key_restored (v : Version) (id : QString) (k : Key) : (k.restored v id).visible = k.visible := by
  unfold Key.restored Key.visible
  cases h : k.isBinary <;> simp

theorem headD_tail {α : Type} (l : List α) (d : α) (h : l ≠ []) : l.headD d :: l.tail = l := by
  cases l with
  | nil => exact absurd rfl h
  | cons a t => rfl

/-- C22 for the card of a contact that the version can carry (`Readable`: embedded pictures and sounds in version 3.0, binary keys in
    versions 3.0 and 4.0): the keys with data, the logos, photos and sounds that are not empty show the same, in order. -/
theorem C22_card_partial (E : ToolEnv) (v : Version) (ids : IdKind → Nat → QString) (hinj : ∀ k i j, ids k i = ids k j → i = j) (c : Contact)
    (hR : Readable E v c) (hu : ∀ i, c.uid ≠ ids .contact i) :
    ∃ c', WrittenAndRead E v ids c c' ∧
      c'.keys.map Key.visible = (c.keys.filter Key.hasData).map Key.visible ∧
      (v ≠ .v4_0 → c'.keys.map (fun k => if k.type = .custom then k.customTypeString else []) =
        (c.keys.filter Key.hasData).map (fun k => if k.type = .custom then k.customTypeString else [])) ∧
      ((c.logo :: c.extraLogos).any (fun x => !x.isEmpty) = true →
        (c'.logo :: c'.extraLogos).map (Picture.visible E) = ((c.logo :: c.extraLogos).filter fun x => !x.isEmpty).map (Picture.visible E)) ∧
      ((c.photo :: c.extraPhotos).any (fun x => !x.isEmpty) = true →
        (c'.photo :: c'.extraPhotos).map (Picture.visible E) = ((c.photo :: c.extraPhotos).filter fun x => !x.isEmpty).map (Picture.visible E)) ∧
      (v ≠ .v4_0 → (c.sound :: c.extraSounds).any (fun x => !x.isEmpty) = true →
        (c'.sound :: c'.extraSounds).map Sound.visible = ((c.sound :: c.extraSounds).filter fun x => !x.isEmpty).map Sound.visible) := by
  have h := C24_contact E v ids hinj c hR hu
  have hraw : ∀ l : List Picture, (∀ p ∈ l, p ∈ c.logo :: c.extraLogos ++ c.photo :: c.extraPhotos) →
      ((l.filter fun x => !x.isEmpty).map (Picture.restored E)).map (Picture.visible E) = (l.filter fun x => !x.isEmpty).map (Picture.visible E) := by
    intro l hl
    rw [List.map_map]
    apply List.map_congr_left
    intro p hp
    obtain ⟨hp, hne⟩ := List.mem_filter.1 hp
    have := hR.pictures p (hl p hp)
    apply rawBytes_restored
    intro hi
    split at this
    · exact (this.intern hi).2.1
    · exact ((this (by simpa using hne)).intern hi).2.1
  have hne : ∀ {α : Type} (l : List α) (f : α → Bool), l.any f = true → l.filter f ≠ [] := by
    intro α l f ha e
    obtain ⟨x, hx, hf⟩ := List.any_eq_true.1 ha
    exact absurd (List.filter_eq_nil_iff.1 e x hx) (by simp [hf])
  refine ⟨_, h, ?_, ?_, ?_, ?_, ?_⟩
  · show ((c.keys.filter Key.hasData).mapIdx _).map _ = _
    apply List.ext_getElem
    · simp
    · intro i _ _
      simp only [List.getElem_map, List.getElem_mapIdx]
      exact key_restored v _ _
  · intro hv
    show ((c.keys.filter Key.hasData).mapIdx _).map _ = _
    apply List.ext_getElem
    · simp
    · intro i _ _
      simp only [List.getElem_map, List.getElem_mapIdx, Key.restored]
      split
      · rename_i ht; rw [if_pos ⟨ht, hv⟩]
      · rfl
  · intro ha
    show (List.headD _ _ :: List.tail _).map _ = _
    rw [headD_tail _ _ (by simpa using hne _ _ ha)]
    exact hraw _ (by intro p hp; simp only [List.mem_append]; exact .inl hp)
  · intro ha
    show (List.headD _ _ :: List.tail _).map _ = _
    rw [headD_tail _ _ (by simpa using hne _ _ ha)]
    exact hraw _ (by intro p hp; simp only [List.mem_append]; exact .inr hp)
  · intro hv ha
    show (List.headD (if v = .v4_0 then [] else _) _ :: List.tail (if v = .v4_0 then [] else _)).map _ = _
    rw [if_neg hv, headD_tail _ _ (by simpa using hne _ _ ha), List.map_map]
    exact List.map_congr_left fun s _ => sound_restored s

/-- Non-vacuity: the sample contact has a key, two photos, a logo and a sound. -/
example : ∃ c', WrittenAndRead Sample.env .v3_0 Sample.ids Sample.contact c' ∧
    c'.keys.map Key.visible = [(false, [], q! "key data", .pgp)] ∧ (c'.photo :: c'.extraPhotos).map (·.url) = [q! "http://example.org/p.png", q! "http://example.org/q.png"] ∧
    c'.sound.url = q! "http://example.org/s.ogg" := by
  obtain ⟨c', h, h1, h2, h3, h4, h5⟩ := C22_card_partial Sample.env .v3_0 Sample.ids Sample.ids_inj _ (C24_sample_readable _) C24_sample_uid
  refine ⟨c', h, h1, ?_, ?_⟩
  · have hx := h4 (by decide)
    have h6 : (c'.photo :: c'.extraPhotos).map (Picture.visible Sample.env) = [(false, [], [], q! "http://example.org/p.png"), (false, [], [], q! "http://example.org/q.png")] := hx
    revert h6
    generalize c'.photo :: c'.extraPhotos = l
    rcases l with _ | ⟨a, _ | ⟨b, _ | ⟨d, l⟩⟩⟩ <;> simp [Picture.visible]
    intro a1 _ _ a2 b1 _ _ b2
    rw [a1] at a2; rw [b1] at b2
    exact ⟨a2, b2⟩
  · have hx := h5 (by decide) (by decide)
    have h6 : (c'.sound :: c'.extraSounds).map Sound.visible = [(false, [], q! "http://example.org/s.ogg")] := hx
    simp [Sound.visible] at h6
    obtain ⟨⟨a, -, b⟩, -⟩ := h6
    rw [a] at b
    exact b

/-! ### Parsing outside of the value -/

/-- A picture line whose reading is undefined: no parameters, and a value of fewer than 22 bytes that has `data:` and `;base64,` in it
    (the code takes the last `length - 22` bytes). -/
def ShortPicture (l : VCardLine) : Prop :=
  (tagOf l = .logo ∨ tagOf l = .photo) ∧ l.parameterList = [] ∧ l.value.toByteArray.length < 22 ∧
    (indexOfStr? (b! "data:") l.value.toByteArray).isSome = true ∧ (indexOfStr? (b! ";base64,") l.value.toByteArray).isSome = true

theorem parsePicture_none (l : VCardLine) : parsePicture l = none ↔ l.parameterList = [] ∧ l.value.toByteArray.length < 22 ∧
    (indexOfStr? (b! "data:") l.value.toByteArray).isSome = true ∧ (indexOfStr? (b! ";base64,") l.value.toByteArray).isSome = true := by
  unfold parsePicture
  simp only
  by_cases hp : l.parameterList.isEmpty = true
  · rw [if_pos hp]
    have hp' : l.parameterList = [] := by simpa using hp
    by_cases hv : l.value ≠ .invalid
    · rw [if_pos hv]
      cases h1 : indexOfStr? (b! "data:") l.value.toByteArray with
      | none => simp
      | some k =>
        cases h2 : indexOfStr? (b! ";base64,") l.value.toByteArray with
        | none => simp
        | some i =>
          simp only
          split
          · rename_i h; simp [hp', h]
          · rename_i h; simp; intro _; omega
    · rw [if_neg hv]
      have hv' := not_not.1 hv
      rw [hv']
      simp only [QVariant.toByteArray]
      constructor
      · simp
      · rintro ⟨-, -, h, -⟩; exact absurd h (by decide)
  · rw [if_neg hp]
    have hp' : l.parameterList ≠ [] := by simpa using hp
    constructor
    · split <;> (repeat' split) <;> simp
    · rintro ⟨h, -⟩; exact absurd h hp'

theorem foldl_or (m : List VCardLine) (b : Bool) : m.foldl (fun b l => b || (parsePicture l).isNone) b = true ↔ b = true ∨ ∃ l ∈ m, parsePicture l = none := by
  induction m generalizing b with
  | nil => simp
  | cons l m ih =>
    rw [List.foldl_cons, ih]
    simp only [Bool.or_eq_true, Option.isNone_iff_eq_none, List.mem_cons, exists_eq_or_imp, or_assoc]

theorem card_undefined (E : ToolEnv) (ids : IdKind → Nat → QString) (lines : List VCardLine) (s : RState) :
    (lines.foldl (readLine E ids) s).ub = true ↔ s.ub = true ∨ ∃ l ∈ lines, ShortPicture l := by
  rw [comp_ub, foldl_or]
  refine or_congr_right ?_
  simp only [List.mem_filter, List.mem_cons, List.not_mem_nil, or_false, decide_eq_true_eq, parsePicture_none, ShortPicture]
  constructor
  · rintro ⟨l, ⟨h1, h2⟩, h3⟩; exact ⟨l, h1, h2, h3⟩
  · rintro ⟨l, h1, h2, h3⟩; exact ⟨l, ⟨h1, h2⟩, h3⟩

theorem readCards_undefined (E : ToolEnv) (ids : IdKind → Nat → QString) (cards : List VCard) : ∀ n a p k,
    readCards E ids n a p k cards = none ↔ ∃ card ∈ cards, ∃ l ∈ readingOrder card, ShortPicture l := by
  induction cards with
  | nil => simp [readCards]
  | cons card cards ih =>
    intro n a p k
    rw [readCards]
    simp only [List.mem_cons, exists_eq_or_imp]
    have hc := card_undefined E ids (readingOrder card) { c := Contact.new (ids .contact n), addresses := a, phones := p, keys := k }
    simp only [Bool.false_eq_true, false_or] at hc
    by_cases h : ((readingOrder card).foldl (readLine E ids) { c := Contact.new (ids .contact n), addresses := a, phones := p, keys := k }).ub = true
    · rw [if_pos h]
      simp [hc.1 h]
    · rw [if_neg h, Option.map_eq_none_iff, ih]
      have : ¬ ∃ l ∈ readingOrder card, ShortPicture l := fun x => h (hc.2 x)
      simp [this]

/-- C22, second part, exactly: whatever the file, reading it has undefined behaviour if and only if one of its cards has a short
    embedded picture as described by `ShortPicture`. -/
theorem C22_reads_outside (E : ToolEnv) (ids : IdKind → Nat → QString) (fuel : Nat) (text : QByteArray) (cards : List VCard)
    (h : parseVCards E.toCodecs fuel text = some cards) :
    parseContacts E ids fuel text = .undefined ↔ ∃ card ∈ cards, ∃ l ∈ readingOrder card, ShortPicture l := by
  rw [← readCards_undefined E ids cards 0 0 0 0]
  unfold parseContacts
  rw [h]
  simp only
  cases hr : readCards E ids 0 0 0 0 cards <;> simp

/-- C22, second part, is false: such a file. -/
theorem C22_reads_outside_false : parseContacts Sample.env Sample.ids 10 (b! "BEGIN:VCARD\r\nPHOTO:data:;base64,\r\nEND:VCARD\r\n") = .undefined := by
  decide +kernel

/-! ### The first part is false in versions 2.1 and 4.0 -/

/-- Embedded data is written raw in version 2.1 and read as nothing. -/
theorem C22_binary_2_1_false : ∃ c c', WrittenAndRead Sample.env .v2_1 Sample.ids c c' ∧ c.keys.map (·.binaryData) = [[200, 1, 2]] ∧ c.photo.rawData = [1, 2, 3] ∧
    c.sound.data = [4, 5, 6] ∧ c'.keys.map (·.binaryData) = [[]] ∧ c'.photo.rawData = [] ∧ c'.sound.data = [] := by
  obtain ⟨c', h, h2⟩ := oneBack_not (E := Sample.env) (v := .v2_1) (ids := Sample.ids)
    { uid := q! "u", keys := [{ id := q! "k", isBinary := true, binaryData := [200, 1, 2] }], photo := { isIntern := true, type := q! "png", rawData := [1, 2, 3] },
      sound := { isIntern := true, data := [4, 5, 6] } } (fun c' => ¬ (c'.keys.map (·.binaryData) = [[]] ∧ c'.photo.rawData = [] ∧ c'.sound.data = [])) (by decide +kernel)
  obtain ⟨a, b, d⟩ := not_not.1 h2
  exact ⟨_, c', h, rfl, rfl, rfl, a, b, d⟩

/-- Although the properties say that it is encoded in base 64. -/
theorem C22_raw_2_1_false (ex : Bool) :
    b! "KEY;ENCODING=BASE64;TYPE=PGP:AB\r\n" <:+: createContacts Sample.env .v2_1 ex [{ uid := q! "u", keys := [{ id := q! "k", isBinary := true, binaryData := b! "AB", type := .pgp }] }] ∧
    b! "PHOTO;ENCODING=BASE64;PNG:AB\r\n" <:+: createContacts Sample.env .v2_1 ex [{ uid := q! "u", photo := { isIntern := true, type := q! "png", rawData := b! "AB" } }] ∧
    b! "SOUND;ENCODING=BASE64:AB\r\n" <:+: createContacts Sample.env .v2_1 ex [{ uid := q! "u", sound := { isIntern := true, data := b! "AB" } }] := by
  cases ex <;> decide +kernel

/-- The type of an embedded picture is changed in version 4. -/
theorem C22_type_4_0_false : ∃ c c', WrittenAndRead Sample.env .v4_0 Sample.ids c c' ∧ c.photo.rawData = [1, 2, 3] ∧ c.photo.type = q! "png" ∧
    c'.photo.rawData = [1, 2, 3] ∧ c'.photo.type = q! "image/png;" := by
  obtain ⟨c', h, h2⟩ := oneBack_not (E := Sample.env) (v := .v4_0) (ids := Sample.ids)
    { uid := q! "u", photo := { isIntern := true, type := q! "png", rawData := [1, 2, 3] } }
    (fun c' => ¬ (c'.photo.rawData = [1, 2, 3] ∧ c'.photo.type = q! "image/png;")) (by decide +kernel)
  obtain ⟨a, b⟩ := not_not.1 h2
  exact ⟨_, c', h, rfl, rfl, a, b⟩

/-- And its data too unless the name of the type has three or four letters. -/
theorem C22_data_4_0_false : ∃ c c', WrittenAndRead Sample.env .v4_0 Sample.ids c c' ∧ c.photo.rawData = [1, 2, 3, 4, 5, 6] ∧ c.photo.type = q! "x" ∧
    c'.photo.rawData ≠ c.photo.rawData := by
  obtain ⟨c', h, h2⟩ := oneBack_not (E := Sample.env) (v := .v4_0) (ids := Sample.ids)
    { uid := q! "u", photo := { isIntern := true, type := q! "x", rawData := [1, 2, 3, 4, 5, 6] } }
    (fun c' => c'.photo.rawData = [1, 2, 3, 4, 5, 6]) (by decide +kernel)
  exact ⟨_, c', h, rfl, rfl, h2⟩

/-- Sounds are not written in version 4, and the name of a key's own type is lost. -/
theorem C22_sound_4_0_false : ∃ c c', WrittenAndRead Sample.env .v4_0 Sample.ids c c' ∧ c.sound.data = [4, 5, 6] ∧ c'.sound.data = [] ∧
    c.keys.map (·.customTypeString) = [q! "mine"] ∧ c'.keys.map (·.customTypeString) = [[]] := by
  obtain ⟨c', h, h2⟩ := oneBack_not (E := Sample.env) (v := .v4_0) (ids := Sample.ids)
    { uid := q! "u", sound := { isIntern := true, data := [4, 5, 6] }, keys := [{ id := q! "k", isBinary := true, binaryData := [200, 1, 2], type := .custom, customTypeString := q! "mine" }] }
    (fun c' => ¬ (c'.sound.data = [] ∧ c'.keys.map (·.customTypeString) = [[]])) (by decide +kernel)
  obtain ⟨a, b⟩ := not_not.1 h2
  exact ⟨_, c', h, rfl, a, rfl, b⟩

end KC
