import Verif.Lemmas.CardOrder
/- Helper lemmas: which parts of a contact a line can change. -/
namespace KC

/-- what a line of a kind can change in the state -/
def Frame (t : Tag) (s s' : RState) : Prop :=
  match t with
  | .fieldGroup => s' = { s with c := { s.c with empty := s'.c.empty, fieldGroups := s'.c.fieldGroups } }
  | .adr => s' = { s with c := { s.c with empty := s'.c.empty, addresses := s'.c.addresses }, addresses := s'.addresses }
  | .anniversary => s' = { s with c := { s.c with empty := s'.c.empty, customs := s'.c.customs } }
  | .bday => s' = { s with c := { s.c with empty := s'.c.empty, birthday := s'.c.birthday, birthdayWithTime := s'.c.birthdayWithTime } }
  | .deathdate => s' = { s with c := { s.c with empty := s'.c.empty, deathDate := s'.c.deathDate } }
  | .categories => s' = { s with c := { s.c with empty := s'.c.empty, categories := s'.c.categories } }
  | .fburl => s' = { s with c := { s.c with empty := s'.c.empty, calendarUrls := s'.c.calendarUrls } }
  | .caladruri => s' = { s with c := { s.c with empty := s'.c.empty, calendarUrls := s'.c.calendarUrls } }
  | .caluri => s' = { s with c := { s.c with empty := s'.c.empty, calendarUrls := s'.c.calendarUrls } }
  | .impp => s' = { s with c := { s.c with empty := s'.c.empty, impps := s'.c.impps } }
  | .class_ => s' = { s with c := { s.c with empty := s'.c.empty, secrecy := s'.c.secrecy } }
  | .gender => s' = { s with c := { s.c with empty := s'.c.empty, gender := s'.c.gender } }
  | .lang => s' = { s with c := { s.c with empty := s'.c.empty, langs := s'.c.langs } }
  | .email => s' = { s with c := { s.c with empty := s'.c.empty, emails := s'.c.emails } }
  | .kind => s' = { s with c := { s.c with empty := s'.c.empty, kind := s'.c.kind } }
  | .fn => s' = { s with c := { s.c with empty := s'.c.empty, formattedName := s'.c.formattedName } }
  | .geo => s' = { s with c := { s.c with empty := s'.c.empty, geo := s'.c.geo } }
  | .key => s' = { s with c := { s.c with empty := s'.c.empty, keys := s'.c.keys }, keys := s'.keys }
  | .label => s' = { s with c := { s.c with empty := s'.c.empty, addresses := s'.c.addresses }, addresses := s'.addresses }
  | .logo => s' = { s with c := { s.c with empty := s'.c.empty, logo := s'.c.logo, extraLogos := s'.c.extraLogos }, ub := s'.ub }
  | .mailer => s' = { s with c := { s.c with empty := s'.c.empty, mailer := s'.c.mailer } }
  | .n => s' = { s with c := { s.c with empty := s'.c.empty, familyName := s'.c.familyName, givenName := s'.c.givenName, additionalName := s'.c.additionalName, prefix_ := s'.c.prefix_, suffix := s'.c.suffix, sortString := s'.c.sortString } }
  | .name => s' = { s with c := { s.c with empty := s'.c.empty, name := s'.c.name } }
  | .nickname => s' = { s with c := { s.c with empty := s'.c.empty, nickNames := s'.c.nickNames } }
  | .note => s' = { s with c := { s.c with empty := s'.c.empty, note := s'.c.note } }
  | .org => s' = { s with c := { s.c with empty := s'.c.empty, organizations := s'.c.organizations, department := s'.c.department, sortString := s'.c.sortString } }
  | .photo => s' = { s with c := { s.c with empty := s'.c.empty, photo := s'.c.photo, extraPhotos := s'.c.extraPhotos }, ub := s'.ub }
  | .prodid => s' = { s with c := { s.c with empty := s'.c.empty, productId := s'.c.productId } }
  | .rev => s' = { s with c := { s.c with empty := s'.c.empty, revision := s'.c.revision } }
  | .role => s' = { s with c := { s.c with empty := s'.c.empty, roles := s'.c.roles } }
  | .sortString => s' = { s with c := { s.c with empty := s'.c.empty, sortString := s'.c.sortString } }
  | .sound => s' = { s with c := { s.c with empty := s'.c.empty, sound := s'.c.sound, extraSounds := s'.c.extraSounds } }
  | .tel => s' = { s with c := { s.c with empty := s'.c.empty, phoneNumbers := s'.c.phoneNumbers }, phones := s'.phones }
  | .title => s' = { s with c := { s.c with empty := s'.c.empty, titles := s'.c.titles } }
  | .tz => s' = { s with c := { s.c with empty := s'.c.empty, timeZone := s'.c.timeZone } }
  | .uid => s' = { s with c := { s.c with empty := s'.c.empty, uid := s'.c.uid } }
  | .url => s' = { s with c := { s.c with empty := s'.c.empty, extraUrls := s'.c.extraUrls } }
  | .source => s' = { s with c := { s.c with empty := s'.c.empty, sources := s'.c.sources } }
  | .member => s' = { s with c := { s.c with empty := s'.c.empty, members := s'.c.members } }
  | .related => s' = { s with c := { s.c with empty := s'.c.empty, relationships := s'.c.relationships } }
  | .clientpidmap => s' = { s with c := { s.c with empty := s'.c.empty, clientPidMaps := s'.c.clientPidMaps } }
  | .x => s' = { s with c := { s.c with empty := s'.c.empty, impps := s'.c.impps, customs := s'.c.customs } }
  | .other => s' = { s with c := { s.c with empty := s'.c.empty } }

theorem imppLoop_eq (E : QtEnv) (f : QString → ParamUrl) (vs : List QString) (c : Contact) :
    vs.foldl (fun c v => c.insertImpp E (f v)) c =
      { c with empty := (vs.foldl (fun c v => c.insertImpp E (f v)) c).empty, impps := (vs.foldl (fun c v => c.insertImpp E (f v)) c).impps } := by
  induction vs generalizing c with
  | nil => rfl
  | cons v vs ih =>
    rw [List.foldl_cons]
    have h := ih (c.insertImpp E (f v))
    generalize List.foldl (fun c v => c.insertImpp E (f v)) (c.insertImpp E (f v)) vs = r at h
    rw [h]
    unfold Contact.insertImpp
    split <;> rfl

/-- the same contact up to the parts an N line can change -/
def NShape (c c' : Contact) : Prop :=
  ∃ e f g a p x t, c' = { c with empty := e, familyName := f, givenName := g, additionalName := a, prefix_ := p, suffix := x, sortString := t }

theorem NShape.refl (c : Contact) : NShape c c := ⟨c.empty, c.familyName, c.givenName, c.additionalName, c.prefix_, c.suffix, c.sortString, rfl⟩
theorem NShape.trans {a b c : Contact} (h1 : NShape a b) (h2 : NShape b c) : NShape a c := by
  obtain ⟨e, f, g, x, p, y, t, rfl⟩ := h1
  obtain ⟨e', f', g', x', p', y', t', rfl⟩ := h2
  exact ⟨e', f', g', x', p', y', t', rfl⟩
theorem NShape.ite {c a b : Contact} {P : Prop} [Decidable P] (h1 : NShape c a) (h2 : NShape c b) : NShape c (if P then a else b) := by
  split
  · exact h1
  · exact h2

theorem nshape_familyName (c : Contact) (s : QString) : NShape c (c.setFamilyName s) := .ite (.refl c) ⟨_, _, _, _, _, _, _, rfl⟩
theorem nshape_givenName (c : Contact) (s : QString) : NShape c (c.setGivenName s) := .ite (.refl c) ⟨_, _, _, _, _, _, _, rfl⟩
theorem nshape_additionalName (c : Contact) (s : QString) : NShape c (c.setAdditionalName s) := .ite (.refl c) ⟨_, _, _, _, _, _, _, rfl⟩
theorem nshape_prefix (c : Contact) (s : QString) : NShape c (c.setPrefix s) := .ite (.refl c) ⟨_, _, _, _, _, _, _, rfl⟩
theorem nshape_suffix (c : Contact) (s : QString) : NShape c (c.setSuffix s) := .ite (.refl c) ⟨_, _, _, _, _, _, _, rfl⟩
theorem nshape_sortString (c : Contact) (s : QString) : NShape c (c.setSortString s) := .ite (.refl c) ⟨_, _, _, _, _, _, _, rfl⟩

theorem nshape_readN (l : VCardLine) (c : Contact) : NShape c (readN l c) := by
  unfold readN
  have step : ∀ (P : Prop) [Decidable P] (x y : Contact), NShape c x → NShape x y → NShape c (if P then y else x) :=
    fun P _ x y h1 h2 => .ite (h1.trans h2) h1
  have step' : ∀ (P : Prop) [Decidable P] (x y : Contact), NShape c x → NShape x y → NShape c (if P then x else y) :=
    fun P _ x y h1 h2 => .ite h1 (h1.trans h2)
  exact step' _ _ _ (step _ _ _ (step _ _ _ (step _ _ _ (step _ _ _ (step _ _ _ (.refl c) (nshape_familyName _ _)) (nshape_givenName _ _))
    (nshape_additionalName _ _)) (nshape_prefix _ _)) (nshape_suffix _ _)) (nshape_sortString _ _)

/-- the same contact up to the parts an ORG line can change -/
def OShape (c c' : Contact) : Prop := ∃ e o d t, c' = { c with empty := e, organizations := o, department := d, sortString := t }

theorem OShape.refl (c : Contact) : OShape c c := ⟨c.empty, c.organizations, c.department, c.sortString, rfl⟩
theorem OShape.trans {a b c : Contact} (h1 : OShape a b) (h2 : OShape b c) : OShape a c := by
  obtain ⟨e, f, g, x, rfl⟩ := h1
  obtain ⟨e', f', g', x', rfl⟩ := h2
  exact ⟨e', f', g', x', rfl⟩
theorem OShape.ite {c a b : Contact} {P : Prop} [Decidable P] (h1 : OShape c a) (h2 : OShape c b) : OShape c (if P then a else b) := by
  split
  · exact h1
  · exact h2

theorem oshape_readOrg (l : VCardLine) (c : Contact) : OShape c (readOrg l c) := by
  unfold readOrg
  have step : ∀ (P : Prop) [Decidable P] (x y : Contact), OShape c x → OShape x y → OShape c (if P then y else x) :=
    fun P _ x y h1 h2 => .ite (h1.trans h2) h1
  have step' : ∀ (P : Prop) [Decidable P] (x y : Contact), OShape c x → OShape x y → OShape c (if P then x else y) :=
    fun P _ x y h1 h2 => .ite h1 (h1.trans h2)
  have o1 : ∀ (c : Contact) t, OShape c (c.insertText .organization t) := fun c t => by
    unfold Contact.insertText
    exact .ite ⟨_, _, _, _, rfl⟩ (.refl c)
  have o2 : ∀ (c : Contact) s, OShape c (c.setDepartment s) := fun c s => .ite (.refl c) ⟨_, _, _, _, rfl⟩
  have o3 : ∀ (c : Contact) s, OShape c (c.setSortString s) := fun c s => .ite (.refl c) ⟨_, _, _, _, rfl⟩
  exact step' _ _ _ (step _ _ _ (step _ _ _ (.refl c) (o1 _ _)) (o2 _ _)) (o3 _ _)

theorem insertAddress_shape (c : Contact) (a : Address) :
    c.insertAddress a = { c with empty := (c.insertAddress a).empty, addresses := (c.insertAddress a).addresses } := by
  unfold Contact.insertAddress
  split
  · rfl
  · split <;> rfl

theorem readLabel_shape (id : QString) (l : VCardLine) (c : Contact) :
    (readLabel id l c).1 = { c with empty := (readLabel id l c).1.empty, addresses := (readLabel id l c).1.addresses } := by
  unfold readLabel
  simp only
  cases c.addresses.find? fun a => a.type = addressTypeOf l with
  | some a => exact insertAddress_shape c (a.copyCtor.set (.label l.value.toString))
  | none => exact insertAddress_shape c (({ id := id, type := addressTypeOf l } : Address).set (.label l.value.toString))

theorem insertCustom_shape (c : Contact) (a n v : QString) :
    c.insertCustom a n v = { c with empty := (c.insertCustom a n v).empty, customs := (c.insertCustom a n v).customs } := by
  unfold Contact.insertCustom
  split
  · rfl
  · simp only; split <;> rfl

theorem readX_shape (E : ToolEnv) (l : VCardLine) (c : Contact) :
    readX E l c = { c with empty := (readX E l c).empty, impps := (readX E l c).impps, customs := (readX E l c).customs } := by
  unfold readX
  simp only
  split
  · have := imppLoop_eq E.toQtEnv (fun v => { params := l.params, url := E.urlMake (normalizeImppServiceType (midQ (customKey l) 10 (indexQ (qc! '-') (customKey l) - 10))) v })
      ((splitOn 0xE000 l.value.toString).filter fun s => !s.isEmpty) c
    generalize List.foldl (fun c v => c.insertImpp E.toQtEnv _) c _ = r at this
    rw [this]
  · generalize hr : c.insertCustom _ _ _ = r
    have := insertCustom_shape c (if indexQ (qc! '-') (customKey l) < 0 then customKey l else (customKey l).take (indexQ (qc! '-') (customKey l)).toNat)
      ((customKey l).drop (indexQ (qc! '-') (customKey l) + 1).toNat) l.value.toString
    rw [hr] at this
    rw [this]

set_option maxRecDepth 4000 in
theorem frame (E : ToolEnv) (ids : IdKind → Nat → QString) (s : RState) (l : VCardLine) : Frame (tagOf l) s (readLine E ids s l) := by
  unfold readLine
  cases tagOf l <;> simp only [Frame]
  case anniversary => exact congrArg (fun c => RState.mk c _ _ _ _) (insertCustom_shape s.c _ _ _)
  case label => exact congrArg (fun c => RState.mk c _ _ _ _) (readLabel_shape _ _ _)
  case n =>
    obtain ⟨e, f, g, a, p, x, t, h⟩ := nshape_readN l s.c
    rw [h]
  case org =>
    obtain ⟨e, f, g, a, h⟩ := oshape_readOrg l s.c
    rw [h]
  case x => exact congrArg (fun c => RState.mk c _ _ _ _) (readX_shape E l s.c)
  all_goals
    try unfold Contact.insertFieldGroup
    try unfold Contact.insertAddress
    try unfold Contact.setBirthday
    try unfold Contact.setDeathDate
    try unfold Contact.setCategories
    try unfold Contact.insertCalendarUrl
    try unfold Contact.insertImpp
    try unfold Contact.setSecrecy
    try unfold Contact.setGender
    try unfold Contact.insertLang
    try unfold Contact.addEmail
    try unfold Contact.setKind
    try unfold Contact.setFormattedName
    try unfold Contact.setGeo
    try unfold Contact.insertKey
    try unfold Contact.setLogo
    try unfold Contact.insertExtraLogo
    try unfold Contact.setPhoto
    try unfold Contact.insertExtraPhoto
    try unfold Contact.setSound
    try unfold Contact.insertExtraSound
    try unfold Contact.setMailer
    try unfold Contact.setName
    try unfold Contact.insertText
    try unfold Contact.setNote
    try unfold Contact.setProductId
    try unfold Contact.setRevision
    try unfold Contact.setSortString
    try unfold Contact.insertPhoneNumber
    try unfold Contact.setTimeZone
    try unfold Contact.setUid
    try unfold Contact.insertExtraUrl
    try unfold Contact.insertSourceUrl
    try unfold Contact.insertMember
    try unfold Contact.insertRelationship
    try unfold Contact.insertClientPidMap
    ((repeat' split) <;> rfl)
end KC
