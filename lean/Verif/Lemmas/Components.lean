import Verif.Lemmas.Sections
/- Helper lemmas: each part of a contact as a function of the lines of its kind. -/
namespace KC
open Spec

variable (E : ToolEnv) (ids : IdKind → Nat → QString) (lines : List VCardLine) (s : RState)

theorem comp_uid : (lines.foldl (readLine E ids) s).c.uid = (lines.filter fun l => tagOf l ∈ [Tag.uid]).foldl (fun _ l => l.value.toString) s.c.uid := by
  refine component E ids (fun s => s.c.uid) (fun _ l => l.value.toString) [.uid] lines s ?_ ?_
  · frame_tac E ids (fun s => s.c.uid)
  · line_tac
    rename_i s l _ _
    simp only
    unfold Contact.setUid
    split
    · rename_i h; exact h.symm
    · rfl

theorem comp_name : (lines.foldl (readLine E ids) s).c.name = (lines.filter fun l => tagOf l ∈ [Tag.name]).foldl (fun _ l => l.value.toString) s.c.name := by
  refine component E ids (fun s => s.c.name) (fun _ l => l.value.toString) [.name] lines s ?_ ?_
  · frame_tac E ids (fun s => s.c.name)
  · line_tac
    rename_i s l _ _
    simp only
    unfold Contact.setName
    split
    · rename_i h; exact h.symm
    · rfl

theorem comp_formattedName : (lines.foldl (readLine E ids) s).c.formattedName = (lines.filter fun l => tagOf l ∈ [Tag.fn]).foldl (fun _ l => l.value.toString) s.c.formattedName := by
  refine component E ids (fun s => s.c.formattedName) (fun _ l => l.value.toString) [.fn] lines s ?_ ?_
  · frame_tac E ids (fun s => s.c.formattedName)
  · line_tac
    rename_i s l _ _
    simp only
    unfold Contact.setFormattedName
    split
    · rename_i h; exact h.symm
    · rfl

theorem comp_mailer : (lines.foldl (readLine E ids) s).c.mailer = (lines.filter fun l => tagOf l ∈ [Tag.mailer]).foldl (fun _ l => l.value.toString) s.c.mailer := by
  refine component E ids (fun s => s.c.mailer) (fun _ l => l.value.toString) [.mailer] lines s ?_ ?_
  · frame_tac E ids (fun s => s.c.mailer)
  · line_tac
    rename_i s l _ _
    simp only
    unfold Contact.setMailer
    split
    · rename_i h; exact h.symm
    · rfl

theorem comp_note : (lines.foldl (readLine E ids) s).c.note = (lines.filter fun l => tagOf l ∈ [Tag.note]).foldl (fun _ l => l.value.toString) s.c.note := by
  refine component E ids (fun s => s.c.note) (fun _ l => l.value.toString) [.note] lines s ?_ ?_
  · frame_tac E ids (fun s => s.c.note)
  · line_tac
    rename_i s l _ _
    simp only
    unfold Contact.setNote
    split
    · rename_i h; exact h.symm
    · rfl

theorem comp_productId : (lines.foldl (readLine E ids) s).c.productId = (lines.filter fun l => tagOf l ∈ [Tag.prodid]).foldl (fun _ l => l.value.toString) s.c.productId := by
  refine component E ids (fun s => s.c.productId) (fun _ l => l.value.toString) [.prodid] lines s ?_ ?_
  · frame_tac E ids (fun s => s.c.productId)
  · line_tac
    rename_i s l _ _
    simp only
    unfold Contact.setProductId
    split
    · rename_i h; exact h.symm
    · rfl

theorem comp_kind : (lines.foldl (readLine E ids) s).c.kind = (lines.filter fun l => tagOf l ∈ [Tag.kind]).foldl (fun _ l => l.value.toString) s.c.kind := by
  refine component E ids (fun s => s.c.kind) (fun _ l => l.value.toString) [.kind] lines s ?_ ?_
  · frame_tac E ids (fun s => s.c.kind)
  · line_tac
    rename_i s l _ _
    simp only
    unfold Contact.setKind
    split
    · rename_i h; exact h.symm
    · rfl

theorem comp_secrecy : (lines.foldl (readLine E ids) s).c.secrecy = (lines.filter fun l => tagOf l ∈ [Tag.class_]).foldl (fun _ l => parseSecrecy l) s.c.secrecy := by
  refine component E ids (fun s => s.c.secrecy) (fun _ l => parseSecrecy l) [.class_] lines s ?_ ?_
  · frame_tac E ids (fun s => s.c.secrecy)
  · line_tac
    rename_i s l _ _
    simp only
    unfold Contact.setSecrecy
    split
    · rename_i h; exact h.symm
    · rfl

theorem comp_clientPidMaps : (lines.foldl (readLine E ids) s).c.clientPidMaps = (lines.filter fun l => tagOf l ∈ [Tag.clientpidmap]).foldl
    (fun m l => if ({ params := l.params, text := l.value.toString } : ParamText).isValid then m ++ [({ params := l.params, text := l.value.toString } : ParamText)] else m) s.c.clientPidMaps := by
  refine component E ids (fun s => s.c.clientPidMaps) (fun m l => if ({ params := l.params, text := l.value.toString } : ParamText).isValid then m ++ [({ params := l.params, text := l.value.toString } : ParamText)] else m) [.clientpidmap] lines s ?_ ?_
  · frame_tac E ids (fun s => s.c.clientPidMaps)
  · line_tac
    rename_i s l _ _
    simp only
    unfold Contact.insertClientPidMap
    split <;> rfl

theorem comp_nickNames : (lines.foldl (readLine E ids) s).c.nickNames = (lines.filter fun l => tagOf l ∈ [Tag.nickname]).foldl
    (fun m l => if ({ params := l.params, text := l.value.toString } : ParamText).isValid then m ++ [({ params := l.params, text := l.value.toString } : ParamText)] else m) s.c.nickNames := by
  refine component E ids (fun s => s.c.nickNames) (fun m l => if ({ params := l.params, text := l.value.toString } : ParamText).isValid then m ++ [({ params := l.params, text := l.value.toString } : ParamText)] else m) [.nickname] lines s ?_ ?_
  · frame_tac E ids (fun s => s.c.nickNames)
  · line_tac
    rename_i s l _ _
    simp only
    unfold Contact.insertText
    split <;> rfl

theorem comp_titles : (lines.foldl (readLine E ids) s).c.titles = (lines.filter fun l => tagOf l ∈ [Tag.title]).foldl
    (fun m l => if ({ params := l.params, text := l.value.toString } : ParamText).isValid then m ++ [({ params := l.params, text := l.value.toString } : ParamText)] else m) s.c.titles := by
  refine component E ids (fun s => s.c.titles) (fun m l => if ({ params := l.params, text := l.value.toString } : ParamText).isValid then m ++ [({ params := l.params, text := l.value.toString } : ParamText)] else m) [.title] lines s ?_ ?_
  · frame_tac E ids (fun s => s.c.titles)
  · line_tac
    rename_i s l _ _
    simp only
    unfold Contact.insertText
    split <;> rfl

theorem comp_roles : (lines.foldl (readLine E ids) s).c.roles = (lines.filter fun l => tagOf l ∈ [Tag.role]).foldl
    (fun m l => if ({ params := l.params, text := l.value.toString } : ParamText).isValid then m ++ [({ params := l.params, text := l.value.toString } : ParamText)] else m) s.c.roles := by
  refine component E ids (fun s => s.c.roles) (fun m l => if ({ params := l.params, text := l.value.toString } : ParamText).isValid then m ++ [({ params := l.params, text := l.value.toString } : ParamText)] else m) [.role] lines s ?_ ?_
  · frame_tac E ids (fun s => s.c.roles)
  · line_tac
    rename_i s l _ _
    simp only
    unfold Contact.insertText
    split <;> rfl

/-- the components of the name after a line -/
def nameAfter (p : QString × QString × QString × QString × QString) (l : VCardLine) : QString × QString × QString × QString × QString :=
  let parts := splitString (qc! ';') l.value.toString
  (if parts.length > 0 then parts.getD 0 [] else p.1, if parts.length > 1 then parts.getD 1 [] else p.2.1,
   if parts.length > 2 then parts.getD 2 [] else p.2.2.1, if parts.length > 3 then parts.getD 3 [] else p.2.2.2.1,
   if parts.length > 4 then parts.getD 4 [] else p.2.2.2.2)

def namesOf (c : Contact) : QString × QString × QString × QString × QString := (c.familyName, c.givenName, c.additionalName, c.prefix_, c.suffix)

theorem namesOf_ite {P : Prop} [Decidable P] (a b : Contact) : namesOf (if P then a else b) = if P then namesOf a else namesOf b := by split <;> rfl

theorem namesOf_readN (l : VCardLine) (c : Contact) : namesOf (readN l c) = nameAfter (namesOf c) l := by
  unfold readN nameAfter
  have h1 : ∀ (c : Contact) s, namesOf (c.setFamilyName s) = (s, (namesOf c).2) := by
    intro c s; unfold Contact.setFamilyName; split
    · rename_i h; rw [h]; rfl
    · rfl
  have h2 : ∀ (c : Contact) s, namesOf (c.setGivenName s) = ((namesOf c).1, s, (namesOf c).2.2) := by
    intro c s; unfold Contact.setGivenName; split
    · rename_i h; rw [h]; rfl
    · rfl
  have h3 : ∀ (c : Contact) s, namesOf (c.setAdditionalName s) = ((namesOf c).1, (namesOf c).2.1, s, (namesOf c).2.2.2) := by
    intro c s; unfold Contact.setAdditionalName; split
    · rename_i h; rw [h]; rfl
    · rfl
  have h4 : ∀ (c : Contact) s, namesOf (c.setPrefix s) = ((namesOf c).1, (namesOf c).2.1, (namesOf c).2.2.1, s, (namesOf c).2.2.2.2) := by
    intro c s; unfold Contact.setPrefix; split
    · rename_i h; rw [h]; rfl
    · rfl
  have h5 : ∀ (c : Contact) s, namesOf (c.setSuffix s) = ((namesOf c).1, (namesOf c).2.1, (namesOf c).2.2.1, (namesOf c).2.2.2.1, s) := by
    intro c s; unfold Contact.setSuffix; split
    · rename_i h; rw [h]; rfl
    · rfl
  have h6 : ∀ (c : Contact) s, namesOf (c.setSortString s) = namesOf c := by
    intro c s; unfold Contact.setSortString; split <;> rfl
  generalize splitString (qc! ';') l.value.toString = parts
  simp only [namesOf_ite, h1, h2, h3, h4, h5, h6, ite_self]
  (repeat' split) <;> rfl

theorem comp_names : namesOf (lines.foldl (readLine E ids) s).c = (lines.filter fun l => tagOf l ∈ [Tag.n]).foldl
    (nameAfter) (namesOf s.c) := by
  refine component E ids (fun s => namesOf s.c) (nameAfter) [Tag.n] lines s ?_ ?_
  · frame_tac E ids (fun s => namesOf s.c)
  · line_tac
    rename_i s l _ _
    exact namesOf_readN l s.c

/-- the sort string after a line -/
def sortAfter (t : QString) (l : VCardLine) : QString :=
  if tagOf l = .sortString then l.value.toString else if (l.parameter (q! "sort-as")).isEmpty then t else l.parameter (q! "sort-as")

theorem sort_set (c : Contact) (s : QString) : (c.setSortString s).sortString = s := by
  unfold Contact.setSortString; split
  · rename_i h; exact h.symm
  · rfl

theorem sort_readN (l : VCardLine) (c : Contact) :
    (readN l c).sortString = if (l.parameter (q! "sort-as")).isEmpty then c.sortString else l.parameter (q! "sort-as") := by
  unfold readN
  have h0 : ∀ {P : Prop} [Decidable P] (a b : Contact), (if P then a else b).sortString = if P then a.sortString else b.sortString := by
    intro P _ a b; split <;> rfl
  have h1 : ∀ (c : Contact) s, (c.setFamilyName s).sortString = c.sortString := by intro c s; unfold Contact.setFamilyName; split <;> rfl
  have h2 : ∀ (c : Contact) s, (c.setGivenName s).sortString = c.sortString := by intro c s; unfold Contact.setGivenName; split <;> rfl
  have h3 : ∀ (c : Contact) s, (c.setAdditionalName s).sortString = c.sortString := by intro c s; unfold Contact.setAdditionalName; split <;> rfl
  have h4 : ∀ (c : Contact) s, (c.setPrefix s).sortString = c.sortString := by intro c s; unfold Contact.setPrefix; split <;> rfl
  have h5 : ∀ (c : Contact) s, (c.setSuffix s).sortString = c.sortString := by intro c s; unfold Contact.setSuffix; split <;> rfl
  simp only [h0, h1, h2, h3, h4, h5, sort_set, ite_self]

theorem sort_readOrg (l : VCardLine) (c : Contact) :
    (readOrg l c).sortString = if (l.parameter (q! "sort-as")).isEmpty then c.sortString else l.parameter (q! "sort-as") := by
  unfold readOrg
  have h0 : ∀ {P : Prop} [Decidable P] (a b : Contact), (if P then a else b).sortString = if P then a.sortString else b.sortString := by
    intro P _ a b; split <;> rfl
  have h1 : ∀ (c : Contact) s, (c.insertText .organization s).sortString = c.sortString := by intro c s; unfold Contact.insertText; split <;> rfl
  have h2 : ∀ (c : Contact) s, (c.setDepartment s).sortString = c.sortString := by intro c s; unfold Contact.setDepartment; split <;> rfl
  simp only [h0, h1, h2, sort_set, ite_self]

theorem comp_sortString : (lines.foldl (readLine E ids) s).c.sortString = (lines.filter fun l => tagOf l ∈ [Tag.n, Tag.org, Tag.sortString]).foldl
    (sortAfter) s.c.sortString := by
  refine component E ids (fun s => s.c.sortString) (sortAfter) [Tag.n, Tag.org, Tag.sortString] lines s ?_ ?_
  · frame_tac E ids (fun s => s.c.sortString)
  · intro s l _ ht
    unfold readLine sortAfter
    rcases List.mem_cons.1 ht with h | h
    · rw [h]; exact sort_readN l s.c
    · rcases List.mem_cons.1 h with h | h
      · rw [h]; exact sort_readOrg l s.c
      · rw [List.mem_singleton.1 h]; exact sort_set _ _

theorem comp_birthday : ((lines.foldl (readLine E ids) s).c.birthday, (lines.foldl (readLine E ids) s).c.birthdayWithTime) = (lines.filter fun l => tagOf l ∈ [Tag.bday]).foldl
    (fun p l => if QDateTime.eq E.toQtEnv (parseDateTime l.value.toString).1 p.1 && p.2 = (parseDateTime l.value.toString).2 then p
      else (if (parseDateTime l.value.toString).2 then (parseDateTime l.value.toString).1 else (parseDateTime l.value.toString).1.midnight, (parseDateTime l.value.toString).2)) (s.c.birthday, s.c.birthdayWithTime) := by
  refine component E ids (fun s => (s.c.birthday, s.c.birthdayWithTime)) (fun p l => if QDateTime.eq E.toQtEnv (parseDateTime l.value.toString).1 p.1 && p.2 = (parseDateTime l.value.toString).2 then p
      else (if (parseDateTime l.value.toString).2 then (parseDateTime l.value.toString).1 else (parseDateTime l.value.toString).1.midnight, (parseDateTime l.value.toString).2)) [Tag.bday] lines s ?_ ?_
  · frame_tac E ids (fun s => (s.c.birthday, s.c.birthdayWithTime))
  · line_tac
    rename_i s l _ _
    simp only
    unfold Contact.setBirthday
    split <;> rfl

theorem comp_revision : (lines.foldl (readLine E ids) s).c.revision = (lines.filter fun l => tagOf l ∈ [Tag.rev]).foldl
    (fun d l => if QDateTime.eq E.toQtEnv (parseDateTime l.value.toString).1 d then d else (parseDateTime l.value.toString).1) s.c.revision := by
  refine component E ids (fun s => s.c.revision) (fun d l => if QDateTime.eq E.toQtEnv (parseDateTime l.value.toString).1 d then d else (parseDateTime l.value.toString).1) [Tag.rev] lines s ?_ ?_
  · frame_tac E ids (fun s => s.c.revision)
  · line_tac
    rename_i s l _ _
    simp only
    unfold Contact.setRevision
    split <;> rfl

theorem comp_deathDate : (lines.foldl (readLine E ids) s).c.deathDate = (lines.filter fun l => tagOf l ∈ [Tag.deathdate]).foldl
    (fun d l => if QDateTime.eq E.toQtEnv (parseDateTime l.value.toString).1 d then d else (parseDateTime l.value.toString).1) s.c.deathDate := by
  refine component E ids (fun s => s.c.deathDate) (fun d l => if QDateTime.eq E.toQtEnv (parseDateTime l.value.toString).1 d then d else (parseDateTime l.value.toString).1) [Tag.deathdate] lines s ?_ ?_
  · frame_tac E ids (fun s => s.c.deathDate)
  · line_tac
    rename_i s l _ _
    simp only
    unfold Contact.setDeathDate
    split <;> rfl

theorem comp_timeZone : (lines.foldl (readLine E ids) s).c.timeZone = (lines.filter fun l => tagOf l ∈ [Tag.tz]).foldl
    (fun z l => match readTimeZone l.value.toString with | some t => if t.eq z then z else t | none => z) s.c.timeZone := by
  refine component E ids (fun s => s.c.timeZone) (fun z l => match readTimeZone l.value.toString with | some t => if t.eq z then z else t | none => z) [Tag.tz] lines s ?_ ?_
  · frame_tac E ids (fun s => s.c.timeZone)
  · line_tac
    rename_i s l _ _
    simp only
    cases readTimeZone l.value.toString with
    | none => rfl
    | some t =>
      simp only
      unfold Contact.setTimeZone
      split <;> rfl

theorem comp_geo : (lines.foldl (readLine E ids) s).c.geo = (lines.filter fun l => tagOf l ∈ [Tag.geo]).foldl
    (fun z l => match readGeo E l.value.toString with | some t => if t.eq z then z else t | none => z) s.c.geo := by
  refine component E ids (fun s => s.c.geo) (fun z l => match readGeo E l.value.toString with | some t => if t.eq z then z else t | none => z) [Tag.geo] lines s ?_ ?_
  · frame_tac E ids (fun s => s.c.geo)
  · line_tac
    rename_i s l _ _
    simp only
    cases readGeo E l.value.toString with
    | none => rfl
    | some t =>
      simp only
      unfold Contact.setGeo
      split <;> rfl

theorem comp_gender : (lines.foldl (readLine E ids) s).c.gender = (lines.filter fun l => tagOf l ∈ [Tag.gender]).foldl
    (fun g l => if l.value.toString.isEmpty then g else readGender l.value.toString) s.c.gender := by
  refine component E ids (fun s => s.c.gender) (fun g l => if l.value.toString.isEmpty then g else readGender l.value.toString) [Tag.gender] lines s ?_ ?_
  · frame_tac E ids (fun s => s.c.gender)
  · line_tac
    rename_i s l _ _
    simp only
    split
    · rfl
    · unfold Contact.setGender
      split
      · rename_i h; exact h.symm
      · rfl

theorem comp_categories : (lines.foldl (readLine E ids) s).c.categories = (lines.filter fun l => tagOf l ∈ [Tag.categories]).foldl
    (fun _ l => splitString (qc! ',') l.value.toString) s.c.categories := by
  refine component E ids (fun s => s.c.categories) (fun _ l => splitString (qc! ',') l.value.toString) [Tag.categories] lines s ?_ ?_
  · frame_tac E ids (fun s => s.c.categories)
  · line_tac
    rename_i s l _ _
    rfl

/-- the pictures after a line -/
def pictureAfter (E : ToolEnv) (p : Picture × List Picture) (l : VCardLine) : Picture × List Picture :=
  match parsePicture l with
  | none => p
  | some q => if p.1.isEmpty then (if q.eq E.toQtEnv p.1 then p.1 else q, p.2) else (p.1, p.2 ++ [q])

theorem comp_logo : ((lines.foldl (readLine E ids) s).c.logo, (lines.foldl (readLine E ids) s).c.extraLogos) = (lines.filter fun l => tagOf l ∈ [Tag.logo]).foldl
    (pictureAfter E) (s.c.logo, s.c.extraLogos) := by
  refine component E ids (fun s => (s.c.logo, s.c.extraLogos)) (pictureAfter E) [Tag.logo] lines s ?_ ?_
  · frame_tac E ids (fun s => (s.c.logo, s.c.extraLogos))
  · line_tac
    rename_i s l _ _
    simp only
    unfold pictureAfter
    cases parsePicture l with
    | none => rfl
    | some q =>
      simp only
      split
      · unfold Contact.setLogo
        split <;> rfl
      · rfl

theorem comp_photo : ((lines.foldl (readLine E ids) s).c.photo, (lines.foldl (readLine E ids) s).c.extraPhotos) = (lines.filter fun l => tagOf l ∈ [Tag.photo]).foldl
    (pictureAfter E) (s.c.photo, s.c.extraPhotos) := by
  refine component E ids (fun s => (s.c.photo, s.c.extraPhotos)) (pictureAfter E) [Tag.photo] lines s ?_ ?_
  · frame_tac E ids (fun s => (s.c.photo, s.c.extraPhotos))
  · line_tac
    rename_i s l _ _
    simp only
    unfold pictureAfter
    cases parsePicture l with
    | none => rfl
    | some q =>
      simp only
      split
      · unfold Contact.setPhoto
        split <;> rfl
      · rfl

theorem comp_ub : (lines.foldl (readLine E ids) s).ub = (lines.filter fun l => tagOf l ∈ [Tag.logo, Tag.photo]).foldl
    (fun b l => b || (parsePicture l).isNone) s.ub := by
  refine component E ids (fun s => s.ub) (fun b l => b || (parsePicture l).isNone) [Tag.logo, Tag.photo] lines s ?_ ?_
  · frame_tac E ids (fun s => s.ub)
  · intro s l _ ht
    unfold readLine
    rcases List.mem_cons.1 ht with h | h
    · rw [h]; simp only; cases parsePicture l <;> simp
    · rw [List.mem_singleton.1 h]; simp only; cases parsePicture l <;> simp

theorem comp_sound : ((lines.foldl (readLine E ids) s).c.sound, (lines.foldl (readLine E ids) s).c.extraSounds) = (lines.filter fun l => tagOf l ∈ [Tag.sound]).foldl
    (fun p l => if p.1.isEmpty then (if (parseSound l).eq p.1 then p.1 else parseSound l, p.2) else (p.1, p.2 ++ [parseSound l])) (s.c.sound, s.c.extraSounds) := by
  refine component E ids (fun s => (s.c.sound, s.c.extraSounds)) (fun p l => if p.1.isEmpty then (if (parseSound l).eq p.1 then p.1 else parseSound l, p.2) else (p.1, p.2 ++ [parseSound l])) [Tag.sound] lines s ?_ ?_
  · frame_tac E ids (fun s => (s.c.sound, s.c.extraSounds))
  · line_tac
    rename_i s l _ _
    simp only
    split
    · unfold Contact.setSound
      split <;> rfl
    · rfl

/-- the phone numbers after a line -/
def phoneAfter (ids : IdKind → Nat → QString) (p : List PhoneNumber × Nat) (l : VCardLine) : List PhoneNumber × Nat :=
  let q := readPhone (ids .phone p.2) l
  (match findFirst PhoneNumber.id q.id p.1 with
    | some _ => replaceFirst PhoneNumber.id q.id q p.1
    | none => if (simplified q.number).isEmpty then p.1 else p.1 ++ [q], p.2 + 1)

theorem comp_phones : ((lines.foldl (readLine E ids) s).c.phoneNumbers, (lines.foldl (readLine E ids) s).phones) = (lines.filter fun l => tagOf l ∈ [Tag.tel]).foldl
    (phoneAfter ids) (s.c.phoneNumbers, s.phones) := by
  refine component E ids (fun s => (s.c.phoneNumbers, s.phones)) (phoneAfter ids) [Tag.tel] lines s ?_ ?_
  · frame_tac E ids (fun s => (s.c.phoneNumbers, s.phones))
  · line_tac
    rename_i s l _ _
    simp only
    unfold Contact.insertPhoneNumber phoneAfter
    simp only
    cases findFirst PhoneNumber.id (readPhone (ids .phone s.phones) l).id s.c.phoneNumbers with
    | none => rfl
    | some _ => rfl

/-- the keys after a line -/
def keyAfter (ids : IdKind → Nat → QString) (p : List Key × Nat) (l : VCardLine) : List Key × Nat :=
  let q := parseKey (ids .key p.2) l
  (match findFirst Key.id q.id p.1 with
    | some _ => replaceFirst Key.id q.id q p.1
    | none => p.1 ++ [q], p.2 + 1)

theorem comp_keys : ((lines.foldl (readLine E ids) s).c.keys, (lines.foldl (readLine E ids) s).keys) = (lines.filter fun l => tagOf l ∈ [Tag.key]).foldl
    (keyAfter ids) (s.c.keys, s.keys) := by
  refine component E ids (fun s => (s.c.keys, s.keys)) (keyAfter ids) [Tag.key] lines s ?_ ?_
  · frame_tac E ids (fun s => (s.c.keys, s.keys))
  · line_tac
    rename_i s l _ _
    simp only
    unfold Contact.insertKey keyAfter
    simp only
    cases findFirst Key.id (parseKey (ids .key s.keys) l).id s.c.keys with
    | none => rfl
    | some _ => rfl

/-- inserting an address into a list -/
def addAddress (m : List Address) (a : Address) : List Address :=
  if a.empty then m else match findFirst Address.id a.id m with
    | some _ => replaceFirst Address.id a.id a m
    | none => m ++ [a]

theorem addAddress_eq (c : Contact) (a : Address) : (c.insertAddress a).addresses = addAddress c.addresses a := by
  unfold Contact.insertAddress addAddress
  split
  · rfl
  · cases findFirst Address.id a.id c.addresses with
    | none => rfl
    | some _ => rfl

/-- the addresses after a line -/
def addressAfter (E : ToolEnv) (ids : IdKind → Nat → QString) (p : List Address × Nat) (l : VCardLine) : List Address × Nat :=
  if tagOf l = .adr then (addAddress p.1 (readAddress E (ids .address p.2) l), p.2 + 1)
  else match p.1.find? fun a => a.type = addressTypeOf l with
    | some a => (addAddress p.1 (a.copyCtor.set (.label l.value.toString)), p.2)
    | none => (addAddress p.1 (({ id := ids .address p.2, type := addressTypeOf l } : Address).set (.label l.value.toString)), p.2 + 1)

theorem comp_addresses : ((lines.foldl (readLine E ids) s).c.addresses, (lines.foldl (readLine E ids) s).addresses) = (lines.filter fun l => tagOf l ∈ [Tag.adr, Tag.label]).foldl
    (addressAfter E ids) (s.c.addresses, s.addresses) := by
  refine component E ids (fun s => (s.c.addresses, s.addresses)) (addressAfter E ids) [Tag.adr, Tag.label] lines s ?_ ?_
  · frame_tac E ids (fun s => (s.c.addresses, s.addresses))
  · intro s l _ ht
    unfold readLine addressAfter
    rcases List.mem_cons.1 ht with h | h
    · rw [h]; simp only [if_pos]; rw [addAddress_eq]
    · rw [List.mem_singleton.1 h]
      simp only [reduceCtorEq, if_false]
      unfold readLabel
      simp only
      rcases hf : s.c.addresses.find? (fun a => decide (a.type = addressTypeOf l)) with _ | a
      · simp only [hf, if_true]; rw [addAddress_eq]
      · simp only [hf, Bool.false_eq_true, if_false]; rw [addAddress_eq]

/-- the e-mail addresses after a line -/
def emailAfter (m : List Email) (l : VCardLine) : List Email :=
  let e : Email := { params := l.params, mail := l.value.toString }
  match findFirst Email.mail e.mail m with
  | some _ => if e.isPreferred then rotateToFront Email.mail e.mail (replaceFirst Email.mail e.mail e m) else replaceFirst Email.mail e.mail e m
  | none => if e.isPreferred then e :: m else m ++ [e]

theorem comp_emails : (lines.foldl (readLine E ids) s).c.emails = (lines.filter fun l => tagOf l ∈ [Tag.email]).foldl
    (emailAfter) s.c.emails := by
  refine component E ids (fun s => s.c.emails) (emailAfter) [Tag.email] lines s ?_ ?_
  · frame_tac E ids (fun s => s.c.emails)
  · line_tac
    rename_i s l _ _
    simp only
    unfold Contact.addEmail emailAfter
    simp only
    cases findFirst Email.mail l.value.toString s.c.emails with
    | none => rfl
    | some _ => rfl

/-- the languages after a line -/
def langAfter (m : List ParamText) (l : VCardLine) : List ParamText :=
  let t : ParamText := { params := l.params, text := l.value.toString }
  if (simplified t.text).isEmpty then m
  else match findFirst ParamText.text t.text m with
    | some x => replaceFirst ParamText.text t.text { x with params := t.params } m
    | none => m ++ [t]

theorem comp_langs : (lines.foldl (readLine E ids) s).c.langs = (lines.filter fun l => tagOf l ∈ [Tag.lang]).foldl
    (langAfter) s.c.langs := by
  refine component E ids (fun s => s.c.langs) (langAfter) [Tag.lang] lines s ?_ ?_
  · frame_tac E ids (fun s => s.c.langs)
  · line_tac
    rename_i s l _ _
    simp only
    unfold Contact.insertLang langAfter
    simp only
    split
    · rfl
    · cases findFirst ParamText.text l.value.toString s.c.langs with
      | none => rfl
      | some _ => rfl

theorem readX_custom {l : VCardLine} (h : startsWith (q! "messaging/") (customKey l) = false) (c : Contact) :
    readX E l c = c.insertCustom (if indexQ (qc! '-') (customKey l) < 0 then customKey l else (customKey l).take (indexQ (qc! '-') (customKey l)).toNat)
      ((customKey l).drop (indexQ (qc! '-') (customKey l) + 1).toNat) l.value.toString := by
  unfold readX
  simp only [h]
  rfl

/-- the messaging addresses after a line -/
def imppAfter (E : ToolEnv) (m : List ParamUrl) (l : VCardLine) : List ParamUrl :=
  let service := l.parameter (q! "x-service-type")
  let url := E.urlOf l.value.toString
  let url := if !service.isEmpty && (E.urlScheme url).isEmpty then E.urlSetScheme url (normalizeImppServiceType (toLowerQ service)) else url
  if ({ params := l.params, url := url } : ParamUrl).isValidImpp E.toQtEnv then m ++ [{ params := l.params, url := url }] else m

theorem comp_impps (hx : ∀ l ∈ lines, tagOf l = .x → startsWith (q! "messaging/") (customKey l) = false) : (lines.foldl (readLine E ids) s).c.impps = (lines.filter fun l => tagOf l ∈ [Tag.impp]).foldl
    (imppAfter E) s.c.impps := by
  refine component E ids (fun s => s.c.impps) (imppAfter E) [Tag.impp] lines s ?_ ?_
  · intro s l hl ht
    by_cases hX : tagOf l = .x
    · unfold readLine
      rw [hX]
      simp only
      rw [readX_custom E (hx l hl hX), insertCustom_shape]
    · revert ht
      revert hX
      have f := frame E ids s l
      generalize readLine E ids s l = s' at f ⊢
      intro hX ht
      cases hT : tagOf l <;> rw [hT] at f ht hX <;> first | exact absurd (by decide) ht | exact absurd rfl hX | exact (congrArg (fun s => s.c.impps) f).trans rfl
  · line_tac
    rename_i s l _ _
    simp only
    unfold Contact.insertImpp imppAfter
    simp only
    (repeat' split) <;> rfl

/-- inserting a custom field -/
def addCustom (m : SMap QString) (app name value : QString) : SMap QString :=
  if value.isEmpty || name.isEmpty || app.isEmpty then m else SMap.upsert m (qualifiedName app name) value fun _ => value

theorem addCustom_eq (c : Contact) (app name value : QString) : (c.insertCustom app name value).customs = addCustom c.customs app name value := by
  unfold Contact.insertCustom addCustom SMap.upsert
  split
  · rfl
  · simp only
    cases c.customs.find (qualifiedName app name) with
    | none => rfl
    | some _ => rfl

/-- the custom fields after a line -/
def customAfter (m : SMap QString) (l : VCardLine) : SMap QString :=
  if tagOf l = .anniversary then addCustom m (q! "KADDRESSBOOK") (q! "X-Anniversary") (isoDate ((parseDateTime l.value.toString).1.map (·.date)))
  else addCustom m (if indexQ (qc! '-') (customKey l) < 0 then customKey l else (customKey l).take (indexQ (qc! '-') (customKey l)).toNat)
      ((customKey l).drop (indexQ (qc! '-') (customKey l) + 1).toNat) l.value.toString

theorem comp_customs (hx : ∀ l ∈ lines, tagOf l = .x → startsWith (q! "messaging/") (customKey l) = false) : (lines.foldl (readLine E ids) s).c.customs = (lines.filter fun l => tagOf l ∈ [Tag.x, Tag.anniversary]).foldl
    (customAfter) s.c.customs := by
  refine component E ids (fun s => s.c.customs) (customAfter) [Tag.x, Tag.anniversary] lines s ?_ ?_
  · frame_tac E ids (fun s => s.c.customs)
  · intro s l hl ht
    unfold readLine customAfter
    rcases List.mem_cons.1 ht with h | h
    · rw [h]; simp only [reduceCtorEq, if_false]; rw [readX_custom E (hx l hl h), addCustom_eq]
    · rw [List.mem_singleton.1 h]; simp only [if_true]; rw [addCustom_eq]

/-- the kind of a calendar URL in a line -/
def calendarType (t : Tag) : Nat := match t with | .fburl => 1 | .caluri => 2 | _ => 3

theorem comp_calendarUrls : (lines.foldl (readLine E ids) s).c.calendarUrls = (lines.filter fun l => tagOf l ∈ [Tag.caladruri, Tag.caluri, Tag.fburl]).foldl
    (fun m l => if ({ params := l.params, url := E.urlOf l.value.toString, type := calendarType (tagOf l) } : CalendarUrl).isValid E.toQtEnv
      then m ++ [{ params := l.params, url := E.urlOf l.value.toString, type := calendarType (tagOf l) }] else m) s.c.calendarUrls := by
  refine component E ids (fun s => s.c.calendarUrls) (fun m l => if ({ params := l.params, url := E.urlOf l.value.toString, type := calendarType (tagOf l) } : CalendarUrl).isValid E.toQtEnv
      then m ++ [{ params := l.params, url := E.urlOf l.value.toString, type := calendarType (tagOf l) }] else m) [Tag.caladruri, Tag.caluri, Tag.fburl] lines s ?_ ?_
  · frame_tac E ids (fun s => s.c.calendarUrls)
  · intro s l _ ht
    unfold readLine
    rcases List.mem_cons.1 ht with h | h
    · rw [h]; rfl
    · rcases List.mem_cons.1 h with h | h
      · rw [h]; rfl
      · rw [List.mem_singleton.1 h]; rfl

theorem comp_extraUrls : (lines.foldl (readLine E ids) s).c.extraUrls = (lines.filter fun l => tagOf l ∈ [Tag.url]).foldl
    (fun m l => if ({ params := l.params, url := E.urlOf l.value.toString } : ParamUrl).isValidUrl E.toQtEnv
      then m ++ [{ params := l.params, url := E.urlOf l.value.toString }] else m) s.c.extraUrls := by
  refine component E ids (fun s => s.c.extraUrls) (fun m l => if ({ params := l.params, url := E.urlOf l.value.toString } : ParamUrl).isValidUrl E.toQtEnv
      then m ++ [{ params := l.params, url := E.urlOf l.value.toString }] else m) [Tag.url] lines s ?_ ?_
  · frame_tac E ids (fun s => s.c.extraUrls)
  · line_tac
    rename_i s l _ _
    simp only
    unfold Contact.insertExtraUrl
    split <;> rfl

theorem comp_sources : (lines.foldl (readLine E ids) s).c.sources = (lines.filter fun l => tagOf l ∈ [Tag.source]).foldl
    (fun m l => m ++ [E.urlOf l.value.toString]) s.c.sources := by
  refine component E ids (fun s => s.c.sources) (fun m l => m ++ [E.urlOf l.value.toString]) [Tag.source] lines s ?_ ?_
  · frame_tac E ids (fun s => s.c.sources)
  · line_tac
    rename_i s l _ _
    rfl

theorem comp_members : (lines.foldl (readLine E ids) s).c.members = (lines.filter fun l => tagOf l ∈ [Tag.member]).foldl
    (fun m l => if l.value.toString ∈ m then m else m ++ [l.value.toString]) s.c.members := by
  refine component E ids (fun s => s.c.members) (fun m l => if l.value.toString ∈ m then m else m ++ [l.value.toString]) [Tag.member] lines s ?_ ?_
  · frame_tac E ids (fun s => s.c.members)
  · line_tac
    rename_i s l _ _
    rfl

theorem comp_relationships : (lines.foldl (readLine E ids) s).c.relationships = (lines.filter fun l => tagOf l ∈ [Tag.related]).foldl
    (fun m l => if ({ params := l.params, text := l.value.toString } : ParamText) ∈ m then m
      else m ++ [{ params := l.params, text := l.value.toString }]) s.c.relationships := by
  refine component E ids (fun s => s.c.relationships) (fun m l => if ({ params := l.params, text := l.value.toString } : ParamText) ∈ m then m
      else m ++ [{ params := l.params, text := l.value.toString }]) [Tag.related] lines s ?_ ?_
  · frame_tac E ids (fun s => s.c.relationships)
  · line_tac
    rename_i s l _ _
    rfl

theorem comp_fieldGroups : (lines.foldl (readLine E ids) s).c.fieldGroups = (lines.filter fun l => tagOf l ∈ [Tag.fieldGroup]).foldl
    (fun m l => m ++ [{ params := l.params, fieldGroupName := l.group ++ qc! '.' :: l.identifier, value := l.value.toString }]) s.c.fieldGroups := by
  refine component E ids (fun s => s.c.fieldGroups) (fun m l => m ++ [{ params := l.params, fieldGroupName := l.group ++ qc! '.' :: l.identifier, value := l.value.toString }]) [Tag.fieldGroup] lines s ?_ ?_
  · frame_tac E ids (fun s => s.c.fieldGroups)
  · line_tac
    rename_i s l _ _
    simp only
    unfold Contact.insertFieldGroup
    rw [if_pos]
    simp [FieldGroup.isValid]

/-- organisations and department after a line -/
def orgAfter (p : List ParamText × QString) (l : VCardLine) : List ParamText × QString :=
  let parts := splitString (qc! ';') l.value.toString
  (if parts.length > 0 then if ({ params := l.params, text := parts.getD 0 [] } : ParamText).isValid then p.1 ++ [{ params := l.params, text := parts.getD 0 [] }] else p.1 else p.1,
   if parts.length > 1 then parts.getD 1 [] else p.2)

theorem org_readOrg (l : VCardLine) (c : Contact) :
    ((readOrg l c).organizations, (readOrg l c).department) = orgAfter (c.organizations, c.department) l := by
  unfold readOrg orgAfter
  have h0 : ∀ {P : Prop} [Decidable P] (a b : Contact), (if P then a else b).organizations = if P then a.organizations else b.organizations := by
    intro P _ a b; split <;> rfl
  have h0' : ∀ {P : Prop} [Decidable P] (a b : Contact), (if P then a else b).department = if P then a.department else b.department := by
    intro P _ a b; split <;> rfl
  have h1 : ∀ (c : Contact) s, (c.setDepartment s).organizations = c.organizations := by intro c s; unfold Contact.setDepartment; split <;> rfl
  have h1' : ∀ (c : Contact) s, (c.setDepartment s).department = s := by
    intro c s; unfold Contact.setDepartment; split
    · rename_i h; exact h.symm
    · rfl
  have h2 : ∀ (c : Contact) s, (c.setSortString s).organizations = c.organizations := by intro c s; unfold Contact.setSortString; split <;> rfl
  have h2' : ∀ (c : Contact) s, (c.setSortString s).department = c.department := by intro c s; unfold Contact.setSortString; split <;> rfl
  have h3 : ∀ (c : Contact) t, (c.insertText .organization t).organizations = if t.isValid then c.organizations ++ [t] else c.organizations := by
    intro c s; unfold Contact.insertText; split <;> rfl
  have h3' : ∀ (c : Contact) t, (c.insertText .organization t).department = c.department := by
    intro c s; unfold Contact.insertText; split <;> rfl
  simp only [h0, h1, h2, h3, h0', h1', h2', h3', ite_self]

theorem comp_organizations : ((lines.foldl (readLine E ids) s).c.organizations, (lines.foldl (readLine E ids) s).c.department) = (lines.filter fun l => tagOf l ∈ [Tag.org]).foldl
    (orgAfter) (s.c.organizations, s.c.department) := by
  refine component E ids (fun s => (s.c.organizations, s.c.department)) (orgAfter) [Tag.org] lines s ?_ ?_
  · frame_tac E ids (fun s => (s.c.organizations, s.c.department))
  · line_tac
    rename_i s l _ _
    exact org_readOrg l s.c

theorem comp_changed : (lines.foldl (readLine E ids) s).c.changed = s.c.changed := by
  refine component E ids (fun s => s.c.changed) (fun b _ => b) [] lines s ?_ ?_ |>.trans ?_
  · frame_tac E ids (fun s => s.c.changed)
  · intro s l _ ht; cases ht
  · simp

end KC
