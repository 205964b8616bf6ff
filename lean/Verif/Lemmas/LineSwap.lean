import Verif.Lemmas.LetterCase
import Verif.Props.C70
/- Helper lemmas for C84: lines of a vCard about different things can be read in any order. -/
namespace KC
open Spec

/-! ### calls about different fields -/

theorem apply_comm (E : QtEnv) (c : Contact) (a b : Op) (h : fieldOf a ≠ fieldOf b) : (c.apply E a).apply E b = (c.apply E b).apply E a := by
  have ha := apply_local E (c.apply E b) c a (apply_other E c b h)
  have hb := apply_local E (c.apply E a) c b (apply_other E c a h.symm)
  apply contact_same_fields
  · intro f
    by_cases hfb : f = fieldOf b
    · subst hfb
      exact sameIn_trans hb.1 (sameIn_symm (apply_other E _ a h.symm))
    · by_cases hfa : f = fieldOf a
      · subst hfa
        exact sameIn_trans (apply_other E _ b h) (sameIn_symm ha.1)
      · exact sameIn_trans (sameIn_trans (apply_other E _ b hfb) (apply_other E _ a hfa))
          (sameIn_symm (sameIn_trans (apply_other E _ a hfa) (apply_other E _ b hfb)))
  · rcases ha.2 with ⟨h1, h2⟩ | ⟨h1, h2⟩ <;> rcases hb.2 with ⟨h3, h4⟩ | ⟨h3, h4⟩
    · rw [h3, h2, h1, h4]
    · rw [h3, h1, h4]
    · rw [h3, h2, h1]
    · rw [h3, h1]

/-- several calls -/
def applyAll (E : QtEnv) (c : Contact) (ops : List Op) : Contact := ops.foldl (Contact.apply E) c

theorem applyAll_one (E : QtEnv) (c : Contact) (a : Op) (B : List Op) (h : ∀ b ∈ B, fieldOf a ≠ fieldOf b) :
    applyAll E (c.apply E a) B = (applyAll E c B).apply E a := by
  induction B generalizing c with
  | nil => rfl
  | cons b B ih =>
    show applyAll E ((c.apply E a).apply E b) B = (applyAll E (c.apply E b) B).apply E a
    rw [apply_comm E c a b (h b (by simp)), ih _ fun x hx => h x (List.mem_cons_of_mem _ hx)]

theorem applyAll_comm (E : QtEnv) (c : Contact) (A B : List Op) (h : ∀ a ∈ A, ∀ b ∈ B, fieldOf a ≠ fieldOf b) :
    applyAll E (applyAll E c A) B = applyAll E (applyAll E c B) A := by
  induction A generalizing c with
  | nil => rfl
  | cons a A ih =>
    show applyAll E (applyAll E (c.apply E a) A) B = applyAll E ((applyAll E c B).apply E a) A
    rw [ih _ fun x hx => h x (List.mem_cons_of_mem _ hx), applyAll_one E c a B (h a (by simp))]

theorem applyAll_other (E : QtEnv) (c : Contact) (A : List Op) {f : Field} (h : ∀ a ∈ A, f ≠ fieldOf a) : SameIn (applyAll E c A) c f := by
  induction A generalizing c with
  | nil => exact sameIn_refl c f
  | cons a A ih => exact sameIn_trans (ih (c.apply E a) fun x hx => h x (List.mem_cons_of_mem _ hx)) (apply_other E c a (h a (by simp)))

/-! ### what a line does, as calls -/

/-- does the line say how to sort? -/
def sortCall (l : VCardLine) : List Op := if (l.parameter (q! "sort-as")).isEmpty then [] else [.sortString (l.parameter (q! "sort-as"))]

/-- The calls one line stands for; the contact and the count of addresses, phone numbers and keys are those before the line. -/
def lineCalls (E : ToolEnv) (ids : IdKind → Nat → QString) (s : RState) (l : VCardLine) : List Op :=
  let value := l.value.toString
  match tagOf l with
  | .fieldGroup => [.insertFieldGroup { params := l.params, fieldGroupName := l.group ++ qc! '.' :: l.identifier, value := value }]
  | .adr => [.insertAddress (readAddress E (ids .address s.addresses) l)]
  | .anniversary => [.insertCustom (q! "KADDRESSBOOK") (q! "X-Anniversary") (isoDate ((parseDateTime value).1.map (·.date)))]
  | .bday => [.birthday (parseDateTime value).1 (parseDateTime value).2]
  | .deathdate => [.deathDate (parseDateTime value).1]
  | .categories => [.categories (splitString (qc! ',') value)]
  | .fburl => [.insertCalendarUrl { params := l.params, url := E.urlOf value, type := 1 }]
  | .caladruri => [.insertCalendarUrl { params := l.params, url := E.urlOf value, type := 3 }]
  | .caluri => [.insertCalendarUrl { params := l.params, url := E.urlOf value, type := 2 }]
  | .impp =>
    let service := l.parameter (q! "x-service-type")
    let url := E.urlOf value
    let url := if !service.isEmpty && (E.urlScheme url).isEmpty then E.urlSetScheme url (normalizeImppServiceType (toLowerQ service)) else url
    [.insertImpp { params := l.params, url := url }]
  | .class_ => [.secrecy (parseSecrecy l)]
  | .gender => if value.isEmpty then [] else [.gender (readGender value)]
  | .lang => [.insertLang { params := l.params, text := value }]
  | .email => [.addEmail { params := l.params, mail := value }]
  | .kind => [.kind value]
  | .fn => [.formattedName value]
  | .geo => match readGeo E value with | some g => [.geo g] | none => []
  | .key => [.insertKey (parseKey (ids .key s.keys) l)]
  | .label =>
    match s.c.addresses.find? fun a => a.type = addressTypeOf l with
    | some a => [.insertAddress (a.copyCtor.set (.label value))]
    | none => [.insertAddress (({ id := ids .address s.addresses, type := addressTypeOf l } : Address).set (.label value))]
  | .logo =>
    match parsePicture l with
    | none => []
    | some p => if s.c.logo.isEmpty then [.logo p] else [.insertExtraLogo p]
  | .mailer => [.mailer value]
  | .n =>
    let parts := splitString (qc! ';') value
    (if parts.length > 0 then [.familyName (parts.getD 0 [])] else []) ++ (if parts.length > 1 then [.givenName (parts.getD 1 [])] else [])
      ++ (if parts.length > 2 then [.additionalName (parts.getD 2 [])] else []) ++ (if parts.length > 3 then [.prefix_ (parts.getD 3 [])] else [])
      ++ (if parts.length > 4 then [.suffix (parts.getD 4 [])] else []) ++ sortCall l
  | .name => [.name value]
  | .nickname => [.insertText .nickName { params := l.params, text := value }]
  | .note => [.note value]
  | .org =>
    let parts := splitString (qc! ';') value
    (if parts.length > 0 then [.insertText .organization { params := l.params, text := parts.getD 0 [] }] else [])
      ++ (if parts.length > 1 then [.department (parts.getD 1 [])] else []) ++ sortCall l
  | .photo =>
    match parsePicture l with
    | none => []
    | some p => if s.c.photo.isEmpty then [.photo p] else [.insertExtraPhoto p]
  | .prodid => [.productId value]
  | .rev => [.revision (parseDateTime value).1]
  | .role => [.insertText .role { params := l.params, text := value }]
  | .sortString => [.sortString value]
  | .sound => if s.c.sound.isEmpty then [.sound (parseSound l)] else [.insertExtraSound (parseSound l)]
  | .tel => [.insertPhoneNumber (readPhone (ids .phone s.phones) l)]
  | .title => [.insertText .title { params := l.params, text := value }]
  | .tz => match readTimeZone value with | some t => [.timeZone t] | none => []
  | .uid => [.uid value]
  | .url => [.insertExtraUrl { params := l.params, url := E.urlOf value }]
  | .source => [.insertSourceUrl (E.urlOf value)]
  | .member => [.insertMember value]
  | .related => [.insertRelationship { params := l.params, text := value }]
  | .clientpidmap => [.insertClientPidMap { params := l.params, text := value }]
  | .x =>
    let key := customKey l
    let dash := indexQ (qc! '-') key
    if startsWith (q! "messaging/") key then
      ((splitOn 0xE000 value).filter fun s => !s.isEmpty).map fun v =>
        .insertImpp { params := l.params, url := E.urlMake (normalizeImppServiceType (midQ key 10 (dash - 10))) v }
    else [.insertCustom (if dash < 0 then key else key.take dash.toNat) (key.drop (dash + 1).toNat) value]
  | .other => []

/-- how many ids of addresses a line draws -/
def addressIds (s : RState) (l : VCardLine) : Nat :=
  match tagOf l with
  | .adr => 1
  | .label => if (s.c.addresses.find? fun a => a.type = addressTypeOf l).isSome then 0 else 1
  | _ => 0

/-- does the line have no defined meaning? -/
def lineUndefined (l : VCardLine) : Bool :=
  match tagOf l with
  | .logo | .photo => (parsePicture l).isNone
  | _ => false

theorem readN_calls (E : QtEnv) (l : VCardLine) (c : Contact) :
    readN l c = applyAll E c ((if (splitString (qc! ';') l.value.toString).length > 0 then [.familyName ((splitString (qc! ';') l.value.toString).getD 0 [])] else [])
      ++ (if (splitString (qc! ';') l.value.toString).length > 1 then [.givenName ((splitString (qc! ';') l.value.toString).getD 1 [])] else [])
      ++ (if (splitString (qc! ';') l.value.toString).length > 2 then [.additionalName ((splitString (qc! ';') l.value.toString).getD 2 [])] else [])
      ++ (if (splitString (qc! ';') l.value.toString).length > 3 then [.prefix_ ((splitString (qc! ';') l.value.toString).getD 3 [])] else [])
      ++ (if (splitString (qc! ';') l.value.toString).length > 4 then [.suffix ((splitString (qc! ';') l.value.toString).getD 4 [])] else []) ++ sortCall l) := by
  unfold readN sortCall applyAll
  generalize splitString (qc! ';') l.value.toString = parts
  simp only [List.foldl_append]
  have hif : ∀ (P : Prop) [Decidable P] (a : Op) (c : Contact), (if P then [a] else ([] : List Op)).foldl (Contact.apply E) c = if P then c.apply E a else c := by
    intro P _ a c; split <;> rfl
  have hif' : ∀ (P : Prop) [Decidable P] (a : Op) (c : Contact), (if P then ([] : List Op) else [a]).foldl (Contact.apply E) c = if P then c else c.apply E a := by
    intro P _ a c; split <;> rfl
  simp only [hif, hif', Contact.apply]

theorem readOrg_calls (E : QtEnv) (l : VCardLine) (c : Contact) :
    readOrg l c = applyAll E c ((if (splitString (qc! ';') l.value.toString).length > 0 then
        [.insertText .organization { params := l.params, text := (splitString (qc! ';') l.value.toString).getD 0 [] }] else [])
      ++ (if (splitString (qc! ';') l.value.toString).length > 1 then [.department ((splitString (qc! ';') l.value.toString).getD 1 [])] else []) ++ sortCall l) := by
  unfold readOrg sortCall applyAll
  generalize splitString (qc! ';') l.value.toString = parts
  simp only [List.foldl_append]
  have hif : ∀ (P : Prop) [Decidable P] (a : Op) (c : Contact), (if P then [a] else ([] : List Op)).foldl (Contact.apply E) c = if P then c.apply E a else c := by
    intro P _ a c; split <;> rfl
  have hif' : ∀ (P : Prop) [Decidable P] (a : Op) (c : Contact), (if P then ([] : List Op) else [a]).foldl (Contact.apply E) c = if P then c else c.apply E a := by
    intro P _ a c; split <;> rfl
  simp only [hif, hif', Contact.apply]

theorem readX_calls (E : ToolEnv) (l : VCardLine) (c : Contact) :
    readX E l c = applyAll E.toQtEnv c (if startsWith (q! "messaging/") (customKey l) then
      ((splitOn 0xE000 l.value.toString).filter fun s => !s.isEmpty).map fun v =>
        .insertImpp { params := l.params, url := E.urlMake (normalizeImppServiceType (midQ (customKey l) 10 (indexQ (qc! '-') (customKey l) - 10))) v }
      else [.insertCustom (if indexQ (qc! '-') (customKey l) < 0 then customKey l else (customKey l).take (indexQ (qc! '-') (customKey l)).toNat)
        ((customKey l).drop (indexQ (qc! '-') (customKey l) + 1).toNat) l.value.toString]) := by
  unfold readX applyAll
  simp only
  split
  · rw [List.foldl_map]; rfl
  · rfl

theorem readLine_calls (E : ToolEnv) (ids : IdKind → Nat → QString) (s : RState) (l : VCardLine) :
    readLine E ids s l = { c := applyAll E.toQtEnv s.c (lineCalls E ids s l), addresses := s.addresses + addressIds s l, phones := s.phones + (if tagOf l = .tel then 1 else 0), keys := s.keys + (if tagOf l = .key then 1 else 0), ub := s.ub || lineUndefined l } := by
  unfold readLine lineCalls addressIds lineUndefined
  cases ht : tagOf l with
  | n => simp only [readN_calls E.toQtEnv]; simp
  | org => simp only [readOrg_calls E.toQtEnv]; simp
  | x => simp only [readX_calls]; simp
  | gender => simp only [applyAll]; split <;> simp [Contact.apply]
  | geo => simp only [applyAll]; cases readGeo E l.value.toString <;> simp [Contact.apply]
  | tz => simp only [applyAll]; cases readTimeZone l.value.toString <;> simp [Contact.apply]
  | logo => simp only [applyAll]; cases parsePicture l <;> simp <;> split <;> simp [Contact.apply]
  | photo => simp only [applyAll]; cases parsePicture l <;> simp <;> split <;> simp [Contact.apply]
  | sound => simp only [applyAll]; split <;> simp [Contact.apply]
  | label =>
    simp only [applyAll, readLabel]
    rcases Option.eq_none_or_eq_some (s.c.addresses.find? fun a => a.type = addressTypeOf l) with hf | ⟨a, hf⟩ <;> simp [hf, Contact.apply]
  | _ => simp [applyAll, Contact.apply]

/-! ### the fields of a line -/

/-- the fields of a contact a line can change or look at -/
def tagFields (sortAs : Bool) : Tag → List Field
  | .fieldGroup => [.fieldGroups]
  | .adr | .label => [.addresses]
  | .anniversary => [.customs]
  | .bday => [.birthday]
  | .deathdate => [.deathDate]
  | .categories => [.categories]
  | .fburl | .caladruri | .caluri => [.calendarUrls]
  | .impp => [.impps]
  | .class_ => [.secrecy]
  | .gender => [.gender]
  | .lang => [.langs]
  | .email => [.emails]
  | .kind => [.kind]
  | .fn => [.formattedName]
  | .geo => [.geo]
  | .key => [.keys]
  | .logo => [.logo, .extraLogos]
  | .mailer => [.mailer]
  | .n => [.familyName, .givenName, .additionalName, .prefix_, .suffix] ++ (if sortAs then [.sortString] else [])
  | .name => [.name]
  | .nickname => [.text .nickName]
  | .note => [.note]
  | .org => [.text .organization, .department] ++ (if sortAs then [.sortString] else [])
  | .photo => [.photo, .extraPhotos]
  | .prodid => [.productId]
  | .rev => [.revision]
  | .role => [.text .role]
  | .sortString => [.sortString]
  | .sound => [.sound, .extraSounds]
  | .tel => [.phoneNumbers]
  | .title => [.text .title]
  | .tz => [.timeZone]
  | .uid => [.uid]
  | .url => [.extraUrls]
  | .source => [.sources]
  | .member => [.members]
  | .related => [.relationships]
  | .clientpidmap => [.clientPidMaps]
  | .x => [.impps, .customs]
  | .other => []

/-- the fields of a contact a line can change or look at -/
def lineFields (l : VCardLine) : List Field := tagFields (!(l.parameter (q! "sort-as")).isEmpty) (tagOf l)

theorem lineCalls_fields (E : ToolEnv) (ids : IdKind → Nat → QString) (s : RState) (l : VCardLine) : ∀ op ∈ lineCalls E ids s l, fieldOf op ∈ lineFields l := by
  intro op hop
  unfold lineCalls at hop
  unfold lineFields tagFields
  cases ht : tagOf l with
  | n =>
    simp only [ht, sortCall, List.mem_append] at hop ⊢
    rcases hop with ((((hop | hop) | hop) | hop) | hop) | hop <;> (split at hop <;> simp_all [fieldOf])
  | org =>
    simp only [ht, sortCall, List.mem_append] at hop ⊢
    rcases hop with (hop | hop) | hop <;> (split at hop <;> simp_all [fieldOf])
  | x =>
    simp only [ht] at hop
    split at hop
    · obtain ⟨v, _, rfl⟩ := List.mem_map.1 hop
      simp [fieldOf]
    · simp_all [fieldOf]
  | gender => simp only [ht] at hop; split at hop <;> simp_all [fieldOf]
  | geo => simp only [ht] at hop; split at hop <;> simp_all [fieldOf]
  | tz => simp only [ht] at hop; split at hop <;> simp_all [fieldOf]
  | logo => simp only [ht] at hop; split at hop <;> (first | (split at hop) | skip) <;> simp_all [fieldOf]
  | photo => simp only [ht] at hop; split at hop <;> (first | (split at hop) | skip) <;> simp_all [fieldOf]
  | sound => simp only [ht] at hop; split at hop <;> simp_all [fieldOf]
  | label => simp only [ht] at hop; split at hop <;> simp_all [fieldOf]
  | _ => simp_all [fieldOf]

/-- a line looks at its own fields only -/
theorem lineCalls_local (E : ToolEnv) (ids : IdKind → Nat → QString) (s t : RState) (l : VCardLine) (h : ∀ f ∈ lineFields l, SameIn s.c t.c f)
    (ha : Field.addresses ∈ lineFields l → s.addresses = t.addresses) (hp : Field.phoneNumbers ∈ lineFields l → s.phones = t.phones)
    (hk : Field.keys ∈ lineFields l → s.keys = t.keys) : lineCalls E ids s l = lineCalls E ids t l ∧ addressIds s l = addressIds t l := by
  unfold lineCalls addressIds
  unfold lineFields tagFields at h ha hp hk
  cases ht : tagOf l with
  | adr => simp only [ht] at ha ⊢; rw [ha (by simp)]; simp
  | tel => simp only [ht] at hp ⊢; rw [hp (by simp)]; simp
  | key => simp only [ht] at hk ⊢; rw [hk (by simp)]; simp
  | label =>
    simp only [ht] at h ha ⊢
    have : s.c.addresses = t.c.addresses := h .addresses (by simp)
    rw [ha (by simp), this]
    simp
  | logo =>
    simp only [ht] at h ⊢
    have : s.c.logo = t.c.logo := h .logo (by simp)
    rw [this]
    simp
  | photo =>
    simp only [ht] at h ⊢
    have : s.c.photo = t.c.photo := h .photo (by simp)
    rw [this]
    simp
  | sound =>
    simp only [ht] at h ⊢
    have : s.c.sound = t.c.sound := h .sound (by simp)
    rw [this]
    simp
  | _ => simp

theorem addressIds_none (s : RState) (l : VCardLine) (h : Field.addresses ∉ lineFields l) : addressIds s l = 0 := by
  unfold addressIds
  unfold lineFields tagFields at h
  cases ht : tagOf l <;> simp_all

/-- Lines about different fields can be read in any order. -/
theorem readLine_comm (E : ToolEnv) (ids : IdKind → Nat → QString) (s : RState) (l m : VCardLine) (h : ∀ f ∈ lineFields l, f ∉ lineFields m) :
    readLine E ids (readLine E ids s l) m = readLine E ids (readLine E ids s m) l := by
  have side : ∀ l m : VCardLine, (∀ f ∈ lineFields l, f ∉ lineFields m) →
      lineCalls E ids (readLine E ids s l) m = lineCalls E ids s m ∧ addressIds (readLine E ids s l) m = addressIds s m := by
    intro l m h
    apply lineCalls_local
    · intro f hf
      rw [readLine_calls]
      apply applyAll_other
      intro a ha e
      exact h f (e ▸ lineCalls_fields E ids s l a ha) hf
    · intro hm
      rw [readLine_calls]
      simp only
      rw [addressIds_none s l fun hl => h _ hl hm]
      rfl
    · intro hm
      rw [readLine_calls]
      simp only
      have : tagOf l ≠ .tel := fun ht => h .phoneNumbers (by simp [lineFields, tagFields, ht]) hm
      simp [this]
    · intro hm
      rw [readLine_calls]
      simp only
      have : tagOf l ≠ .key := fun ht => h .keys (by simp [lineFields, tagFields, ht]) hm
      simp [this]
  obtain ⟨h1, h2⟩ := side l m h
  obtain ⟨h3, h4⟩ := side m l fun f hf hl => h f hl hf
  rw [readLine_calls E ids (readLine E ids s l) m, readLine_calls E ids (readLine E ids s m) l, h1, h2, h3, h4, readLine_calls E ids s l, readLine_calls E ids s m]
  simp only [RState.mk.injEq]
  refine ⟨?_, Nat.add_right_comm .., Nat.add_right_comm .., Nat.add_right_comm .., ?_⟩
  · apply applyAll_comm
    intro a ha b hb e
    exact h _ (lineCalls_fields E ids s l a ha) (e ▸ lineCalls_fields E ids s m b hb)
  · rw [Bool.or_assoc, Bool.or_assoc, Bool.or_comm (lineUndefined l)]

/-! ### reading in two orders -/

/-- A list of lines and the same lines in another order (each with a respelled name) give the same when lines that could get into each other's way
    keep their order. -/
theorem fold_reordered {α : Type} (E : ToolEnv) (ids : IdKind → Nat → QString) (f g : α → VCardLine) (r r' : α → α → Prop)
    (hfg : ∀ x, SameRead (f x) (g x)) (L M : List α) (hL : L.Pairwise r) (hM : M.Pairwise r') (hp : M.Perm L)
    (h : ∀ x ∈ L, ∀ y ∈ L, r x y → r' y x → ∀ k ∈ lineFields (f x), k ∉ lineFields (f y)) (s : RState) :
    (L.map f).foldl (readLine E ids) s = (M.map g).foldl (readLine E ids) s := by
  have hg : ∀ (M : List α) (s : RState), (M.map g).foldl (readLine E ids) s = (M.map f).foldl (readLine E ids) s := by
    intro M
    induction M with
    | nil => intro _; rfl
    | cons x M ih =>
      intro s
      rw [List.map_cons, List.map_cons, List.foldl_cons, List.foldl_cons, ih, readLine_respelled E ids s (hfg x)]
  rw [hg]
  clear hg
  induction L generalizing M s with
  | nil => rw [hp.eq_nil]
  | cons x L ih =>
    obtain ⟨A, B, rfl⟩ := List.append_of_mem (hp.mem_iff.2 (List.mem_cons_self (a := x) (l := L)))
    have hperm : (A ++ B).Perm L := by
      have h1 : (x :: (A ++ B)).Perm (x :: L) := (List.perm_middle.symm).trans hp
      exact h1.cons_inv
    have hmove : ∀ (A : List α), (∀ y ∈ A, ∀ k ∈ lineFields (f x), k ∉ lineFields (f y)) → ∀ s : RState,
        ((A ++ x :: B).map f).foldl (readLine E ids) s = ((A ++ B).map f).foldl (readLine E ids) (readLine E ids s (f x)) := by
      intro A
      induction A with
      | nil => intro _ _; rfl
      | cons y A ih =>
        intro hA s
        rw [List.cons_append, List.cons_append, List.map_cons, List.map_cons, List.foldl_cons, List.foldl_cons, ih fun z hz => hA z (List.mem_cons_of_mem _ hz),
          readLine_comm E ids s (f x) (f y) (hA y (by simp))]
    rw [hmove A ?_ s, List.map_cons, List.foldl_cons]
    · refine ih (A ++ B) (List.pairwise_cons.1 hL).2 ?_ hperm ?_ _
      · exact hM.sublist (List.Sublist.append_left (List.sublist_cons_self x B) A)
      · exact fun a ha b hb => h a (List.mem_cons_of_mem _ ha) b (List.mem_cons_of_mem _ hb)
    · intro y hy
      have hyL : y ∈ L := hperm.mem_iff.1 (List.mem_append_left _ hy)
      exact h x (by simp) y (List.mem_cons_of_mem _ hyL) ((List.pairwise_cons.1 hL).1 y hyL) ((List.pairwise_append.1 hM).2.2 y hy x (by simp))

/-- the order in which lines are read: by name, lines with the same name as they stand -/
theorem readingOrder_pairwise {α : Type} (f : α → VCardLine) (R : α → α → Prop) (xs : List α) (hR : xs.Pairwise R) :
    ∃ L : List α, L.map f = readingOrder (cardAfter (xs.map f)) ∧ L.Perm xs ∧
      L.Pairwise fun x y => qlt (f x).identifier (f y).identifier = true ∨ ((f x).identifier = (f y).identifier ∧ R x y) := by
  have hasc : (cardAfter (xs.map f)).identifiers.Pairwise fun a b => qlt a b = true := SMap.sorted_iff_keys.1 (cardAfter_sorted _)
  refine ⟨(cardAfter (xs.map f)).identifiers.flatMap fun n => xs.filter fun x => (f x).identifier = n, ?_, ?_, ?_⟩
  · unfold readingOrder
    rw [List.map_flatMap]
    congr 1
    funext n
    rw [C13_lines, List.filter_map]
    rfl
  · have hall : ∀ x ∈ xs, (f x).identifier ∈ (cardAfter (xs.map f)).identifiers := fun x hx => identifiers_all _ _ (List.mem_map_of_mem hx)
    have hn := identifiers_nodup (xs.map f)
    revert hall hn
    generalize (cardAfter (xs.map f)).identifiers = names
    clear hasc hR
    intro hall hn
    induction names generalizing xs with
    | nil =>
      cases xs with
      | nil => exact .refl _
      | cons x xs => exact absurd (hall x (by simp)) (by simp)
    | cons n names ih =>
      rw [List.flatMap_cons]
      have h1 := ih (xs.filter fun x => ¬ (f x).identifier = n) (fun x hx => by
        obtain ⟨hx1, hx2⟩ := List.mem_filter.1 hx
        exact (List.mem_cons.1 (hall x hx1)).resolve_left (by simpa using hx2)) (List.nodup_cons.1 hn).2
      have h2 : (names.flatMap fun m => (xs.filter fun x => ¬ (f x).identifier = n).filter fun x => (f x).identifier = m) =
          names.flatMap fun m => xs.filter fun x => (f x).identifier = m := by
        apply List.flatMap_congr
        intro m hm
        rw [List.filter_filter]
        apply List.filter_congr
        intro x _
        have hne : m ≠ n := fun e => (List.nodup_cons.1 hn).1 (e ▸ hm)
        by_cases hx : (f x).identifier = m
        · simp [hx, hne]
        · simp [hx]
      rw [h2] at h1
      refine (List.Perm.append_left _ h1).trans ?_
      have := List.filter_append_perm (fun x => decide ((f x).identifier = n)) xs
      simpa using this
  · rw [List.pairwise_flatMap]
    constructor
    · intro n _
      refine (hR.filter _).imp_of_mem fun {a b} ha hb h => .inr ⟨?_, h⟩
      rw [of_decide_eq_true (List.mem_filter.1 ha).2, of_decide_eq_true (List.mem_filter.1 hb).2]
    · refine hasc.imp fun {n m} h a ha b hb => .inl ?_
      rw [of_decide_eq_true (List.mem_filter.1 ha).2, of_decide_eq_true (List.mem_filter.1 hb).2]
      exact h

/-! ### the topics of a property -/

/-- what has been collected stands in the text that was read -/
structure KeysFrom (read : QByteArray) (p : PL) : Prop where
  tok : p.st ≠ .value → p.tok <:+ read
  key : p.key <:+: read ∨ p.key = b! "encoding" ∨ p.key = b! "type"
  params : ∀ k ∈ p.line.params.map (·.1), (∃ t, t <:+: read ∧ k = fromLatin1 (toLowerB t)) ∨ k = q! "encoding" ∨ k = q! "type"

theorem KeysFrom.more {read : QByteArray} {p : PL} (h : KeysFrom read p) (c : UInt8) :
    (p.key <:+: read ++ [c] ∨ p.key = b! "encoding" ∨ p.key = b! "type") ∧
      ∀ k ∈ p.line.params.map (·.1), (∃ t, t <:+: read ++ [c] ∧ k = fromLatin1 (toLowerB t)) ∨ k = q! "encoding" ∨ k = q! "type" := by
  have hi : read <:+: read ++ [c] := ⟨[], [c], by simp⟩
  refine ⟨h.key.imp (fun h => h.trans hi) id, fun k hk => (h.params k hk).imp ?_ id⟩
  rintro ⟨t, ht, rfl⟩
  exact ⟨t, ht.trans hi, rfl⟩

theorem params_add (m : ParameterMap) (k v : QString) : ∀ x ∈ (ParameterMap.add m k v).map (·.1), x ∈ m.map (·.1) ∨ x = k := by
  intro x hx
  unfold ParameterMap.add at hx
  split at hx
  · left
    rwa [SMap.keys_modify] at hx
  · exact (SMap.mem_keys_insertSorted.1 hx).symm

theorem KeysFrom.add {read : QByteArray} {p : PL} (h : KeysFrom read p) (k v : QByteArray) (hk : (∃ t, t <:+: read ∧ k = toLowerB t) ∨ k = b! "encoding" ∨ k = b! "type") :
    ∀ x ∈ (p.addParameter k v).line.params.map (·.1), (∃ t, t <:+: read ∧ x = fromLatin1 (toLowerB t)) ∨ x = q! "encoding" ∨ x = q! "type" := by
  intro x hx
  rcases params_add _ _ _ x hx with hx | rfl
  · exact h.params x hx
  · rcases hk with ⟨t, ht, rfl⟩ | rfl | rfl
    · exact .inl ⟨t, ht, rfl⟩
    · exact .inr (.inl rfl)
    · exact .inr (.inr rfl)

theorem KeysFrom.addKey {read : QByteArray} {p : PL} (h : KeysFrom read p) :
    (∃ t, t <:+: read ∧ toLowerB p.key = toLowerB t) ∨ toLowerB p.key = b! "encoding" ∨ toLowerB p.key = b! "type" := by
  rcases h.key with hk | hk | hk
  · exact .inl ⟨_, hk, rfl⟩
  · rw [hk]; exact .inr (.inl (by decide))
  · rw [hk]; exact .inr (.inr (by decide))

theorem suffix_snoc {a b : QByteArray} (h : a <:+ b) (c : UInt8) : a ++ [c] <:+ b ++ [c] := by
  obtain ⟨t, rfl⟩ := h
  exact ⟨t, by simp⟩

theorem KeysFrom.step {read : QByteArray} {p : PL} (h : KeysFrom read p) (c : UInt8) : KeysFrom (read ++ [c]) (p.step c) := by
  have hm := h.more c
  have hi : read <:+: read ++ [c] := ⟨[], [c], by simp⟩
  have widen : ∀ x : QString, ((∃ t, t <:+: read ∧ x = fromLatin1 (toLowerB t)) ∨ x = q! "encoding" ∨ x = q! "type") →
      ((∃ t, t <:+: read ++ [c] ∧ x = fromLatin1 (toLowerB t)) ∨ x = q! "encoding" ∨ x = q! "type") := by
    rintro x (⟨t, ht, e⟩ | e)
    · exact .inl ⟨t, ht.trans hi, e⟩
    · exact .inr e
  have hnil : ([] : QByteArray) <:+ read ++ [c] := List.nil_suffix
  unfold PL.step
  have htok : p.st ≠ .value → p.tok ++ [c] <:+ read ++ [c] := fun hv => suffix_snoc (h.tok hv) c
  cases hst : p.st with
  | initial =>
    simp only
    (repeat' split) <;> first | exact ⟨fun _ => hnil, hm.1, hm.2⟩ | exact ⟨fun _ => htok (by simp [hst]), hm.1, hm.2⟩
  | paramKey =>
    simp only
    split
    · refine ⟨fun _ => hnil, ?_, ?_⟩
      · right; simp only; split <;> simp
      · intro x hx
        refine widen x (h.add _ _ ?_ x hx)
        right; split <;> simp
    · split
      · exact ⟨fun _ => hnil, .inl ((h.tok (by simp [hst])).isInfix.trans hi), hm.2⟩
      · exact ⟨fun _ => htok (by simp [hst]), hm.1, hm.2⟩
  | quotedValue =>
    simp only
    split
    · exact ⟨fun _ => hnil, hm.1, fun x hx => widen x (h.add _ _ h.addKey x hx)⟩
    · exact ⟨fun _ => htok (by simp [hst]), hm.1, hm.2⟩
  | paramValue =>
    simp only
    split
    · exact ⟨fun _ => hnil, hm.1, fun x hx => widen x (h.add _ _ h.addKey x hx)⟩
    · split
      · exact ⟨fun _ => hnil, hm.1, hm.2⟩
      · exact ⟨fun _ => htok (by simp [hst]), hm.1, hm.2⟩
  | afterParamValue =>
    simp only
    split
    · exact ⟨fun _ => hnil, hm.1, hm.2⟩
    · split
      · exact ⟨fun hv => absurd rfl hv, hm.1, hm.2⟩
      · split
        · exact ⟨fun _ => hnil, hm.1, hm.2⟩
        · exact ⟨fun _ => htok (by simp [hst]), hm.1, hm.2⟩
  | value => exact ⟨fun hv => absurd hst hv, hm.1, hm.2⟩

theorem KeysFrom.scan {read : QByteArray} {p : PL} (h : KeysFrom read p) (t : QByteArray) : ∃ used, used <:+: read ++ t ∧ KeysFrom used (PL.scan p t).1 := by
  induction t generalizing read p with
  | nil => exact ⟨read, by simp, h⟩
  | cons c t ih =>
    rw [PL.scan]
    split
    · exact ⟨read ++ [c], ⟨[], t, by simp⟩, h.step c⟩
    · obtain ⟨used, h1, h2⟩ := ih (h.step c)
      exact ⟨used, by simpa using h1, h2⟩

/-- the topic of a field -/
def topicOf : Field → QByteArray
  | .fieldGroups => b! "."
  | .addresses => b! "adr"
  | .customs => b! "anniversary"
  | .birthday => b! "bday"
  | .deathDate => b! "deathdate"
  | .categories => b! "categories"
  | .calendarUrls => b! "caluri"
  | .impps => b! "impp"
  | .secrecy => b! "class"
  | .gender => b! "gender"
  | .langs => b! "lang"
  | .emails => b! "email"
  | .kind => b! "kind"
  | .formattedName => b! "fn"
  | .geo => b! "geo"
  | .keys => b! "key"
  | .logo | .extraLogos => b! "logo"
  | .mailer => b! "mailer"
  | .familyName | .givenName | .additionalName | .prefix_ | .suffix => b! "n"
  | .name => b! "name"
  | .text .nickName => b! "nickname"
  | .note => b! "note"
  | .text .organization | .department => b! "org"
  | .photo | .extraPhotos => b! "photo"
  | .productId => b! "prodid"
  | .revision => b! "rev"
  | .text .role => b! "role"
  | .sortString => b! "sort-string"
  | .sound | .extraSounds => b! "sound"
  | .phoneNumbers => b! "tel"
  | .text .title => b! "title"
  | .timeZone => b! "tz"
  | .uid => b! "uid"
  | .extraUrls => b! "url"
  | .sources => b! "source"
  | .members => b! "member"
  | .relationships => b! "related"
  | .clientPidMaps => b! "clientpidmap"
  | .changed => []

theorem table_topics : ∀ q ∈ tagTable, ∃ k ∈ knownNames, q.1 = fromLatin1 k ∧ (∀ x ∈ k, x.toNat < 128) ∧
    ∀ b : Bool, ∀ f ∈ tagFields b q.2, topicOf f ∈ topicsOf k b := by decide +kernel

theorem params_value (E : Codecs) (p : PL) (v : QByteArray) : (p.decodeValue E v).params = p.line.params := by
  unfold PL.decodeValue
  simp only
  split
  · split <;> rfl
  · split <;> rfl

theorem sortAs_mention (E : Codecs) (L : QByteArray) (h : (!((lineOf E L).parameter (q! "sort-as")).isEmpty) = true) : b! "sort-as" <:+: L.map lowerByte := by
  have hpar : (lineOf E L).params = (PL.scan {} L).1.line.params := by
    unfold lineOf
    cases hs : PL.scan {} L with
    | mk p o =>
      cases o with
      | none => rfl
      | some rest => exact params_value E p _
  obtain ⟨used, h1, h2⟩ := KeysFrom.scan (read := []) (p := {}) ⟨fun _ => List.nil_suffix, .inl List.nil_infix, by intro k hk; cases hk⟩ L
  have hk : q! "sort-as" ∈ (PL.scan {} L).1.line.params.map (·.1) := by
    rw [← hpar]
    by_contra hn
    unfold VCardLine.parameter at h
    rw [SMap.find_eq_none.2 fun p hp e => hn (List.mem_map.2 ⟨p, hp, e⟩)] at h
    simp at h
  rcases h2.params _ hk with ⟨t, ht, e⟩ | e | e
  · have e2 : t.map lowerByte = b! "sort-as" := (fromLatin1_inj (a := b! "sort-as") e).symm
    rw [← e2]
    exact (ht.trans (by simpa using h1)).map lowerByte
  · exact absurd e (by decide)
  · exact absurd e (by decide)

/-- the fields of a line belong to the topics of the property -/
theorem fields_topics (E : Codecs) (p : WrittenProperty) : ∀ f ∈ lineFields (lineOf E p.unfolded), topicOf f ∈ p.topics := by
  intro f hf
  unfold lineFields at hf
  have mono : ∀ (t : Tag) (b b' : Bool), (b = true → b' = true) → ∀ f ∈ tagFields b t, f ∈ tagFields b' t := by
    intro t b b' hb f hf
    cases b
    · cases b'
      · exact hf
      · cases t <;> first | exact hf | (simp only [tagFields, List.mem_append] at hf ⊢; exact hf.imp id fun h => by cases h)
    · rw [hb rfl]; exact hf
  have hf := mono _ _ (decide (b! "sort-as" <:+: p.unfolded.map lowerByte)) (fun h => decide_eq_true (sortAs_mention E _ h)) f hf
  unfold WrittenProperty.topics
  rw [List.mem_append]
  unfold tagOf at hf
  simp only at hf
  split at hf
  · rename_i hg
    left
    have hgr : (lineOf E p.unfolded).group ≠ [] := by
      simp only [Bool.and_eq_true, decide_eq_true_eq] at hg
      exact hg.1
    have hdot : c! '.' ∈ p.head := by
      by_contra hn
      exact hgr (by rw [(lineOf_id E _).2, (scan_propertyName {} rfl _).2 hn])
    rw [if_pos hdot]
    rcases List.mem_singleton.1 hf with rfl
    exact List.mem_singleton.2 rfl
  · right
    split at hf
    · rename_i q hq
      obtain ⟨k, _, e, ha, hall⟩ := table_topics q (List.mem_of_find?_eq_some hq)
      have e1 := List.find?_some hq
      simp only [decide_eq_true_eq] at e1
      rw [lineOf_name] at e1
      rw [lower_latin1 p.name k ha (by rw [← e1, e])]
      exact hall _ f hf
    · split at hf
      · rename_i hx
        have h3 : (p.name.map lowerByte).take 2 = b! "x-" := by
          rw [lineOf_name] at hx
          have hx2 : (toLowerQ (fromLatin1 p.name)).take 2 = fromLatin1 (b! "x-") := by
            unfold startsWith at hx
            exact eq_of_beq hx
          rw [← List.map_take]
          apply lower_latin1 _ _ (by decide)
          rw [← hx2]
          simp [toLowerQ, fromLatin1, List.map_take]
        unfold topicsOf
        rw [if_neg (fun e => by rw [e] at h3; exact absurd h3 (by decide)),
          if_neg (fun e => by rcases e with e | e <;> (rw [e] at h3; exact absurd h3 (by decide))), if_pos h3]
        simp only [tagFields, List.mem_cons, List.not_mem_nil, or_false] at hf
        rcases hf with rfl | rfl <;> simp [topicOf]
      · cases hf

/-- two lists of properties whose topics are in corresponding order -/
theorem properties_topics (E : ToolEnv) (ids : IdKind → Nat → QString) (ps qs : List WrittenProperty) (h : List.Forall₂ WrittenProperty.OtherCase ps qs)
    (ho : SameTopicOrder ps qs) (s : RState) :
    (readingOrder (cardAfter (ps.map fun p => lineOf E.toCodecs p.unfolded))).foldl (readLine E ids) s =
      (readingOrder (cardAfter (qs.map fun p => lineOf E.toCodecs p.unfolded))).foldl (readLine E ids) s := by
  have hlen := h.length_eq
  have hzip : ∀ x ∈ ps.zip qs, x.1.OtherCase x.2 := by
    clear ho hlen
    induction h with
    | nil => intro x hx; cases hx
    | cons hab _ ih =>
      intro x hx
      rw [List.zip_cons_cons] at hx
      rcases List.mem_cons.1 hx with rfl | hx
      · exact hab
      · exact ih x hx
  let α := { x : WrittenProperty × WrittenProperty // x ∈ ps.zip qs } × Nat
  let f : α → VCardLine := fun x => lineOf E.toCodecs x.1.1.1.unfolded
  let g : α → VCardLine := fun x => lineOf E.toCodecs x.1.1.2.unfolded
  let xs : List α := (ps.zip qs).attach.zipIdx
  have hidx : xs.Pairwise fun x y => x.2 < y.2 := by
    rw [List.pairwise_iff_getElem]
    intro i j hi hj hij
    have e : ∀ k (hk : k < xs.length), (xs[k]).2 = k := by
      intro k hk
      show ((ps.zip qs).attach.zipIdx[k]'hk).2 = k
      rw [List.getElem_zipIdx]; simp
    rw [e i hi, e j hj]
    exact hij
  have hxs : xs.map (fun x => x.1.1) = ps.zip qs := by
    have e : xs.map (fun x => x.1.1) = (xs.map Prod.fst).map Subtype.val := by rw [List.map_map]; rfl
    rw [e, List.zipIdx_map_fst, List.attach_map_subtype_val]
  have hf : xs.map f = ps.map fun p => lineOf E.toCodecs p.unfolded := by
    have : xs.map f = ((xs.map fun x => x.1.1).map Prod.fst).map fun p => lineOf E.toCodecs p.unfolded := by
      rw [List.map_map, List.map_map]; rfl
    rw [this, hxs, List.map_fst_zip (by omega)]
  have hg : xs.map g = qs.map fun p => lineOf E.toCodecs p.unfolded := by
    have : xs.map g = ((xs.map fun x => x.1.1).map Prod.snd).map fun p => lineOf E.toCodecs p.unfolded := by
      rw [List.map_map, List.map_map]; rfl
    rw [this, hxs, List.map_snd_zip (by omega)]
  obtain ⟨L, hL1, hL2, hL3⟩ := readingOrder_pairwise f _ xs hidx
  obtain ⟨M, hM1, hM2, hM3⟩ := readingOrder_pairwise g _ xs hidx
  rw [← hf, ← hg, ← hL1, ← hM1]
  refine fold_reordered E ids f g _ _ (fun x => lineOf_otherCase _ _ _ (hzip _ x.1.2)) L M hL3 hM3 (hM2.trans hL2.symm) ?_ s
  intro x _ y _ hxy hyx k hkx hky
  have := ho x.1.1 x.1.2 y.1.1 y.1.2 ⟨topicOf k, fields_topics _ _ k hkx, fields_topics _ _ k hky⟩
  have nf : ∀ z : α, (f z).identifier = fromLatin1 z.1.1.1.name := fun z => lineOf_name _ _
  have ng : ∀ z : α, (g z).identifier = fromLatin1 z.1.1.2.name := fun z => lineOf_name _ _
  rw [nf, nf, qlt_fromLatin1, decide_eq_true_eq] at hxy
  rw [ng, ng, qlt_fromLatin1, decide_eq_true_eq] at hyx
  rcases hxy with h1 | ⟨h1, h2⟩
  · have h1' := this.2.1 h1
    rcases hyx with h3 | ⟨h3, _⟩
    · exact absurd (List.lt_trans h1' h3) (List.lt_irrefl _)
    · rw [fromLatin1_inj h3] at h1'; exact List.lt_irrefl _ h1'
  · have h1' := this.1.1 (fromLatin1_inj h1)
    rcases hyx with h3 | ⟨_, h4⟩
    · rw [h1'] at h3; exact List.lt_irrefl _ h3
    · omega

theorem otherCase_name {p q : WrittenProperty} (h : p.OtherCase q) : SameLetters p.name q.name := by
  rcases h with h | ⟨a, b, ha, hp, hq, h⟩
  · unfold WrittenProperty.name WrittenProperty.head
    rw [h]
    rfl
  · rw [(spelled_name a ha p hp).1, (spelled_name b (h.wellformed ha) q hq).1]
    exact h.name

end KC
