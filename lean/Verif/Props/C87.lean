import Verif.Spec.Properties
import Verif.Spec.Sample
import Verif.Lemmas.Fields6
import Verif.Props.C59
import Verif.Props.C70
/-
  C87. The properties of a contact that scripts read and write
-/
namespace KC
open Spec

/-- The call a write makes. -/
private def opOf : Property → PropertyValue → Option Op
  | .uid, .text s => some (.uid s)
  | .name, .text s => some (.name s)
  | .formattedName, .text s => some (.formattedName s)
  | .familyName, .text s => some (.familyName s)
  | .givenName, .text s => some (.givenName s)
  | .additionalName, .text s => some (.additionalName s)
  | .prefix_, .text s => some (.prefix_ s)
  | .suffix, .text s => some (.suffix s)
  | .birthday, .moment d => some (.birthday d (match d with | some x => x.time ≠ (0, 0, 0, 0) | none => false))
  | .mailer, .text s => some (.mailer s)
  | .geo, .position g => some (.geo g)
  | .department, .text s => some (.department s)
  | .note, .text s => some (.note s)
  | .productId, .text s => some (.productId s)
  | .sortString, .text s => some (.sortString s)
  | .url, .locator u => some (.insertExtraUrl u)
  | .extraUrls, .locators l => some (.extraUrls l)
  | .emails, .emails l => some (.setEmailList l)
  | .phoneNumbers, .phoneNumbers l => some (.phoneNumbers l)
  | .addresses, .addresses l => some (.addresses l)
  | .categories, .texts l => some (.categories l)
  | .changed, .flag b => some (.changed b)
  | .impps, .impps l => some (.impps l)
  | .anniversary, .day d => some (if d.isSome then .insertCustom vendorId (q! "X-Anniversary") (isoDate d) else .removeCustom vendorId (q! "X-Anniversary"))
  | .assistantsName, .text s => some (.namedCustom (q! "X-AssistantsName") s)
  | .blogFeed, .link u => some (.namedCustom (q! "BlogFeed") u)
  | .managersName, .text s => some (.namedCustom (q! "X-ManagersName") s)
  | .office, .text s => some (.namedCustom (q! "X-Office") s)
  | .profession, .text s => some (.namedCustom (q! "X-Profession") s)
  | .spousesName, .text s => some (.namedCustom (q! "X-SpousesName") s)
  | .photo, .picture p => some (.photo p)
  | .deathDate, .moment d => some (.deathDate d)
  | _, _ => none

private theorem write_op (E : ToolEnv) (c : Contact) (p : Property) (v : PropertyValue) : c.writeProperty E p v = (opOf p v).map (c.apply E.toQtEnv) := by
  cases p <;> cases v <;> first | rfl | skip
  · rename_i d
    cases d <;> rfl

/-- The fields a property is read from (`isEmpty` apart). -/
private def readFrom : Property → List Field
  | .isEmpty => []
  | .uid => [.uid]
  | .name => [.name]
  | .formattedName => [.formattedName]
  | .familyName => [.familyName]
  | .givenName => [.givenName]
  | .additionalName => [.additionalName]
  | .prefix_ => [.prefix_]
  | .suffix => [.suffix]
  | .nickName => [.text .nickName]
  | .birthday => [.birthday]
  | .birthdayHasTime => [.birthday]
  | .mailer => [.mailer]
  | .geo => [.geo]
  | .title => [.text .title]
  | .role => [.text .role]
  | .organization => [.text .organization]
  | .department => [.department]
  | .note => [.note]
  | .productId => [.productId]
  | .revision => [.revision]
  | .sortString => [.sortString]
  | .url => [.extraUrls]
  | .extraUrls => [.extraUrls]
  | .realName => [.formattedName, .familyName, .givenName, .additionalName, .prefix_, .suffix, .name, .text .organization]
  | .assembledName => [.familyName, .givenName, .additionalName, .prefix_, .suffix]
  | .preferredEmail => [.emails]
  | .emails => [.emails]
  | .phoneNumbers => [.phoneNumbers]
  | .addresses => [.addresses]
  | .categories => [.categories]
  | .customs => [.customs]
  | .changed => [.changed]
  | .impps => [.impps]
  | .anniversary => [.customs]
  | .assistantsName => [.customs]
  | .blogFeed => [.customs]
  | .managersName => [.customs]
  | .office => [.customs]
  | .profession => [.customs]
  | .spousesName => [.customs]
  | .photo => [.photo]
  | .deathDate => [.deathDate]

private theorem read_congr (E : ToolEnv) (a b : Contact) (q : Property) (he : q ≠ .isEmpty) (h : ∀ f ∈ readFrom q, SameIn a b f) :
    a.readProperty E q = b.readProperty E q := by
  cases q <;> simp only [readFrom, List.mem_cons, List.not_mem_nil, or_false, forall_eq_or_imp, forall_eq, SameIn] at h <;>
    simp_all [Contact.readProperty, Contact.text, Contact.texts, Contact.url, Contact.realName, Contact.assembledName, Contact.preferredEmail,
      Contact.customsList, Contact.anniversary, Contact.custom, Contact.blogFeed]

/-- every history leaves the custom fields in order -/
theorem after_sorted (E : QtEnv) (c : Contact) (op : Op) (h : Sorted c.customs) : Sorted (c.apply E op).customs := by
  by_cases hf : Field.customs = fieldOf op
  · cases op <;> simp only [fieldOf] at hf <;> first | (exact absurd hf (by decide)) | (cases hf; done) | skip
    · rename_i a n v; exact customStep_sorted c (.insert a n v) h
    · rename_i a n; exact customStep_sorted c (.remove a n) h
    · rename_i l; exact (sortByName_spec _ (setCustomsLoop_nodup l [] (by simp))).1
    · rename_i f v
      simp only [Contact.apply, Contact.setNamedCustom]
      split
      · exact customStep_sorted c (.insert vendorId f v) h
      · exact customStep_sorted c (.remove vendorId f) h
  · have := apply_other E c op hf
    rw [show (c.apply E op).customs = c.customs from this]
    exact h

theorem contactAfter_sorted (E : QtEnv) (u : QString) (ops : List Op) : Sorted (contactAfter E u ops).customs := by
  induction ops using List.reverseRecOn with
  | nil => exact List.Pairwise.nil
  | append_singleton ops op ih => rw [after_snoc]; exact after_sorted E _ op ih

private def nameOf : Property → QString
  | .isEmpty => q! "isEmpty" | .uid => q! "uid" | .name => q! "name" | .formattedName => q! "formattedName" | .familyName => q! "familyName"
  | .givenName => q! "givenName" | .additionalName => q! "additionalName" | .prefix_ => q! "prefix" | .suffix => q! "suffix"
  | .nickName => q! "nickName" | .birthday => q! "birthday" | .birthdayHasTime => q! "birthdayHasTime" | .mailer => q! "mailer" | .geo => q! "geo"
  | .title => q! "title" | .role => q! "role" | .organization => q! "organization" | .department => q! "department" | .note => q! "note"
  | .productId => q! "productId" | .revision => q! "revision" | .sortString => q! "sortString" | .url => q! "url" | .extraUrls => q! "extraUrls"
  | .realName => q! "realName" | .assembledName => q! "assembledName" | .preferredEmail => q! "preferredEmail" | .emails => q! "emails"
  | .phoneNumbers => q! "phoneNumbers" | .addresses => q! "addresses" | .categories => q! "categories" | .customs => q! "customs"
  | .changed => q! "changed" | .impps => q! "impps" | .anniversary => q! "anniversary" | .assistantsName => q! "assistantsName"
  | .blogFeed => q! "blogFeed" | .managersName => q! "managersName" | .office => q! "office" | .profession => q! "profession"
  | .spousesName => q! "spousesName" | .photo => q! "photo" | .deathDate => q! "deathDate"

private theorem lookup_iff (name : QString) (p : Property) : (propertyNames.find? fun e => e.1 = name).map (·.2) = some p ↔ name = nameOf p := by
  constructor
  · intro h
    obtain ⟨e, he, hp⟩ := Option.map_eq_some_iff.1 h
    have h1 : e.1 = name := by simpa using List.find?_some he
    have h2 : ∀ e ∈ propertyNames, e.1 = nameOf e.2 := by decide +kernel
    rw [← h1, ← hp]
    exact h2 e (List.mem_of_find?_eq_some he)
  · rintro rfl
    cases p <;> decide +kernel

private theorem readNamed_iff (E : ToolEnv) (c : Contact) (name : QString) (w : PropertyValue) :
    c.readNamed E name = some w ↔ ∃ p, name = nameOf p ∧ c.readProperty E p = w := by
  unfold Contact.readNamed
  rw [Option.map_eq_some_iff]
  exact exists_congr fun p => and_congr_left fun _ => lookup_iff name p

private theorem writeNamed_iff (E : ToolEnv) (c : Contact) (name : QString) (v : PropertyValue) (c' : Contact) :
    c.writeNamed E name v = (true, c') ↔ ∃ p, name = nameOf p ∧ c.writeProperty E p v = some c' := by
  unfold Contact.writeNamed
  have key : (((propertyNames.find? fun e => e.1 = name).map (·.2)).bind fun p => c.writeProperty E p v) = some c' ↔
      ∃ p, name = nameOf p ∧ c.writeProperty E p v = some c' := by
    rw [Option.bind_eq_some_iff]
    exact exists_congr fun p => and_congr_left fun _ => lookup_iff name p
  rw [← key]
  split <;> rename_i h <;> simp [h]

private theorem nameOf_inj {p q : Property} (h : nameOf p = nameOf q) : p = q := by
  have := (lookup_iff (nameOf p) p).2 rfl
  rw [h, (lookup_iff (nameOf q) q).2 rfl] at this
  exact (Option.some.inj this).symm

private def target : Property → Option Field
  | .birthdayHasTime | .isEmpty | .realName | .assembledName | .preferredEmail | .customs | .nickName | .title | .role | .organization | .revision => none
  | p => (readFrom p).head?

private theorem target_of {p : Property} {v : PropertyValue} {op : Op} (h : opOf p v = some op) : target p = some (fieldOf op) := by
  cases p <;> cases v <;> simp only [opOf, Option.some.injEq, reduceCtorEq] at h <;> subst h <;> first | rfl | skip
  · rename_i d
    cases d <;> rfl

private def allProperties : List Property := propertyNames.map (·.2)

private theorem mem_all (p : Property) : p ∈ allProperties := by cases p <;> decide

private def customNameOf : Property → Option QString
  | .anniversary => some (q! "X-Anniversary")
  | .assistantsName => some (q! "X-AssistantsName")
  | .blogFeed => some (q! "BlogFeed")
  | .managersName => some (q! "X-ManagersName")
  | .office => some (q! "X-Office")
  | .profession => some (q! "X-Profession")
  | .spousesName => some (q! "X-SpousesName")
  | _ => none

private def apart (p q : Property) : Bool :=
  match customNameOf p, customNameOf q with
  | some a, some b => a ≠ b
  | _, _ => (readFrom q).all fun f => some f ≠ target p

private theorem apart_of_untouched : ∀ p ∈ allProperties, ∀ q ∈ allProperties, ¬ Touches (nameOf p) (nameOf q) → q ≠ .isEmpty ∧ apart p q = true := by
  decide +kernel

private theorem setAnniversary_eq (c : Contact) (d : Option (Int × Nat × Nat)) :
    c.setAnniversary d = c.setNamedCustom (q! "X-Anniversary") (isoDate d) ∨ c.setAnniversary d = c := by
  unfold Contact.setAnniversary Contact.setNamedCustom
  cases d with
  | none => left; rfl
  | some x =>
    by_cases h : isoDate (some x) = []
    · right
      simp [Contact.insertCustom, h]
    · left
      simp [h]

private theorem custom_other {E : ToolEnv} {c c' : Contact} (hs : Sorted c.customs) {p : Property} {a : QString} (ha : customNameOf p = some a) {v : PropertyValue}
    (h : c.writeProperty E p v = some c') (name : QString) (hn : name ≠ a) : c'.custom vendorId name = c.custom vendorId name := by
  have hq : qualifiedName vendorId name ≠ qualifiedName vendorId a := by
    intro e
    unfold qualifiedName at e
    exact hn (by simpa using e)
  have named : ∀ (f s : QString), f ≠ [] → f = a → (c.setNamedCustom f s).custom vendorId name = c.custom vendorId name := by
    rintro f s hf rfl
    exact (C59_named_customs c f s hf hs).2 vendorId name hq
  cases p <;> simp only [customNameOf, Option.some.injEq, reduceCtorEq] at ha <;> cases v <;>
    simp only [Contact.writeProperty, Option.some.injEq, reduceCtorEq] at h <;> subst h
  · rename_i d
    rcases setAnniversary_eq c d with e | e
    · rw [e]; exact named _ _ (by decide) ha
    · rw [e]
  all_goals exact named _ _ (by decide) ha

private theorem read_other (E : ToolEnv) {c c' : Contact} (hs : Sorted c.customs) (p q : Property) (v : PropertyValue) (h : c.writeProperty E p v = some c')
    (ht : ¬ Touches (nameOf p) (nameOf q)) : c'.readProperty E q = c.readProperty E q := by
  obtain ⟨he, ha⟩ := apart_of_untouched p (mem_all p) q (mem_all q) ht
  unfold apart at ha
  split at ha
  · rename_i a b hp hq
    have hb : b ≠ a := by
      intro e
      simp [e] at ha
    cases q <;> simp only [customNameOf, Option.some.injEq, reduceCtorEq] at hq <;> subst hq <;>
      simp only [Contact.readProperty, Contact.anniversary, Contact.blogFeed] <;> rw [custom_other hs hp h _ hb]
  · rw [write_op] at h
    obtain ⟨op, ho, rfl⟩ := Option.map_eq_some_iff.1 h
    refine read_congr E _ _ q he fun f hf => apply_other _ _ _ ?_
    rintro rfl
    have := List.all_eq_true.1 ha _ hf
    simp [target_of ho] at this

private theorem read_back (E : ToolEnv) {c c' : Contact} (hs : Sorted c.customs) (p : Property) (v : PropertyValue) (h : c.writeProperty E p v = some c')
    (hk : Kept E v) : SameValue E v (c'.readProperty E p) := by
  have plain := fun (s : QString) => C59_plain_fields c s .invalid {}
  have named : ∀ (f s : QString), f ≠ [] → (c.setNamedCustom f s).custom vendorId f = s := fun f s hf => (C59_named_customs c f s hf hs).1
  cases p <;> cases v <;> simp only [Contact.writeProperty, Option.some.injEq, reduceCtorEq] at h <;> subst h <;>
    simp only [Contact.readProperty, SameValue] <;> first | exact absurd hk id | (simp only [plain]; done) | (rw [named _ _ (by decide)]; done) | skip
  · rename_i d
    have hb := C59_birthday E.toQtEnv c d none
    unfold Contact.setBirthdayProperty
    cases d with
    | none =>
      simp only [Contact.setBirthday]
      split
      · rename_i h; right; simp only [Bool.and_eq_true] at h; exact h.1
      · left; rfl
    | some x =>
      by_cases hx : x.time = (0, 0, 0, 0)
      · have e : QDateTime.midnight (some x) = some x := by
          show some { x with time := _ } = some x
          rw [← hx]
        simp only [Contact.setBirthday]
        split
        · rename_i h; right; simp only [Bool.and_eq_true] at h; exact h.1
        · left; simp [e]
      · simp only [hx, ne_eq, not_false_eq_true, decide_true]
        exact hb.1.imp Eq.symm id
  · rename_i g; exact (C59_compared_fields E.toQtEnv c {} g {} {} none).2.2.1.imp Eq.symm id
  iterate 7 rfl
  · rename_i d
    congr 1
    unfold Contact.anniversary
    cases d with
    | none =>
      have := named (q! "X-Anniversary") [] (by decide)
      rw [show c.setAnniversary none = c.setNamedCustom (q! "X-Anniversary") [] from rfl, this]
      simp [isoDateOf]
    | some x =>
      obtain ⟨h1, h2, h3⟩ := hk x rfl
      have hr := iso_roundtrip (E := E) (d := x) ⟨.inr ⟨h2, h3⟩, h1⟩ h2
      have hne : isoDate (some x) ≠ [] := by
        intro e
        rw [e] at hr
        simp [isoDateOf] at hr
      have e : c.setAnniversary (some x) = c.setNamedCustom (q! "X-Anniversary") (isoDate (some x)) := by
        unfold Contact.setAnniversary Contact.setNamedCustom
        simp [hne]
      rw [e, named _ _ (by decide), hr]
  · rename_i u
    unfold Contact.blogFeed
    rw [named _ _ (by decide), show E.urlOf u = u from hk]
  · rename_i p
    exact (C59_compared_fields E.toQtEnv c {} {} p {} none).2.2.2.2.2.2.1.imp Eq.symm id
  · rename_i d
    exact (C59_compared_fields E.toQtEnv c {} {} {} {} d).2.2.2.2.2.2.2.2.2.2.2.2.1.imp Eq.symm id

private theorem write_sorted (E : ToolEnv) {c c' : Contact} (hs : Sorted c.customs) {p : Property} {v : PropertyValue} (h : c.writeProperty E p v = some c') :
    Sorted c'.customs := by
  rw [write_op] at h
  obtain ⟨op, _, rfl⟩ := Option.map_eq_some_iff.1 h
  exact after_sorted _ _ _ hs

private theorem writeNamed_cases (E : ToolEnv) (c : Contact) (name : QString) (v : PropertyValue) :
    (c.writeNamed E name v).2 = c ∨ ∃ p, name = nameOf p ∧ c.writeProperty E p v = some (c.writeNamed E name v).2 := by
  cases h : (c.writeNamed E name v).1 with
  | true => exact .inr ((writeNamed_iff E c name v _).1 (by rw [← h]))
  | false =>
    left
    unfold Contact.writeNamed at h ⊢
    split at h <;> rename_i h' <;> simp_all

private theorem afterWrites_sorted (E : ToolEnv) (c : Contact) (hs : Sorted c.customs) (ws : List (QString × PropertyValue)) : Sorted (afterWrites E c ws).customs := by
  induction ws generalizing c with
  | nil => exact hs
  | cons w ws ih =>
    refine ih _ ?_
    show Sorted (c.writeNamed E w.1 w.2).2.customs
    rcases writeNamed_cases E c w.1 w.2 with e | ⟨p, _, h⟩
    · rw [e]; exact hs
    · exact write_sorted E hs h

private theorem afterWrites_other (E : ToolEnv) (c : Contact) (hs : Sorted c.customs) (ws : List (QString × PropertyValue)) (name : QString)
    (h : ∀ w ∈ ws, ¬ Touches w.1 name) : (afterWrites E c ws).readNamed E name = c.readNamed E name := by
  induction ws generalizing c with
  | nil => rfl
  | cons w ws ih =>
    show (afterWrites E (c.writeNamed E w.1 w.2).2 ws).readNamed E name = _
    rcases writeNamed_cases E c w.1 w.2 with e | ⟨p, hp, hw⟩
    · rw [e]; exact ih c hs fun x hx => h x (by simp [hx])
    · rw [ih _ (write_sorted E hs hw) fun x hx => h x (by simp [hx])]
      unfold Contact.readNamed
      cases hl : (propertyNames.find? fun e => e.1 = name).map (·.2) with
      | none => rfl
      | some q =>
        have hq := (lookup_iff name q).1 hl
        have := h w (by simp)
        rw [hp, hq] at this
        simp only [Option.map_some, Option.some.injEq]
        exact read_other E hs p q w.2 hw this

/-! ### The property -/

/-- **C87, the properties there are.** A property can be read if it is one of those that can be written or of those that can only be read; a value is
    accepted for a property if the property can be written and the value has the property's type; otherwise nothing changes. -/
theorem C87_declared (E : ToolEnv) (c : Contact) (name : QString) (v : PropertyValue) :
    ((c.readNamed E name).isSome = true ↔ name ∈ readOnly ∨ ∃ w, name ∈ writable w) ∧
    ((c.writeNamed E name v).1 = true ↔ name ∈ writable v) ∧
    (name ∉ writable v → c.writeNamed E name v = (false, c)) := by
  have kinds : ∀ p : Property, nameOf p ∈ readOnly ∨ ∃ w, nameOf p ∈ writable w := by
    intro p
    cases p
    case changed => exact .inr ⟨.flag true, by decide⟩
    case birthday => exact .inr ⟨.moment none, by decide⟩
    case deathDate => exact .inr ⟨.moment none, by decide⟩
    case anniversary => exact .inr ⟨.day none, by decide⟩
    case geo => exact .inr ⟨.position {}, by decide⟩
    case blogFeed => exact .inr ⟨.link [], by decide⟩
    case url => exact .inr ⟨.locator {}, by decide⟩
    case extraUrls => exact .inr ⟨.locators [], by decide⟩
    case emails => exact .inr ⟨.emails [], by decide⟩
    case phoneNumbers => exact .inr ⟨.phoneNumbers [], by decide⟩
    case addresses => exact .inr ⟨.addresses [], by decide⟩
    case categories => exact .inr ⟨.texts [], by decide⟩
    case impps => exact .inr ⟨.impps [], by decide⟩
    case photo => exact .inr ⟨.picture {}, by decide⟩
    all_goals first | exact .inl (by decide) | exact .inr ⟨.text [], by decide⟩
  have names : ∀ n, n ∈ readOnly → ∃ p, n = nameOf p := by
    have : ∀ n ∈ readOnly, ∃ p ∈ allProperties, n = nameOf p := by decide +kernel
    exact fun n hn => (this n hn).imp fun _ h => h.2
  have accepted : ∀ n, n ∈ writable v ↔ ∃ p, n = nameOf p ∧ (c.writeProperty E p v).isSome = true := by
    have each : ∀ p, nameOf p ∈ writable v ↔ (c.writeProperty E p v).isSome = true := by
      intro p
      rw [write_op, Option.isSome_map]
      have : ∀ p ∈ allProperties, (nameOf p ∈ writable v ↔ (opOf p v).isSome = true) := by
        cases v <;> (simp only [writable]; intro p _; cases p <;> simp only [opOf, Option.isSome_some, Option.isSome_none] <;> decide)
      exact this p (mem_all p)
    have listed : ∀ n ∈ writable v, ∃ p, n = nameOf p := by
      have : ∀ n ∈ writable v, ∃ p ∈ allProperties, n = nameOf p := by
        cases v <;> (simp only [writable]; decide +kernel)
      exact fun n hn => (this n hn).imp fun _ h => h.2
    intro n
    constructor
    · intro h
      obtain ⟨p, rfl⟩ := listed n h
      exact ⟨p, rfl, (each p).1 h⟩
    · rintro ⟨p, rfl, h⟩
      exact (each p).2 h
  have hacc : (c.writeNamed E name v).1 = true ↔ name ∈ writable v := by
    rw [accepted]
    constructor
    · intro h
      obtain ⟨p, hp, hw⟩ := (writeNamed_iff E c name v _).1 (by rw [← h])
      exact ⟨p, hp, by rw [hw]; rfl⟩
    · rintro ⟨p, hp, hw⟩
      obtain ⟨c', hc⟩ := Option.isSome_iff_exists.1 hw
      rw [(writeNamed_iff E c name v c').2 ⟨p, hp, hc⟩]
  refine ⟨⟨fun h => ?_, ?_⟩, hacc, fun h => ?_⟩
  · obtain ⟨w, hw⟩ := Option.isSome_iff_exists.1 h
    obtain ⟨p, rfl, _⟩ := (readNamed_iff E c name w).1 hw
    exact kinds p
  · have : (∃ p, name = nameOf p) → (c.readNamed E name).isSome = true := by
      rintro ⟨p, hp⟩
      rw [(readNamed_iff E c name _).2 ⟨p, hp, rfl⟩]
      rfl
    rintro (h | ⟨w, h⟩)
    · exact this (names _ h)
    · have listed : ∀ n ∈ writable w, ∃ p ∈ allProperties, n = nameOf p := by
        cases w <;> (simp only [writable]; decide +kernel)
      exact this ((listed _ h).imp fun _ h => h.2)
  · have hf : (c.writeNamed E name v).1 = false := by
      cases h' : (c.writeNamed E name v).1 with
      | false => rfl
      | true => exact absurd (hacc.1 h') h
    unfold Contact.writeNamed at hf ⊢
    split at hf
    · simp at hf
    · rfl

/-- **C87, reading back (partial).** In a contact with any history of calls: after any writes, a property that was written has the value written last (or a value
    equal to it by the comparison of its type), as long as no property that shows in it is written afterwards, and apart from the values that the
    library does not keep. -/
theorem C87_last_partial (E : ToolEnv) (u : QString) (ops : List Op) (before after : List (QString × PropertyValue)) (name : QString) (v : PropertyValue)
    (hw : name ∈ writable v) (hk : Kept E v) (ha : ∀ w ∈ after, ¬ Touches w.1 name) :
    ∃ w, (afterWrites E (contactAfter E.toQtEnv u ops) (before ++ (name, v) :: after)).readNamed E name = some w ∧ SameValue E v w := by
  have hs := afterWrites_sorted E _ (contactAfter_sorted E.toQtEnv u ops) before
  rw [afterWrites, List.foldl_append, List.foldl_cons]
  change ∃ w, (afterWrites E ((afterWrites E _ before).writeNamed E name v).2 after).readNamed E name = some w ∧ _
  generalize afterWrites E (contactAfter E.toQtEnv u ops) before = c at hs
  have h := (C87_declared E c name v).2.1.2 hw
  obtain ⟨p, hp, hw'⟩ := (writeNamed_iff E c name v _).1 (by rw [← h])
  refine ⟨_, ?_, read_back E hs p v hw' hk⟩
  rw [afterWrites_other E _ (write_sorted E hs hw') after name ha]
  exact (readNamed_iff E _ name _).2 ⟨p, hp, rfl⟩

/-- **C87, the other properties.** Writes change no property that does not show what was written. -/
theorem C87_others (E : ToolEnv) (u : QString) (ops : List Op) (ws : List (QString × PropertyValue)) (name : QString) (h : ∀ w ∈ ws, ¬ Touches w.1 name) :
    (afterWrites E (contactAfter E.toQtEnv u ops) ws).readNamed E name = (contactAfter E.toQtEnv u ops).readNamed E name :=
  afterWrites_other E _ (contactAfter_sorted E.toQtEnv u ops) ws name h

/-- **C87, `url`.** Writing the property `url` adds the address to the list behind `extraUrls` (nothing if it is not valid or already there), and
    reading `url` gives the first address of that list: so the address written is the one shown if there was none before, and otherwise the first
    one stays. -/
theorem C87_url (E : ToolEnv) (u : QString) (ops : List Op) (x : ParamUrl) :
    let c := contactAfter E.toQtEnv u ops
    let c' := (c.writeNamed E (q! "url") (.locator x)).2
    (c.extraUrls = [] → E.urlValid x.url = true → c'.readNamed E (q! "url") = some (.locator x)) ∧
    (c.extraUrls ≠ [] → c'.readNamed E (q! "url") = c.readNamed E (q! "url")) := by
  intro c c'
  have hc : c' = c.insertExtraUrl E.toQtEnv x := by
    have := (writeNamed_iff E c (q! "url") (.locator x) (c.insertExtraUrl E.toQtEnv x)).2 ⟨.url, by decide, rfl⟩
    show (c.writeNamed E (q! "url") (.locator x)).2 = _
    rw [this]
  have hr : ∀ d : Contact, d.readNamed E (q! "url") = some (.locator d.url) := fun d => (readNamed_iff E d _ _).2 ⟨.url, by decide, rfl⟩
  rw [hr, hr, hc]
  generalize c = d
  unfold Contact.insertExtraUrl Contact.url
  constructor
  · intro h hv
    simp [h, ParamUrl.isValidUrl, hv]
  · intro h
    obtain ⟨a, l, hl⟩ := List.exists_cons_of_ne_nil h
    split <;> simp [hl]

/-- **C87 is false for `url`.** A second write to `url` is accepted and not shown. -/
theorem C87_url_false : ¬ ∀ (E : ToolEnv) (ws : List (QString × PropertyValue)) (v : PropertyValue) (name : QString), name ∈ writable v →
    ∃ w, (afterWrites E { uid := q! "u" } (ws ++ [(name, v)])).readNamed E name = some w ∧ SameValue E v w := by
  intro h
  obtain ⟨w, h1, h2⟩ := h Sample.env [(q! "url", .locator { url := q! "http://a" })] (.locator { url := q! "http://b" }) (q! "url") (by decide)
  have : (afterWrites Sample.env { uid := q! "u" } ([(q! "url", .locator { url := q! "http://a" })] ++ [(q! "url", .locator { url := q! "http://b" })])).readNamed
      Sample.env (q! "url") = some (.locator { url := q! "http://a" }) := by decide +kernel
  rw [this] at h1
  cases h1
  exact absurd h2 (by simp [SameValue])

/-- **C87 is false for anniversaries.** An anniversary in the year 10000 is accepted and the anniversary before it stays. -/
theorem C87_anniversary_false : ¬ ∀ (E : ToolEnv) (ws : List (QString × PropertyValue)) (v : PropertyValue), q! "anniversary" ∈ writable v →
    ∃ w, (afterWrites E { uid := q! "u" } (ws ++ [(q! "anniversary", v)])).readNamed E (q! "anniversary") = some w ∧ SameValue E v w := by
  intro h
  obtain ⟨w, h1, h2⟩ := h Sample.env [(q! "anniversary", .day (some (2001, 2, 3)))] (.day (some (10000, 1, 1))) (by decide)
  have : (afterWrites Sample.env { uid := q! "u" } ([(q! "anniversary", .day (some (2001, 2, 3)))] ++ [(q! "anniversary", .day (some (10000, 1, 1)))])).readNamed
      Sample.env (q! "anniversary") = some (.day (some (2001, 2, 3))) := by decide +kernel
  rw [this] at h1
  cases h1
  exact absurd h2 (by simp [SameValue])

/-! ### Cases -/

/-- A name, a birthday with a time, a department, an office, then other properties: all read back, also after the later writes. -/
private def sampleWrites : List (QString × PropertyValue) :=
  [(q! "familyName", .text (q! "Doe")), (q! "office", .text (q! "12")), (q! "anniversary", .day (some (2001, 2, 3))), (q! "emails", .emails [{ mail := q! "a@b" }]),
   (q! "title", .text (q! "no such write")), (q! "geo", .position {})]

example : (∀ w ∈ sampleWrites.drop 2, ¬ Touches w.1 (q! "office")) ∧ q! "office" ∈ writable (.text (q! "12")) ∧ Kept Sample.env (.text (q! "12")) :=
  ⟨by decide, by decide, trivial⟩
example : Kept Sample.env (.day (some (2001, 2, 3))) ∧ (∀ w ∈ sampleWrites.drop 3, ¬ Touches w.1 (q! "anniversary")) := by
  refine ⟨?_, by decide⟩
  rintro x ⟨⟩
  decide
example : (afterWrites Sample.env { uid := q! "u" } sampleWrites).readNamed Sample.env (q! "office") = some (.text (q! "12")) ∧
    (afterWrites Sample.env { uid := q! "u" } sampleWrites).readNamed Sample.env (q! "customs") =
      some (.texts [q! "KADDRESSBOOK-X-Anniversary:2001-02-03", q! "KADDRESSBOOK-X-Office:12"]) ∧
    (afterWrites Sample.env { uid := q! "u" } sampleWrites).readNamed Sample.env (q! "title") = some (.text []) ∧
    (afterWrites Sample.env { uid := q! "u" } sampleWrites).readNamed Sample.env (q! "assembledName") = some (.text (q! "Doe")) ∧
    (afterWrites Sample.env { uid := q! "u" } sampleWrites).readNamed Sample.env (q! "labels") = none := by decide +kernel
example : ∀ w ∈ sampleWrites, ¬ Touches w.1 (q! "url") := by decide

end KC
