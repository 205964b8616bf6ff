import Verif.Lemmas.LdifEntry
import Verif.Lemmas.KeyedMap
import Verif.Props.C42
/-
  C76 — each attribute of an LDIF entry is imported into the field its name stands for.
-/
namespace KC
open KC.Spec

private theorem latin1_document (t : QByteArray) : toLatin1 (documentString t) = t := by
  unfold toLatin1 documentString fromLatin1
  rw [List.map_map]
  conv => rhs; rw [← List.map_id t]
  apply List.map_congr_left
  intro b _
  have := b.toNat_lt
  have e : (UInt16.ofNat b.toNat).toNat = b.toNat := by simp
  simp only [Function.comp, e, id]
  rw [if_pos (by omega)]
  simp

/-- The import of an entry is the result of its attributes. -/
private theorem import_entry (E : LdifEnv) (ids : Nat → QString) (now : QDateTime) (linelen : Nat) (r : LdifRecord) (h : r.Proper) :
    ldifToAddressee E ids now (documentString (r.text linelen)) = some (ldifResult (entryState E ids now r)) := by
  obtain ⟨es, he⟩ := C42_readable (r.text linelen)
  have h1 := C42_partial linelen [r] (by simpa using h) es (by simpa using he)
  rw [ldifToAddressee_items E _ now _ es (by rw [latin1_document]; exact he), h1]
  simp only [List.flatMap_cons, List.flatMap_nil, List.append_nil]
  have key : ∀ (as : List (QString × QByteArray)), (∀ a ∈ as, a.1 ≠ []) → ∀ (x : LdifState × (List Contact × List Group)),
      (as.map fun a => (⟨.item, a.1, a.2, false⟩ : LdifItem)).foldl (ldifStep E ids now) x =
        ((as.map fun a => (ldifField false (toLowerQ a.1), fromUtf8 a.2)).foldl (fun s p => ldifApply E ids s p.1 p.2) x.1, x.2) := by
    intro as
    induction as with
    | nil => intro _ x; rfl
    | cons a as ih =>
      intro ha x
      simp only [List.map_cons, List.foldl_cons]
      rw [ih (fun b hb => ha b (by simp [hb]))]
      have e : ∀ b, ldifField b (toLowerQ a.1) = ldifField false (toLowerQ a.1) := by
        intro b
        have : (toLowerQ a.1).isEmpty = false := by
          have := ha a (by simp)
          cases h : a.1 with
          | nil => exact absurd h this
          | cons c t => rfl
        unfold ldifField
        rw [this]
        simp
      simp only [ldifStep, evaluatePair, e]
  unfold LdifRecord.items
  rw [List.cons_append, List.foldl_cons, List.foldl_append]
  have h0 : ldifStep E ids now (ldifFresh E ids now 0 (-1) (-1) (-1), ([], [])) ⟨.newEntry, q! "dn", r.dn, false⟩ = (ldifFresh E ids now 0 (-1) (-1) (-1), ([], [])) := rfl
  rw [h0, key _ (fun a ha => (h.names a ha).nonempty)]
  rfl

private theorem words_visible {s : QString} : ∀ w ∈ words isSpaceQ s, hasVisible w = true := by
  induction s with
  | nil => simp [words]
  | cons x t ih =>
    intro w hw
    cases t with
    | nil =>
      simp only [words] at hw
      split at hw
      · simp at hw
      · rename_i hx
        rw [List.mem_singleton.1 hw]
        simp [hasVisible, hx]
    | cons y r =>
      rw [words_cons2] at hw
      generalize words isSpaceQ (y :: r) = W at *
      split at hw
      · exact ih w hw
      · rename_i hx
        split at hw
        · rcases List.mem_cons.1 hw with rfl | hw
          · simp [hasVisible, hx]
          · exact ih w hw
        · split at hw
          · rw [List.mem_singleton.1 hw]
            simp [hasVisible, hx]
          · rcases List.mem_cons.1 hw with rfl | hw
            · simp [hasVisible, hx]
            · exact ih w (List.mem_cons_of_mem _ hw)

private theorem simplified_twice (v : QString) : (simplified (simplified v)).isEmpty = decide (simplified v = []) := by
  rw [simplified_isEmpty]
  have h := words_visible (s := v)
  unfold simplified
  cases hw : words isSpaceQ v with
  | nil => rfl
  | cons w l =>
    have h1 := h w (by simp [hw])
    have : hasVisible (join [qc! ' '] (w :: l)) = true := by
      cases l with
      | nil => exact h1
      | cons u l =>
        simp only [join, hasVisible, List.any_append, Bool.or_eq_true]
        exact .inl (.inl h1)
    have hne : join [qc! ' '] (w :: l) ≠ [] := by
      intro e
      rw [e] at this
      exact absurd this (by decide)
    simp only [this, Bool.not_true, hne, decide_false]

section parts
variable (E : LdifEnv) (ids : Nat → QString) (now : QDateTime) (r : LdifRecord)

/-- A stored text. -/
private theorem part_store (π : Contact → QString) (k : LdifField) {names : List QString} (hk : nameCheck names (fun k' => decide (k' = k)) = true)
    (h : ∀ id k' v c e, π (entryAll E id k' v c e) = store k k' v (π c)) (h0 : π (ldifFresh E ids now 0 (-1) (-1) (-1)).a = []) :
    π (entryState E ids now r).a = r.last names := by
  rw [entry_field E ids now r π (fun k' => decide (k' = k)) (fun _ v => v) hk, fold_last, h0]
  · rfl
  · intro id k' v c e
    rw [h]
    simp [store]

private theorem part_texts (π : Contact → List ParamText) (k : LdifField) {names : List QString} (hk : nameCheck names (fun k' => decide (k' = k)) = true)
    (h : ∀ id k' v c e, π (entryAll E id k' v c e) = entryText k k' v (π c)) (h0 : π (ldifFresh E ids now 0 (-1) (-1) (-1)).a = []) :
    π (entryState E ids now r).a = r.single names := by
  rw [entry_field E ids now r π (fun k' => decide (k' = k)) (fun x v => if x = [] ∧ v = [] then x else setFirstText x v) hk, h0, fold_single]
  · rfl
  · intro id k' v c e
    rw [h]
    simp [entryText]

private theorem fresh_a : ∃ d e, (ldifFresh E ids now 0 (-1) (-1) (-1)).a = { uid := ids 0, revision := d, empty := e } ∧ d = now := by
  unfold ldifFresh Contact.setRevision
  dsimp only
  split
  · rename_i h
    refine ⟨none, true, rfl, ?_⟩
    cases now with
    | none => rfl
    | some x => exact absurd h (by simp [Contact.new, QDateTime.eq])
  · exact ⟨now, false, rfl, rfl⟩

private theorem fresh_const {α : Type} (π : Contact → α) (x : α) (h : ∀ d e, π { uid := ids 0, revision := d, empty := e } = x) :
    π (ldifFresh E ids now 0 (-1) (-1) (-1)).a = x := by
  obtain ⟨d, e, he, _⟩ := fresh_a E ids now
  rw [he]
  exact h d e

private theorem part_uid : (entryState E ids now r).a.uid = (r.values [q! "uid"]).getLast?.getD (ids 0) := by
  rw [entry_field E ids now r (fun c => c.uid) (fun k => decide (k = .uid)) (fun _ v => v) (names := [q! "uid"]) (by decide +kernel), fold_last,
    fresh_const E ids now (fun c => c.uid) (ids 0) (fun _ _ => rfl)]
  intro id k v c e
  show store .uid k v c.uid = _
  simp [store]

private theorem part_note : (entryState E ids now r).a.note = List.intercalate (q! "\n") ((r.values noteNames).dropWhile (·.isEmpty)) := by
  rw [entry_field E ids now r (fun c => c.note) (fun k => decide (k = .note)) (fun x v => if x.isEmpty then v else x ++ q! "\n" ++ v) (names := noteNames)
    (by decide +kernel), fresh_const E ids now (fun c => c.note) [] (fun _ _ => rfl), fold_note]
  intro id k v c e
  show storeNote k v c.note = _
  simp [storeNote]

private theorem part_emails : (entryState E ids now r).a.emails =
    (distinct (r.values [q! "mail", q! "mozillasecondemail", q! "othermailbox"])).map fun m => { mail := m } := by
  rw [entry_field E ids now r (fun c => c.emails) (fun k => decide (k = .email)) (fun x v => if v ∈ x.map (·.mail) then x else x ++ [{ mail := v }])
    (names := [q! "mail", q! "mozillasecondemail", q! "othermailbox"]) (by decide +kernel), fresh_const E ids now (fun c => c.emails) [] (fun _ _ => rfl), fold_emails]
  intro id k v c e
  show storeEmail k v c.emails = _
  simp only [storeEmail, decide_eq_true_eq]

private theorem part_urls (hu : ∀ u, E.urlValid u = true → u ≠ []) : (entryState E ids now r).a.extraUrls =
    ((((r.values [q! "homeurl", q! "workurl", q! "mozillahomeurl"]).map E.urlOf).filter E.urlValid).take 1).map fun u => { url := u } := by
  rw [entry_field E ids now r (fun c => c.extraUrls) (fun k => decide (k = .url))
    (fun x v => if (x.headD {}).url.isEmpty && E.urlValid (E.urlOf v) then x ++ [{ url := E.urlOf v }] else x)
    (names := [q! "homeurl", q! "workurl", q! "mozillahomeurl"]) (by decide +kernel), fresh_const E ids now (fun c => c.extraUrls) [] (fun _ _ => rfl), fold_urls E hu]
  intro id k v c e
  show storeUrl E k v c.extraUrls = _
  simp only [storeUrl, decide_eq_true_eq]

private theorem part_revision : QDateTime.eq E.toQtEnv (entryState E ids now r).a.revision
    ((((r.values [q! "modifytimestamp"]).map vCardStringToDate).filter (·.isSome)).getLast?.getD now) = true := by
  rw [entry_field E ids now r (fun c => c.revision) (fun k => decide (k = .revision)) (fun x v =>
      if v ≠ q! "0Z" ∧ (vCardStringToDate v).isSome = true ∧ QDateTime.eq E.toQtEnv (vCardStringToDate v) x = false then vCardStringToDate v else x)
    (names := [q! "modifytimestamp"]) (by decide +kernel)]
  · obtain ⟨d, e, he, hd⟩ := fresh_a E ids now
    rw [he]
    exact fold_revision E _ d now (hd ▸ QDateTime.eq_refl' _ _)
  · intro id k v c e
    show storeRevision E k v c.revision = _
    simp only [storeRevision, decide_eq_true_eq]

private theorem part_revisionFrom : (entryState E ids now r).a.revision = now ∨
    ∃ v ∈ r.values [q! "modifytimestamp"], (entryState E ids now r).a.revision = vCardStringToDate v := by
  rw [entry_field E ids now r (fun c => c.revision) (fun k => decide (k = .revision)) (fun x v =>
      if v ≠ q! "0Z" ∧ (vCardStringToDate v).isSome = true ∧ QDateTime.eq E.toQtEnv (vCardStringToDate v) x = false then vCardStringToDate v else x)
    (names := [q! "modifytimestamp"]) (by decide +kernel)]
  · obtain ⟨d, e, he, hd⟩ := fresh_a E ids now
    rw [he, hd]
    have : ∀ (l : List QString) (x : QDateTime), (x = now ∨ ∃ v ∈ r.values [q! "modifytimestamp"], x = vCardStringToDate v) → (∀ v ∈ l, v ∈ r.values [q! "modifytimestamp"]) →
        (l.foldl (fun (x : QDateTime) v =>
          if v ≠ q! "0Z" ∧ (vCardStringToDate v).isSome = true ∧ QDateTime.eq E.toQtEnv (vCardStringToDate v) x = false then vCardStringToDate v else x) x = now ∨
        ∃ v ∈ r.values [q! "modifytimestamp"], l.foldl (fun (x : QDateTime) v =>
          if v ≠ q! "0Z" ∧ (vCardStringToDate v).isSome = true ∧ QDateTime.eq E.toQtEnv (vCardStringToDate v) x = false then vCardStringToDate v else x) x = vCardStringToDate v) := by
      intro l
      induction l with
      | nil => exact fun x hx _ => hx
      | cons a l ih =>
        intro x hx hl
        refine ih _ ?_ fun v hv => hl v (List.mem_cons_of_mem _ hv)
        dsimp only
        split
        · exact .inr ⟨a, hl a (by simp), rfl⟩
        · exact hx
    exact this _ _ (.inl rfl) fun _ h => h
  · intro id k v c e
    show storeRevision E k v c.revision = _
    simp only [storeRevision, decide_eq_true_eq]

/-- The kinds of phone numbers, by meaning. -/
private def phoneKind : LdifField → Option Nat
  | .phone t => some t
  | _ => none

private theorem part_phones (hids : ∀ i j, ids i = ids j → i = j) : (entryState E ids now r).a.phoneNumbers.map (fun p => (p.type, p.number)) =
    ((r.kinded ldifPhoneKinds).map fun p => (p.1, simplified p.2)).filter fun p => decide (p.2 ≠ []) := by
  have h := (entry_part E ids now r (fun s => s.a.phoneNumbers.map fun p => (p.type, p.number))
    (fun k v x => (phoneKind k).elim x fun t => (fun (x : List (Nat × QString)) (p : Nat × QString) => if simplified p.2 = [] then x else x ++ [(p.1, simplified p.2)]) x (t, v))
    (fun s => ∀ p ∈ s.a.phoneNumbers, ∃ i, i < s.next ∧ p.id = ids i) ?_ ?_).2
  · refine h.trans ((fold_kinds phoneKind (fun x p => if simplified p.2 = [] then x else x ++ [(p.1, simplified p.2)]) _ _).trans ?_)
    rw [← kinded_fields r (table := ldifPhoneKinds) (κ := phoneKind) (by decide +kernel),
      fresh_const E ids now (fun c => c.phoneNumbers.map fun p => (p.type, p.number)) [] (fun _ _ => rfl)]
    have : ∀ (l : List (Nat × QString)) (x : List (Nat × QString)), l.foldl (fun x p => if simplified p.2 = [] then x else x ++ [(p.1, simplified p.2)]) x =
        x ++ (l.map fun p => (p.1, simplified p.2)).filter fun p => decide (p.2 ≠ []) := by
      intro l
      induction l with
      | nil => intro x; simp
      | cons p l ih =>
        intro x
        rw [List.foldl_cons, ih, List.map_cons]
        by_cases hp : simplified p.2 = []
        · rw [if_pos hp, List.filter_cons_of_neg (by simp [hp])]
        · rw [if_neg hp, List.filter_cons_of_pos (by simp [hp]), List.append_assoc]
          rfl
    exact this _ []
  · intro k v s hk hI
    obtain ⟨e, he⟩ := entry_contact E ids k v s hk
    have hn := apply_next E ids k v s
    by_cases hp : ∃ t, k = .phone t
    · obtain ⟨t, rfl⟩ := hp
      have hf : findFirst PhoneNumber.id (ids s.next) s.a.phoneNumbers = none := by
        apply findFirst_phone
        intro p hp e
        obtain ⟨i, hi, e'⟩ := hI p hp
        have := hids _ _ (e'.symm.trans e)
        omega
      have hs := simplified_twice v
      have : (ldifApply E ids s (.phone t) v).a.phoneNumbers = if simplified v = [] then s.a.phoneNumbers else s.a.phoneNumbers ++ [PhoneNumber.mk' (ids s.next) v t] := by
        simp only [ldifApply, Contact.insertPhoneNumber, PhoneNumber.mk', hf, cleanupNumber, hs, decide_eq_true_eq]
      have hnx : (ldifApply E ids s (.phone t) v).next = s.next + 1 := rfl
      rw [this, hnx]
      dsimp only [phoneKind, Option.elim]
      split
      · exact ⟨fun p hp => let ⟨i, hi, e⟩ := hI p hp; ⟨i, by omega, e⟩, rfl⟩
      · refine ⟨fun p hp => ?_, by simp [PhoneNumber.mk', cleanupNumber]⟩
        rcases List.mem_append.1 hp with hp | hp
        · obtain ⟨i, hi, e⟩ := hI p hp
          exact ⟨i, by omega, e⟩
        · rw [List.mem_singleton.1 hp]
          exact ⟨s.next, by omega, rfl⟩
    · have e1 : phoneKind k = none := by
        cases k <;> first | rfl | exact absurd ⟨_, rfl⟩ hp
      have e2 : (ldifApply E ids s k v).a.phoneNumbers = s.a.phoneNumbers := by
        rw [he]
        cases k <;> first | rfl | exact absurd ⟨_, rfl⟩ hp
      rw [e1, e2]
      exact ⟨fun p hp => let ⟨i, hi, e⟩ := hI p hp; ⟨i, by omega, e⟩, rfl⟩
  · rw [fresh_const E ids now (fun c => c.phoneNumbers) [] (fun _ _ => rfl)]
    simp

private theorem part_phoneIds (hids : ∀ i j, ids i = ids j → i = j) :
    (∀ p ∈ (entryState E ids now r).a.phoneNumbers, p.params = []) ∧ ((entryState E ids now r).a.phoneNumbers.map (·.id)).Nodup := by
  have h := (entry_part E ids now r (fun _ => ()) (fun _ _ _ => ())
    (fun s => (∀ p ∈ s.a.phoneNumbers, (∃ i, i < s.next ∧ p.id = ids i) ∧ p.params = []) ∧ (s.a.phoneNumbers.map (·.id)).Nodup) ?_ ?_).1
  · exact ⟨fun p hp => (h.1 p hp).2, h.2⟩
  · rintro k v s hk ⟨hI, hN⟩
    refine ⟨?_, rfl⟩
    obtain ⟨e, he⟩ := entry_contact E ids k v s hk
    have hn := apply_next E ids k v s
    by_cases hp : ∃ t, k = .phone t
    · obtain ⟨t, rfl⟩ := hp
      have hnew : ∀ p ∈ s.a.phoneNumbers, p.id ≠ ids s.next := by
        intro p hp e
        obtain ⟨⟨i, hi, e'⟩, -⟩ := hI p hp
        have := hids _ _ (e'.symm.trans e)
        omega
      have hf : findFirst PhoneNumber.id (ids s.next) s.a.phoneNumbers = none := findFirst_phone _ _ hnew
      have hs := simplified_twice v
      have : (ldifApply E ids s (.phone t) v).a.phoneNumbers = if simplified v = [] then s.a.phoneNumbers else s.a.phoneNumbers ++ [PhoneNumber.mk' (ids s.next) v t] := by
        simp only [ldifApply, Contact.insertPhoneNumber, PhoneNumber.mk', hf, cleanupNumber, hs, decide_eq_true_eq]
      have hnx : (ldifApply E ids s (.phone t) v).next = s.next + 1 := rfl
      rw [this, hnx]
      split
      · exact ⟨fun p hp => let ⟨⟨i, hi, e⟩, h⟩ := hI p hp; ⟨⟨i, by omega, e⟩, h⟩, hN⟩
      · refine ⟨fun p hp => ?_, ?_⟩
        · rcases List.mem_append.1 hp with hp | hp
          · obtain ⟨⟨i, hi, e⟩, h⟩ := hI p hp
            exact ⟨⟨i, by omega, e⟩, h⟩
          · rw [List.mem_singleton.1 hp]
            exact ⟨⟨s.next, by omega, rfl⟩, rfl⟩
        · rw [List.map_append, List.nodup_append]
          refine ⟨hN, by simp, ?_⟩
          intro a ha b hb
          obtain ⟨p, hp, rfl⟩ := List.mem_map.1 ha
          rw [List.mem_singleton.1 hb]
          exact hnew p hp
    · have e2 : (ldifApply E ids s k v).a.phoneNumbers = s.a.phoneNumbers := by
        rw [he]
        cases k <;> first | rfl | exact absurd ⟨_, rfl⟩ hp
      rw [e2]
      exact ⟨fun p hp => let ⟨⟨i, hi, e⟩, h⟩ := hI p hp; ⟨⟨i, by omega, e⟩, h⟩, hN⟩
  · rw [fresh_const E ids now (fun c => c.phoneNumbers) [] (fun _ _ => rfl)]
    simp

private theorem part_birthday : ∃ x : Option (Int × Nat × Nat), x = ((r.values [q! "xbatbirthday"]).filterMap eightDigits).getLast? ∧
    ((entryState E ids now r).a.birthday, (entryState E ids now r).a.birthdayWithTime) =
      (x.map fun d => ({ date := d, time := (0, 0, 0, 0), zone := none } : DT), false) := by
  rw [entry_field E ids now r (fun c => (c.birthday, c.birthdayWithTime)) (fun k => decide (k = .batBirthday)) (fun x v => entryBat .batBirthday v x)
    (names := [q! "xbatbirthday"]) (by decide +kernel), fresh_const E ids now (fun c => (c.birthday, c.birthdayWithTime)) (none, false) (fun _ _ => rfl)]
  · have step : ∀ v (x : Option (Int × Nat × Nat)), entryBat .batBirthday v (x.map fun d => ({ date := d, time := (0, 0, 0, 0), zone := none } : DT), false) =
        (((eightDigits v).or x).map fun d => ({ date := d, time := (0, 0, 0, 0), zone := none } : DT), false) := by
      intro v x
      have m4 : midQ v 0 4 = v.take 4 := rfl
      have m2 : midQ v 4 2 = (v.drop 4).take 2 := rfl
      have m6 : midQ v 6 2 = (v.drop 6).take 2 := rfl
      unfold entryBat eightDigits
      rw [if_pos rfl, m4, m2, m6]
      dsimp only
      by_cases h : RealDay (toIntQ (v.take 4), (toIntQ ((v.drop 4).take 2)).toNat, (toIntQ ((v.drop 6).take 2)).toNat)
      · rw [if_pos ((validDate_int _ _ _).2 h), if_pos h]
        split
        · rename_i he
          simp only [Option.map_map, Function.comp_def, Bool.not_false, Bool.and_true, decide_eq_true_eq, Option.map_id'] at he
          rw [← he]
          rfl
        · rfl
      · rw [if_neg (fun e => h ((validDate_int _ _ _).1 e)), if_neg h]
        rfl
    have all : ∀ (l : List QString) (x : Option (Int × Nat × Nat)), l.foldl (fun x v => entryBat .batBirthday v x)
        (x.map fun d => ({ date := d, time := (0, 0, 0, 0), zone := none } : DT), false) =
        (((l.filterMap eightDigits).getLast?.or x).map fun d => ({ date := d, time := (0, 0, 0, 0), zone := none } : DT), false) := by
      intro l
      induction l with
      | nil => intro x; rfl
      | cons v l ih =>
        intro x
        rw [List.foldl_cons, step, ih, List.filterMap_cons]
        cases hv : eightDigits v with
        | none => rfl
        | some d =>
          rw [List.getLast?_cons]
          cases (l.filterMap eightDigits).getLast? <;> rfl
    refine ⟨_, rfl, ?_⟩
    have := all (r.values [q! "xbatbirthday"]) none
    rw [Option.or_none] at this
    exact this
  · intro id k v c e
    show ((entryBat k v (c.birthday, c.birthdayWithTime)).1, (entryBat k v (c.birthday, c.birthdayWithTime)).2) = _
    by_cases hk : k = .batBirthday
    · subst hk; rfl
    · simp [entryBat, hk]

private theorem part_number (π : LdifState → Int) (k : LdifField) (name : QString) (o : Int) (hk : nameCheck [name] (fun k' => decide (k' = k)) = true)
    (h : ∀ k' v s, π (ldifApply E ids s k' v) = if k' = k then (toInt32 v).getD o else π s) (h0 : π (ldifFresh E ids now 0 (-1) (-1) (-1)) = -1) :
    π (entryState E ids now r) = r.number name o := by
  rw [entry_values E ids now r π (fun k' => decide (k' = k)) (fun _ v => (toInt32 v).getD o) hk (by intro k' v s _; rw [h]; simp), h0]
  unfold LdifRecord.number
  generalize r.values [name] = l
  have : ∀ (l : List QString) (x : Int), l.foldl (fun _ v => (toInt32 v).getD o) x = match l.getLast? with | some v => (toInt32 v).getD o | none => x := by
    intro l
    induction l with
    | nil => intro x; rfl
    | cons v l ih =>
      intro x
      rw [List.foldl_cons, ih, List.getLast?_cons]
      cases l.getLast? <;> rfl
  rw [this]
  cases l.getLast? <;> rfl

private theorem part_birth : (entryState E ids now r).birthyear = r.number (q! "birthyear") (-1) ∧
    (entryState E ids now r).birthmonth = r.number (q! "birthmonth") 0 ∧ (entryState E ids now r).birthday = r.number (q! "birthday") 0 := by
  refine ⟨part_number E ids now r (fun s => s.birthyear) .birthYear _ _ (by decide +kernel) ?_ rfl,
    part_number E ids now r (fun s => s.birthmonth) .birthMonth _ _ (by decide +kernel) ?_ rfl,
    part_number E ids now r (fun s => s.birthday) .birthDay _ _ (by decide +kernel) ?_ rfl⟩
  all_goals
    intro k v s
    cases k <;> rfl

/-! #### addresses -/

private theorem part_last (π : LdifState → QString) (k : LdifField) {names : List QString} (hk : nameCheck names (fun k' => decide (k' = k)) = true)
    (h : ∀ k' v s, π (ldifApply E ids s k' v) = if k' = k then v else π s) (h0 : π (ldifFresh E ids now 0 (-1) (-1) (-1)) = []) :
    π (entryState E ids now r) = r.last names := by
  rw [entry_values E ids now r π (fun k' => decide (k' = k)) (fun _ v => v) hk (by intro k' v s _; rw [h]; simp), fold_last, h0]
  rfl

private theorem part_country (π : LdifState → QString) (k : LdifField) {names : List QString} (hk : nameCheck names (fun k' => decide (k' = k)) = true)
    (h : ∀ k' v s, π (ldifApply E ids s k' v) = if k' = k then E.readCountry v else π s) (h0 : π (ldifFresh E ids now 0 (-1) (-1) (-1)) = []) :
    π (entryState E ids now r) = r.country E names := by
  rw [entry_values E ids now r π (fun k' => decide (k' = k)) (fun _ v => E.readCountry v) hk (by intro k' v s _; rw [h]; simp), h0]
  unfold LdifRecord.country LdifRecord.last
  generalize r.values names = l
  have : ∀ (l : List QString) (x : QString), l ≠ [] → l.foldl (fun _ v => E.readCountry v) x = E.readCountry (l.getLast?.getD []) := by
    intro l
    induction l with
    | nil => intro x h; exact absurd rfl h
    | cons v l ih =>
      intro x _
      rw [List.foldl_cons, List.getLast?_cons]
      cases l with
      | nil => rfl
      | cons u l => rw [ih _ (by simp), List.getLast?_cons]; rfl
  dsimp only
  by_cases hl : l = []
  · subst hl; rfl
  · rw [if_neg hl, this l _ hl]
    rfl

/-- The two attributes of a street, by meaning. -/
private def streetKind (k1 k2 : LdifField) (k : LdifField) : Option Bool := if k = k1 then some true else if k = k2 then some false else none

private theorem part_street (π : LdifState → QString) (k1 k2 : LdifField) {main further : List QString}
    (hk : kindCheck (main.map (fun n => (n, true)) ++ further.map fun n => (n, false)) (streetKind k1 k2) = true)
    (h : ∀ k v s, π (ldifApply E ids s k v) = if k = k1 then v else if k = k2 then π s ++ q! "\n" ++ v else π s)
    (h0 : π (ldifFresh E ids now 0 (-1) (-1) (-1)) = []) : π (entryState E ids now r) = r.street main further := by
  rw [entry_kinds E ids now r π (streetKind k1 k2) (fun s p => if p.1 then p.2 else s ++ q! "\n" ++ p.2) hk, h0]
  · rfl
  · intro k v s _
    rw [h]
    unfold streetKind
    by_cases e1 : k = k1
    · simp [e1]
    · by_cases e2 : k = k2
      · rw [if_neg e1, if_pos e2, if_neg e1, if_pos e2]; rfl
      · simp [e1, e2]

private theorem part_any (π : LdifState → Bool) (κ : LdifField → Bool) {names : List QString} (hk : nameCheck names κ = true)
    (h : ∀ k v s, π (ldifApply E ids s k v) = if κ k then false else π s) (h0 : π (ldifFresh E ids now 0 (-1) (-1) (-1)) = true) :
    π (entryState E ids now r) = decide (r.values names = []) := by
  rw [entry_values E ids now r π κ (fun _ _ => false) hk (fun k v s _ => h k v s), h0]
  generalize r.values names = l
  cases l with
  | nil => rfl
  | cons v l =>
    rw [List.foldl_cons]
    induction l with
    | nil => rfl
    | cons u l ih => exact ih

private theorem part_const {α : Type} (π : LdifState → α) (h : ∀ k v s, π (ldifApply E ids s k v) = π s) :
    π (entryState E ids now r) = π (ldifFresh E ids now 0 (-1) (-1) (-1)) := by
  have := (entry_part E ids now r π (fun _ _ x => x) (fun _ => True) (fun k v s _ _ => ⟨trivial, h k v s⟩) trivial).2
  rw [this]
  generalize π (ldifFresh E ids now 0 (-1) (-1) (-1)) = x
  induction recordFields r with
  | nil => rfl
  | cons p l ih => exact ih

private theorem part_home : (entryState E ids now r).home = { r.home E (ids 1) with empty := decide (r.values homeNames = []) } := by
  have h1 := part_street E ids now r (fun s => s.home.street) .homeStreet .homeStreet2 (main := homeStreetNames) (further := homeStreet2Names) (by decide +kernel)
    (by intro k v s; cases k <;> rfl) rfl
  have h2 := part_last E ids now r (fun s => s.home.locality) .homeLocality (names := [q! "mozillahomelocalityname"]) (by decide +kernel)
    (by intro k v s; cases k <;> rfl) rfl
  have h3 := part_last E ids now r (fun s => s.home.region) .homeRegion (names := [q! "mozillahomestate"]) (by decide +kernel)
    (by intro k v s; cases k <;> rfl) rfl
  have h4 := part_last E ids now r (fun s => s.home.postalCode) .homePostalCode (names := [q! "mozillahomepostalcode"]) (by decide +kernel)
    (by intro k v s; cases k <;> rfl) rfl
  have h5 := part_country E ids now r (fun s => s.home.country) .homeCountry (names := [q! "mozillahomecountryname"]) (by decide +kernel)
    (by intro k v s; cases k <;> rfl) rfl
  have h6 := part_any E ids now r (fun s => s.home.empty) (fun k => decide (k ∈ homeFields)) (names := homeNames) (by decide +kernel)
    (by intro k v s; cases k <;> rfl) rfl
  have h7 := part_const E ids now r (fun s => (s.home.id, s.home.type, s.home.geo, s.home.postOfficeBox, s.home.extended, s.home.label))
    (by intro k v s; cases k <;> rfl)
  generalize (entryState E ids now r).home = a at *
  obtain ⟨e, i, t, g, pob, ext, st, lo, re, po, co, la⟩ := a
  dsimp only at h1 h2 h3 h4 h5 h6 h7
  simp only [Prod.mk.injEq] at h7
  obtain ⟨rfl, rfl, rfl, rfl, rfl, rfl⟩ := h7
  subst h1 h2 h3 h4 h5 h6
  rfl

private theorem part_work : (entryState E ids now r).work = { r.work E (ids 2) with empty := decide (r.values workNames = []) } := by
  have h1 := part_street E ids now r (fun s => s.work.street) .workStreet .workStreet2 (main := workStreetNames) (further := workStreet2Names) (by decide +kernel)
    (by intro k v s; cases k <;> rfl) rfl
  have h2 := part_last E ids now r (fun s => s.work.locality) .workLocality (names := [q! "locality", q! "l"]) (by decide +kernel)
    (by intro k v s; cases k <;> rfl) rfl
  have h3 := part_last E ids now r (fun s => s.work.region) .workRegion (names := [q! "st"]) (by decide +kernel)
    (by intro k v s; cases k <;> rfl) rfl
  have h4 := part_last E ids now r (fun s => s.work.postalCode) .workPostalCode (names := [q! "postalcode"]) (by decide +kernel)
    (by intro k v s; cases k <;> rfl) rfl
  have h5 := part_country E ids now r (fun s => s.work.country) .workCountry (names := [q! "countryname", q! "c"]) (by decide +kernel)
    (by intro k v s; cases k <;> rfl) rfl
  have h6 := part_any E ids now r (fun s => s.work.empty) (fun k => decide (k ∈ workFields)) (names := workNames) (by decide +kernel)
    (by intro k v s; cases k <;> rfl) rfl
  have h7 := part_const E ids now r (fun s => (s.work.id, s.work.type, s.work.geo, s.work.extended, s.work.label))
    (by intro k v s; cases k <;> rfl)
  have h8 := part_last E ids now r (fun s => s.work.postOfficeBox) .workPostOfficeBox (names := [q! "postofficebox"]) (by decide +kernel)
    (by intro k v s; cases k <;> rfl) rfl
  generalize (entryState E ids now r).work = a at *
  obtain ⟨e, i, t, g, pob, ext, st, lo, re, po, co, la⟩ := a
  dsimp only at h1 h2 h3 h4 h5 h6 h7 h8
  simp only [Prod.mk.injEq] at h7
  obtain ⟨rfl, rfl, rfl, rfl, rfl⟩ := h7
  subst h1 h2 h3 h4 h5 h6 h8
  rfl

private theorem part_group : (entryState E ids now r).group =
    { id := ids 3, name := r.last [q! "display-name"], data := (r.values [q! "member"]).map memberOf } := by
  have h1 := part_last E ids now r (fun s => s.group.name) .groupName (names := [q! "display-name"]) (by decide +kernel)
    (by intro k v s; cases k <;> rfl) rfl
  have h2 := entry_values E ids now r (fun s => s.group.data) (fun k => decide (k = .member)) (fun x v => x ++ [memberData v]) (names := [q! "member"])
    (by decide +kernel) (by intro k v s _; cases k <;> rfl)
  have h3 := part_const E ids now r (fun s => (s.group.id, s.group.refs, s.group.groupRefs)) (by intro k v s; cases k <;> rfl)
  have h4 : ∀ (l : List QString) (x : List GroupData), l.foldl (fun x v => x ++ [memberData v]) x = x ++ l.map memberOf := by
    intro l
    induction l with
    | nil => intro x; simp
    | cons v l ih => intro x; rw [List.foldl_cons, ih, memberData_eq]; simp
  rw [h4] at h2
  generalize (entryState E ids now r).group = a at *
  obtain ⟨i, n, rf, gr, d⟩ := a
  dsimp only at h1 h2 h3
  simp only [Prod.mk.injEq] at h3
  obtain ⟨rfl, rfl, rfl⟩ := h3
  subst h1 h2
  rfl

/-- The contact without the fields that are filled. -/
private def others (c : Contact) : Contact :=
  { c with uid := [], givenName := [], familyName := [], formattedName := [], prefix_ := [], nickNames := [], titles := [], roles := [], organizations := [],
           department := [], emails := [], note := [], extraUrls := [], phoneNumbers := [], addresses := [], revision := none, birthday := none,
           birthdayWithTime := false, empty := true }

private theorem part_others : others (entryState E ids now r).a = { uid := [] } := by
  have h := (entry_part E ids now r (fun s => others s.a) (fun _ _ x => x) (fun _ => True) (fun k v s hk _ => ⟨trivial, by
    obtain ⟨e, he⟩ := entry_contact E ids k v s hk
    simp only [he]
    rfl⟩) trivial).2
  have h0 : others (ldifFresh E ids now 0 (-1) (-1) (-1)).a = { uid := [] } := fresh_const E ids now others _ (fun _ _ => rfl)
  have : ∀ (l : List (LdifField × QString)) (x : Contact), l.foldl (fun x _ => x) x = x := by
    intro l
    induction l with
    | nil => intro x; rfl
    | cons p l ih => intro x; exact ih x
  rw [h, this, h0]

private theorem part_addresses : (entryState E ids now r).a.addresses = [] ∧ (entryState E ids now r).a.name = [] := by
  have h := (entry_part E ids now r (fun s => (s.a.addresses, s.a.name)) (fun _ _ x => x) (fun _ => True) (fun k v s hk _ => ⟨trivial, by
    obtain ⟨e, he⟩ := entry_contact E ids k v s hk
    simp only [he]
    rfl⟩) trivial).2
  have : ∀ (l : List (LdifField × QString)) (x : List Address × QString), l.foldl (fun x _ => x) x = x := by
    intro l
    induction l with
    | nil => intro x; rfl
    | cons p l ih => intro x; exact ih x
  rw [this, fresh_const E ids now (fun c => (c.addresses, c.name)) ([], []) (fun _ _ => rfl)] at h
  simpa using h

/-- A contact with a name is not empty. -/
private theorem part_notEmpty : (entryState E ids now r).a.empty = true → (entryState E ids now r).a.formattedName = [] ∧ (entryState E ids now r).a.familyName = [] := by
  refine (entry_part E ids now r (fun _ => ()) (fun _ _ _ => ()) (fun s => s.a.empty = true → s.a.formattedName = [] ∧ s.a.familyName = []) ?_ ?_).1
  · intro k v s hk hI
    refine ⟨?_, rfl⟩
    by_cases h1 : k = .formattedName
    · subst h1
      simp only [ldifApply, Contact.setFormattedName]
      split
      · exact hI
      · intro h; exact absurd h Bool.false_ne_true
    by_cases h2 : k = .familyName
    · subst h2
      simp only [ldifApply, Contact.setFamilyName]
      split
      · exact hI
      · intro h; exact absurd h Bool.false_ne_true
    have hm : (ldifApply E ids s k v).a.empty = true → s.a.empty = true := by
      cases k <;> simp only [ldifApply, Contact.setGivenName, Contact.setUid, Contact.setPrefix, Contact.setDepartment, Contact.setText, Contact.insertText,
        Contact.setTexts, Contact.setNote, Contact.addEmail, Contact.insertExtraUrl, Contact.insertPhoneNumber, Contact.setRevision,
        Contact.setBirthdayDate] <;> intro h <;> (repeat' split at h) <;> first | exact h | exact absurd h Bool.false_ne_true | exact absurd rfl h1 | exact absurd rfl h2 | skip
    obtain ⟨e, he⟩ := entry_contact E ids k v s hk
    intro h
    have := hI (hm h)
    rw [he]
    simp only [entryAll, store, if_neg h1, if_neg h2]
    exact this
  · intro _
    exact ⟨fresh_const E ids now (fun c => c.formattedName) [] (fun _ _ => rfl), fresh_const E ids now (fun c => c.familyName) [] (fun _ _ => rfl)⟩

private theorem with_birthday (c : Contact) (x : Option (Int × Nat × Nat))
    (h : (c.birthday, c.birthdayWithTime) = (x.map fun d => ({ date := d, time := (0, 0, 0, 0), zone := none } : DT), false)) (d : Int × Nat × Nat) :
    ∃ e, c.setBirthdayDate (some d) = { c with birthday := some { date := d, time := (0, 0, 0, 0), zone := none }, birthdayWithTime := false, empty := e } ∧
      (e = true → c.empty = true) := by
  simp only [Prod.mk.injEq] at h
  unfold Contact.setBirthdayDate
  by_cases hd : some d = c.birthday.map (·.date)
  · refine ⟨c.empty, ?_, id⟩
    rw [if_pos (by simp [hd, h.2])]
    have hb : c.birthday = some { date := d, time := (0, 0, 0, 0), zone := none } := by
      rw [h.1] at hd ⊢
      cases x with
      | none => simp at hd
      | some y => simp only [Option.map_some, Option.some.injEq] at hd; subst hd; rfl
    rw [← hb, ← h.2]
  · refine ⟨false, ?_, fun h => absurd h Bool.false_ne_true⟩
    rw [if_neg (by simp [hd])]
    rfl

private theorem same_contact (c : Contact) {b : QDateTime} {w e : Bool} (h1 : c.birthday = b) (h2 : c.birthdayWithTime = w) (h3 : c.empty = e) :
    c = { c with birthday := b, birthdayWithTime := w, empty := e } := by
  subst h1 h2 h3
  rfl

private theorem entry_result (h2 : ids 1 ≠ ids 2) (hm : r.values [q! "member"] = []) (hn : r.last [q! "cn"] ≠ [] ∨ r.last [q! "sn"] ≠ [])
    (hf : (entryState E ids now r).a.formattedName = r.last [q! "cn"]) (hs : (entryState E ids now r).a.familyName = r.last [q! "sn"]) :
    ldifResult (entryState E ids now r) = ([{ (entryState E ids now r).a with
      birthday := r.birthDate.map fun d => { date := d, time := (0, 0, 0, 0), zone := none }
      birthdayWithTime := false
      addresses := (if r.values homeNames = [] then [] else [r.home E (ids 1)]) ++ (if r.values workNames = [] then [] else [r.work E (ids 2)])
      empty := false }], []) := by
  have hg := part_group E ids now r
  have hh := part_home E ids now r
  have hw := part_work E ids now r
  obtain ⟨hb1, hb2, hb3⟩ := part_birth E ids now r
  obtain ⟨x, hx, hbd⟩ := part_birthday E ids now r
  obtain ⟨ha, hname⟩ := part_addresses E ids now r
  have he := part_notEmpty E ids now r
  generalize entryState E ids now r = s at *
  have hempty : s.a.empty = false := by
    cases h : s.a.empty with
    | false => rfl
    | true =>
      have := he h
      rw [hf, hs] at this
      rcases hn with hn | hn
      · exact absurd this.1 hn
      · exact absurd this.2 hn
  unfold ldifResult
  have hc : s.group.count = 0 := by rw [hg, hm]; rfl
  rw [if_pos hc, hb1, hb2, hb3]
  have key : (if validDate (r.number (q! "birthyear") (-1)) (r.number (q! "birthmonth") 0) (r.number (q! "birthday") 0) then
      s.a.setBirthdayDate (some (r.number (q! "birthyear") (-1), (r.number (q! "birthmonth") 0).toNat, (r.number (q! "birthday") 0).toNat)) else s.a) =
      { s.a with birthday := r.birthDate.map fun d => { date := d, time := (0, 0, 0, 0), zone := none }, birthdayWithTime := false, empty := false } := by
    unfold LdifRecord.birthDate
    dsimp only
    by_cases hv : RealDay (r.number (q! "birthyear") (-1), (r.number (q! "birthmonth") 0).toNat, (r.number (q! "birthday") 0).toNat)
    · rw [if_pos ((validDate_int _ _ _).2 hv), if_pos hv]
      obtain ⟨e, h3, h4⟩ := with_birthday s.a x hbd (r.number (q! "birthyear") (-1), (r.number (q! "birthmonth") 0).toNat, (r.number (q! "birthday") 0).toNat)
      have : e = false := by
        cases e with
        | false => rfl
        | true => rw [h4 rfl] at hempty; exact hempty
      rw [h3, this]
      rfl
    · rw [if_neg (fun e => hv ((validDate_int _ _ _).1 e)), if_neg hv, ← hx]
      simp only [Prod.mk.injEq] at hbd
      exact same_contact s.a hbd.1 hbd.2 hempty
  rw [key]
  dsimp only
  have hnamed : (!s.a.formattedName.isEmpty || !s.a.name.isEmpty || !s.a.familyName.isEmpty) = true := by
    rw [hf, hs]
    rcases hn with hn | hn
    · cases h : r.last [q! "cn"] with
      | nil => exact absurd h hn
      | cons => rfl
    · cases h : r.last [q! "sn"] with
      | nil => exact absurd h hn
      | cons => simp
  rw [if_pos hnamed, hh, hw]
  have hi1 : (r.home E (ids 1)).id = ids 1 := rfl
  have hi2 : (r.work E (ids 2)).id = ids 2 := rfl
  by_cases c1 : r.values homeNames = []
  · by_cases c2 : r.values workNames = []
    · simp [c1, c2, ha]
    · simp [c1, c2, ha, Contact.insertAddress, findFirst]
      rfl
  · by_cases c2 : r.values workNames = []
    · simp [c1, c2, ha, Contact.insertAddress, findFirst]
      rfl
    · simp [c1, c2, ha, Contact.insertAddress, findFirst, hi1, hi2, h2]
      exact ⟨rfl, rfl⟩

end parts

/-- C76: an entry with a name and without members gives one contact, and the contact is what the attributes say: every supported attribute is found in the
    field its name stands for, no other field is filled. -/
theorem C76 (E : LdifEnv) (ids : Nat → QString) (hids : ∀ i j, ids i = ids j → i = j) (hu : ∀ u, E.urlValid u = true → u ≠ []) (now : QDateTime) (linelen : Nat)
    (r : LdifRecord) (hr : r.Proper) (hm : ¬ r.Has (q! "member")) (hn : r.last [q! "cn"] ≠ [] ∨ r.last [q! "sn"] ≠ []) :
    ∃ c, ldifToAddressee E ids now (documentString (r.text linelen)) = some ([c], []) ∧ LdifImported E ids now r c := by
  have hm' : r.values [q! "member"] = [] := by
    unfold LdifRecord.values
    rw [List.map_eq_nil_iff, List.filter_eq_nil_iff]
    intro a ha h
    exact hm ⟨a, ha, by simpa using h⟩
  have hcn := part_store E ids now r (fun c => c.formattedName) .formattedName (names := [q! "cn"]) (by decide +kernel) (fun _ _ _ _ _ => rfl)
    (fresh_const E ids now (fun c => c.formattedName) [] (fun _ _ => rfl))
  have hsn := part_store E ids now r (fun c => c.familyName) .familyName (names := [q! "sn"]) (by decide +kernel) (fun _ _ _ _ _ => rfl)
    (fresh_const E ids now (fun c => c.familyName) [] (fun _ _ => rfl))
  refine ⟨_, by rw [import_entry E ids now linelen r hr, entry_result E ids now r (fun e => by simpa using hids _ _ e) hm' hn hcn hsn], ?_⟩
  exact {
    uid := part_uid E ids now r
    givenName := part_store E ids now r (fun c => c.givenName) .givenName (by decide +kernel) (fun _ _ _ _ _ => rfl)
      (fresh_const E ids now (fun c => c.givenName) [] (fun _ _ => rfl))
    familyName := hsn
    formattedName := hcn
    prefix_ := part_store E ids now r (fun c => c.prefix_) .prefix_ (by decide +kernel) (fun _ _ _ _ _ => rfl)
      (fresh_const E ids now (fun c => c.prefix_) [] (fun _ _ => rfl))
    nickNames := part_texts E ids now r (fun c => c.nickNames) .nickName (by decide +kernel) (fun _ _ _ _ _ => rfl)
      (fresh_const E ids now (fun c => c.nickNames) [] (fun _ _ => rfl))
    titles := part_texts E ids now r (fun c => c.titles) .title (by decide +kernel) (fun _ _ _ _ _ => rfl)
      (fresh_const E ids now (fun c => c.titles) [] (fun _ _ => rfl))
    roles := part_texts E ids now r (fun c => c.roles) .role (by decide +kernel) (fun _ _ _ _ _ => rfl)
      (fresh_const E ids now (fun c => c.roles) [] (fun _ _ => rfl))
    organizations := part_texts E ids now r (fun c => c.organizations) .organization (by decide +kernel) (fun _ _ _ _ _ => rfl)
      (fresh_const E ids now (fun c => c.organizations) [] (fun _ _ => rfl))
    department := part_store E ids now r (fun c => c.department) .department (by decide +kernel) (fun _ _ _ _ _ => rfl)
      (fresh_const E ids now (fun c => c.department) [] (fun _ _ => rfl))
    emails := part_emails E ids now r
    note := part_note E ids now r
    urls := part_urls E ids now r hu
    phones := part_phones E ids now r hids
    phoneParams := (part_phoneIds E ids now r hids).1
    phoneIds := (part_phoneIds E ids now r hids).2
    addresses := rfl
    revision := part_revision E ids now r
    revisionFrom := part_revisionFrom E ids now r
    birthday := rfl
    notEmpty := rfl
    rest := part_others E ids now r }

/-- C76: an entry without members, common name and surname gives nothing. -/
theorem C76_unnamed (E : LdifEnv) (ids : Nat → QString) (now : QDateTime) (linelen : Nat) (r : LdifRecord) (hr : r.Proper) (hm : ¬ r.Has (q! "member"))
    (h1 : r.last [q! "cn"] = []) (h2 : r.last [q! "sn"] = []) : ldifToAddressee E ids now (documentString (r.text linelen)) = some ([], []) := by
  have hm' : r.values [q! "member"] = [] := by
    unfold LdifRecord.values
    rw [List.map_eq_nil_iff, List.filter_eq_nil_iff]
    intro a ha h
    exact hm ⟨a, ha, by simpa using h⟩
  have hcn := part_store E ids now r (fun c => c.formattedName) .formattedName (names := [q! "cn"]) (by decide +kernel) (fun _ _ _ _ _ => rfl)
    (fresh_const E ids now (fun c => c.formattedName) [] (fun _ _ => rfl))
  have hsn := part_store E ids now r (fun c => c.familyName) .familyName (names := [q! "sn"]) (by decide +kernel) (fun _ _ _ _ _ => rfl)
    (fresh_const E ids now (fun c => c.familyName) [] (fun _ _ => rfl))
  have hg := part_group E ids now r
  have hname := (part_addresses E ids now r).2
  rw [import_entry E ids now linelen r hr]
  generalize entryState E ids now r = s at *
  congr 1
  unfold ldifResult
  rw [if_pos (show s.group.count = 0 by rw [hg, hm']; rfl)]
  have : ∀ (b : Bool) d, (if b then s.a.setBirthdayDate d else s.a).formattedName = [] ∧ (if b then s.a.setBirthdayDate d else s.a).name = [] ∧
      (if b then s.a.setBirthdayDate d else s.a).familyName = [] := by
    intro b d
    cases b
    · exact ⟨hcn.trans h1, hname, hsn.trans h2⟩
    · simp only [if_true, Contact.setBirthdayDate]
      split <;> exact ⟨hcn.trans h1, hname, hsn.trans h2⟩
  dsimp only
  rw [if_neg (by rw [(this _ _).1, (this _ _).2.1, (this _ _).2.2]; simp)]

/-- C76: an entry with members gives one group with these members, in order, and no contact. -/
theorem C76_group (E : LdifEnv) (ids : Nat → QString) (now : QDateTime) (linelen : Nat) (r : LdifRecord) (hr : r.Proper) (hm : r.Has (q! "member")) :
    ldifToAddressee E ids now (documentString (r.text linelen)) =
      some ([], [{ id := ids 3, name := r.last [q! "display-name"], data := (r.values [q! "member"]).map memberOf }]) := by
  have hg := part_group E ids now r
  rw [import_entry E ids now linelen r hr]
  congr 1
  unfold ldifResult
  rw [hg, if_neg]
  obtain ⟨a, ha, e⟩ := hm
  have : fromUtf8 a.2 ∈ r.values [q! "member"] := by
    unfold LdifRecord.values
    exact List.mem_map.2 ⟨a, List.mem_filter.2 ⟨ha, by simpa using e⟩, rfl⟩
  have hl := List.length_pos_of_mem this
  unfold Group.count
  simp only [List.length_map, List.length_nil]
  omega

/-! ### examples -/

private def sampleEntry : LdifRecord :=
  ⟨b! "cn=Ann Lee", [(q! "objectclass", b! "person"), (q! "CN", b! "Ann Lee"), (q! "sn", b! "Lee"), (q! "mail", b! "a@b"), (q! "mozillasecondemail", b! "c@d"),
    (q! "othermailbox", b! "a@b"), (q! "pager", b! " 1  2 "), (q! "xmozillaanyphone", b! "3"), (q! "mobile", []), (q! "custom3", b! "x"), (q! "description", b! "y"),
    (q! "street", b! "Road 1"), (q! "mozillaworkstreet2", b! "Back"), (q! "c", b! "DE"), (q! "mozillahomestate", b! "BY"), (q! "xbatbirthday", b! "20240229"),
    (q! "birthyear", b! "x"), (q! "modifytimestamp", b! "20240309T123005Z"), (q! "modifytimestamp", b! "0Z")]⟩

private theorem sampleEntry_proper : sampleEntry.Proper where
  names := by
    intro a ha
    have : ∀ a ∈ sampleEntry.attrs, plainName a.1 = true ∨ a.1 = q! "CN" := by decide +kernel
    rcases this a ha with h | h
    · exact plainName_ldif h
    · rw [h]
      refine ⟨by decide, ⟨"CN".toList, by decide⟩, by decide, by decide, by decide, by decide, by decide, ?_, ?_⟩ <;>
      · intro c hc; simp at hc; subst hc; unfold AsciiSpace; decide
  first := ⟨_, _, rfl, by decide, by decide⟩

example : (¬ sampleEntry.Has (q! "member")) ∧ (sampleEntry.last [q! "cn"] ≠ [] ∨ sampleEntry.last [q! "sn"] ≠ []) := by
  refine ⟨?_, by decide +kernel⟩
  have : ∀ a ∈ sampleEntry.attrs, toLowerQ a.1 ≠ q! "member" := by decide +kernel
  rintro ⟨a, ha, e⟩
  exact this a ha e

example : sampleEntry.birthDate = some (2024, 2, 29) ∧ sampleEntry.street workStreetNames workStreet2Names = q! "Road 1\nBack" ∧
    sampleEntry.country sampleLdifEnv [q! "countryname", q! "c"] = q! "Germany" ∧ sampleEntry.kinded ldifPhoneKinds = [(8192, q! " 1  2 "), (2, q! "3"), (64, [])] ∧
    sampleEntry.values noteNames = [q! "x", q! "y"] := by decide +kernel

example : memberOf (q! "cn=Ann,o=x,mail= a@b ") = { name := q! "Ann", email := q! " <a@b>" } := by decide +kernel

/-- An entry with a given name and an e-mail address only gives no contact. -/
theorem C76_given_false (E : LdifEnv) (ids : Nat → QString) (now : QDateTime) (linelen : Nat) :
    ldifToAddressee E ids now (documentString (LdifRecord.text linelen ⟨b! "x", [(q! "givenname", b! "Ann"), (q! "mail", b! "a@b")]⟩)) = some ([], []) := by
  refine C76_unnamed E ids now linelen _ ?_ ?_ (by decide) (by decide)
  · refine ⟨?_, ⟨_, _, rfl, by decide, by decide⟩⟩
    intro a ha
    simp only [List.mem_cons, List.not_mem_nil, or_false] at ha
    rcases ha with rfl | rfl
    all_goals exact plainName_ldif (by decide)
  · rintro ⟨a, ha, e⟩
    simp only [List.mem_cons, List.not_mem_nil, or_false] at ha
    rcases ha with rfl | rfl <;> exact absurd e (by decide)

end KC
