import Verif.Lemmas.LdifImport
import Verif.Props.C42
/-
  C43 — LDIF import keeps entries apart.
-/
namespace KC
open KC.Spec

/-- The import always comes to an end. -/
theorem C43_total (E : LdifEnv) (ids : Nat → QString) (now : QDateTime) (str : QString) : ∃ r, ldifToAddressee E ids now str = some r := by
  obtain ⟨es, he⟩ := C42_readable (toLatin1 str)
  exact ⟨_, ldifToAddressee_items E ids now str es he⟩

theorem toLatin1_document (t : QByteArray) : toLatin1 (documentString t) = t := by
  unfold toLatin1 documentString fromLatin1
  rw [List.map_map]
  conv => rhs; rw [← List.map_id t]
  apply List.map_congr_left
  intro b _
  have := b.toNat_lt
  have e : (UInt16.ofNat b.toNat).toNat = b.toNat := by simp
  simp only [Function.comp, e, id]
  rw [if_pos (by omega)]
  simp

/-- The attributes of a record, evaluated. -/
def evalAttrs (E : LdifEnv) (ids : Nat → QString) (s : LdifState) (as : List (QString × QByteArray)) : LdifState :=
  as.foldl (fun s a => evaluatePair E ids s (toLowerQ a.1) (fromUtf8 a.2)) s

/-- The record's own state: with its own count of UUIDs and no birth values from elsewhere. -/
def own (E : LdifEnv) (ids : Nat → QString) (now : QDateTime) (k : Nat) (r : LdifRecord) : LdifState :=
  evalAttrs E (fun i => ids (k + i)) (ldifFresh E (fun i => ids (k + i)) now 0 (-1) (-1) (-1)) r.attrs

def birthOf (b : Int × Int × Int) (as : List (QString × QByteArray)) : Int × Int × Int :=
  as.foldl (fun b a => birthStep b (toLowerQ a.1) (fromUtf8 a.2)) b

theorem evalAttrs_moved (E : LdifEnv) (ids : Nat → QString) (n : Nat) (as : List (QString × QByteArray)) : ∀ (b : Int × Int × Int) (s : LdifState),
    evalAttrs E ids (s.moved n b) as = (evalAttrs E (fun i => ids (n + i)) s as).moved n (birthOf b as) := by
  induction as with
  | nil => intro b s; rfl
  | cons a as ih =>
    intro b s
    simp only [evalAttrs, birthOf, List.foldl_cons, evaluatePair_moved]
    exact ih _ _

theorem step_record (E : LdifEnv) (ids : Nat → QString) (now : QDateTime) (r : LdifRecord) (n : Nat) (b : Int × Int × Int)
    (out : List Contact × List Group) :
    r.items.foldl (ldifStep E ids now) (ldifFresh E ids now n b.2.2 b.2.1 b.1, out) =
      (ldifFresh E ids now (n + (own E ids now n r).next) (birthOf b r.attrs).2.2 (birthOf b r.attrs).2.1 (birthOf b r.attrs).1,
       (out.1 ++ (ldifResult ((own E ids now n r).moved n (birthOf b r.attrs))).1, out.2 ++ (ldifResult ((own E ids now n r).moved n (birthOf b r.attrs))).2)) := by
  have h1 : ∀ (as : List (QString × QByteArray)) (x : LdifState × (List Contact × List Group)),
      (as.map fun a => (⟨.item, a.1, a.2, false⟩ : LdifItem)).foldl (ldifStep E ids now) x = (evalAttrs E ids x.1 as, x.2) := by
    intro as
    induction as with
    | nil => intro x; rfl
    | cons a as ih => intro x; simp only [List.map_cons, List.foldl_cons, ih]; rfl
  unfold LdifRecord.items
  rw [List.cons_append, List.foldl_cons, List.foldl_append]
  have h0 : ldifStep E ids now (ldifFresh E ids now n b.2.2 b.2.1 b.1, out) ⟨.newEntry, q! "dn", r.dn, false⟩ = (ldifFresh E ids now n b.2.2 b.2.1 b.1, out) := rfl
  rw [h0, h1]
  dsimp only
  rw [ldifFresh_moved, evalAttrs_moved]
  simp only [List.foldl_cons, List.foldl_nil, ldifStep]
  rfl

theorem birthOf_cases (as : List (QString × QByteArray)) : ∀ b b' : Int × Int × Int,
    ((∃ a ∈ as, toLowerQ a.1 = q! "birthyear") ∨ b.1 = b'.1 → (birthOf b as).1 = (birthOf b' as).1) ∧
    ((∃ a ∈ as, toLowerQ a.1 = q! "birthmonth") ∨ b.2.1 = b'.2.1 → (birthOf b as).2.1 = (birthOf b' as).2.1) ∧
    ((∃ a ∈ as, toLowerQ a.1 = q! "birthday") ∨ b.2.2 = b'.2.2 → (birthOf b as).2.2 = (birthOf b' as).2.2) := by
  induction as with
  | nil => intro b b'; simp [birthOf]
  | cons a as ih =>
    intro b b'
    have e : ∀ b, birthOf b (a :: as) = birthOf (birthStep b (toLowerQ a.1) (fromUtf8 a.2)) as := fun _ => rfl
    have hi := ih (birthStep b (toLowerQ a.1) (fromUtf8 a.2)) (birthStep b' (toLowerQ a.1) (fromUtf8 a.2))
    have d1 : (q! "birthmonth") ≠ q! "birthyear" := by decide
    have d2 : (q! "birthday") ≠ q! "birthyear" := by decide
    have d3 : (q! "birthday") ≠ q! "birthmonth" := by decide
    have keep : (b.1 = b'.1 → (birthStep b (toLowerQ a.1) (fromUtf8 a.2)).1 = (birthStep b' (toLowerQ a.1) (fromUtf8 a.2)).1) ∧
        (b.2.1 = b'.2.1 → (birthStep b (toLowerQ a.1) (fromUtf8 a.2)).2.1 = (birthStep b' (toLowerQ a.1) (fromUtf8 a.2)).2.1) ∧
        (b.2.2 = b'.2.2 → (birthStep b (toLowerQ a.1) (fromUtf8 a.2)).2.2 = (birthStep b' (toLowerQ a.1) (fromUtf8 a.2)).2.2) := by
      unfold birthStep
      split
      · exact ⟨fun _ => rfl, id, id⟩
      split
      · exact ⟨id, fun _ => rfl, id⟩
      split
      · exact ⟨id, id, fun _ => rfl⟩
      · exact ⟨id, id, id⟩
    rw [e, e]
    refine ⟨fun h => hi.1 ?_, fun h => hi.2.1 ?_, fun h => hi.2.2 ?_⟩
    · rcases h with ⟨x, hx, hn⟩ | h
      · rcases List.mem_cons.1 hx with rfl | hx
        · right; simp [birthStep, hn]
        · exact .inl ⟨x, hx, hn⟩
      · exact .inr (keep.1 h)
    · rcases h with ⟨x, hx, hn⟩ | h
      · rcases List.mem_cons.1 hx with rfl | hx
        · right; simp [birthStep, hn]
        · exact .inl ⟨x, hx, hn⟩
      · exact .inr (keep.2.1 h)
    · rcases h with ⟨x, hx, hn⟩ | h
      · rcases List.mem_cons.1 hx with rfl | hx
        · right; simp [birthStep, hn]
        · exact .inl ⟨x, hx, hn⟩
      · exact .inr (keep.2.2 h)

theorem birthOf_all {r : LdifRecord} (h : ∀ n ∈ birthNames, r.Has n) (b b' : Int × Int × Int) : birthOf b r.attrs = birthOf b' r.attrs := by
  have hc := birthOf_cases r.attrs b b'
  have h1 := hc.1 (.inl (h _ (by simp [birthNames])))
  have h2 := hc.2.1 (.inl (h _ (by simp [birthNames])))
  have h3 := hc.2.2 (.inl (h _ (by simp [birthNames])))
  exact Prod.ext h1 (Prod.ext h2 h3)

theorem birthOf_none {r : LdifRecord} (h : ∀ n ∈ birthNames, ¬ r.Has n) (b : Int × Int × Int) : birthOf b r.attrs = b := by
  have : ∀ as : List (QString × QByteArray), (∀ a ∈ as, toLowerQ a.1 ∉ birthNames) → birthOf b as = b := by
    intro as
    induction as with
    | nil => intro _; rfl
    | cons a as ih =>
      intro ha
      have h1 := ha a (by simp)
      simp only [birthNames, List.mem_cons, List.not_mem_nil, or_false, not_or] at h1
      have e : birthStep b (toLowerQ a.1) (fromUtf8 a.2) = b := by
        simp only [birthStep, h1.1, h1.2.1, h1.2.2, if_false]
      show birthOf (birthStep b (toLowerQ a.1) (fromUtf8 a.2)) as = b
      rw [e]
      exact ih (fun x hx => ha x (by simp [hx]))
  exact this r.attrs (fun a ha hn => h _ hn ⟨a, ha, rfl⟩)

theorem import_one (E : LdifEnv) (ids : Nat → QString) (now : QDateTime) (k linelen : Nat) (r : LdifRecord) (h : r.Proper) :
    ImportGives E ids now k (r.text linelen) (ldifResult ((own E ids now k r).moved 0 (birthOf (-1, -1, -1) r.attrs))) := by
  obtain ⟨es, he⟩ := C42_readable (r.text linelen)
  have h1 := C42_partial linelen [r] (by simpa using h) es (by simpa using he)
  unfold ImportGives
  rw [ldifToAddressee_items E _ now _ es (by rw [toLatin1_document]; exact he), h1]
  simp only [List.flatMap_cons, List.flatMap_nil, List.append_nil]
  have := step_record E (fun i => ids (k + i)) now r 0 (-1, -1, -1) ([], [])
  dsimp only at this
  rw [this]
  simp [own]

theorem result_moved (s : LdifState) (n : Nat) (b : Int × Int × Int) : ldifResult (s.moved n b) = ldifResult (s.moved 0 b) := rfl

/-- The import of many records: each gives what its own state gives, with the birth values left by those before. -/
theorem import_many (E : LdifEnv) (ids : Nat → QString) (now : QDateTime) (P : LdifRecord → List Contact × List Group → List Contact × List Group → Prop)
    (C : (Int × Int × Int) → List LdifRecord → Prop)
    (hP : ∀ b r rs k, C b (r :: rs) → P r (ldifResult ((own E ids now k r).moved 0 (birthOf (-1, -1, -1) r.attrs))) (ldifResult ((own E ids now k r).moved k (birthOf b r.attrs))))
    (hC : ∀ b r rs, C b (r :: rs) → C (birthOf b r.attrs) rs)
    (linelen : Nat) (rs : List LdifRecord) (hr : ∀ r ∈ rs, r.Proper) :
    ∀ (b : Int × Int × Int) (n : Nat) (out : List Contact × List Group), C b rs → ∃ parts : List (Nat × (List Contact × List Group) × (List Contact × List Group)),
      parts.length = rs.length ∧ (∀ p ∈ rs.zip parts, ImportGives E ids now p.2.1 (p.1.text linelen) p.2.2.1 ∧ P p.1 p.2.2.1 p.2.2.2) ∧
      ((rs.flatMap LdifRecord.items).foldl (ldifStep E ids now) (ldifFresh E ids now n b.2.2 b.2.1 b.1, out)).2 =
        (out.1 ++ parts.flatMap (·.2.2.1), out.2 ++ parts.flatMap (·.2.2.2)) := by
  induction rs with
  | nil => intro b n out _; exact ⟨[], rfl, by simp, by simp⟩
  | cons r rs ih =>
    intro b n out hb
    obtain ⟨parts, h1, h2, h3⟩ := ih (fun x hx => hr x (by simp [hx])) (birthOf b r.attrs) (n + (own E ids now n r).next)
      (out.1 ++ (ldifResult ((own E ids now n r).moved n (birthOf b r.attrs))).1, out.2 ++ (ldifResult ((own E ids now n r).moved n (birthOf b r.attrs))).2)
      (hC b r rs hb)
    refine ⟨(n, ldifResult ((own E ids now n r).moved 0 (birthOf (-1, -1, -1) r.attrs)), ldifResult ((own E ids now n r).moved n (birthOf b r.attrs))) :: parts,
      by simp [h1], ?_, ?_⟩
    · intro p hp
      rcases List.mem_cons.1 hp with rfl | hp
      · exact ⟨import_one E ids now n linelen r (hr r (by simp)), hP b r rs n hb⟩
      · exact h2 p hp
    · rw [List.flatMap_cons, List.foldl_append, step_record, h3]
      simp [List.append_assoc]

theorem import_all (E : LdifEnv) (ids : Nat → QString) (now : QDateTime) (linelen : Nat) (rs : List LdifRecord) (h : ∀ r ∈ rs, r.Proper) :
    ldifToAddressee E ids now (documentString (rs.flatMap (LdifRecord.text linelen))) =
      some ((rs.flatMap LdifRecord.items).foldl (ldifStep E ids now) (ldifFresh E ids now 0 (-1) (-1) (-1), ([], []))).2 := by
  obtain ⟨es, he⟩ := C42_readable (rs.flatMap (LdifRecord.text linelen))
  rw [ldifToAddressee_items E ids now _ es (by rw [toLatin1_document]; exact he), C42_partial linelen rs h es he]

/-- C43: if no entry leaves a part of a birth date to a later entry that does not give all of its own, the import of a list of entries gives the contacts
    (and groups) of the entries imported alone, in order. (The UUIDs of new objects are taken from `ids`, for each entry from the number `k` on.) -/
theorem C43_partial (E : LdifEnv) (ids : Nat → QString) (now : QDateTime) (linelen : Nat) (rs : List LdifRecord) (h : ∀ r ∈ rs, r.Proper)
    (hb : rs.Pairwise BirthApart) :
    ∃ parts : List (Nat × List Contact × List Group), parts.length = rs.length ∧
      (∀ p ∈ rs.zip parts, ImportGives E ids now p.2.1 (p.1.text linelen) p.2.2) ∧
      ImportGives E ids now 0 (rs.flatMap (LdifRecord.text linelen)) (parts.flatMap (·.2.1), parts.flatMap (·.2.2)) := by
  obtain ⟨parts, h1, h2, h3⟩ := import_many E ids now (fun _ x y => x = y)
    (fun b rs => rs.Pairwise BirthApart ∧ (b = (-1, -1, -1) ∨ ∀ r ∈ rs, ∀ n ∈ birthNames, r.Has n))
    (by
      rintro b r rs k ⟨_, hb⟩
      rw [result_moved _ k]
      rcases hb with rfl | hb
      · rfl
      · rw [birthOf_all (hb r (by simp)) b (-1, -1, -1)])
    (by
      rintro b r rs ⟨hp, hb⟩
      rw [List.pairwise_cons] at hp
      refine ⟨hp.2, ?_⟩
      by_cases hn : ∀ n ∈ birthNames, ¬ r.Has n
      · rw [birthOf_none hn]
        rcases hb with rfl | hb
        · exact .inl rfl
        · exact .inr fun x hx => hb x (by simp [hx])
      · exact .inr fun x hx => (hp.1 x hx).resolve_left hn)
    linelen rs h (-1, -1, -1) 0 ([], []) ⟨hb, .inl rfl⟩
  refine ⟨parts.map fun p => (p.1, p.2.1), by simp [h1], ?_, ?_⟩
  · intro p hp
    rw [List.zip_map_right, List.mem_map] at hp
    obtain ⟨q, hq, rfl⟩ := hp
    exact (h2 q hq).1
  · unfold ImportGives
    simp only [Nat.zero_add]
    rw [import_all E ids now linelen rs h, h3]
    have e : ∀ p ∈ parts, p.2.2 = p.2.1 := by
      intro p hp
      obtain ⟨i, hi, rfl⟩ := List.getElem_of_mem hp
      have hm : (rs[i]'(by omega), parts[i]) ∈ rs.zip parts := by
        rw [List.mem_iff_getElem]
        exact ⟨i, by simp; omega, by simp⟩
      exact ((h2 _ hm).2).symm
    simp only [List.nil_append, List.flatMap_map]
    have e1 : parts.map (fun p => p.2.2.1) = parts.map (fun p => p.2.1.1) := List.map_congr_left fun p hp => by rw [e p hp]
    have e2 : parts.map (fun p => p.2.2.2) = parts.map (fun p => p.2.1.2) := List.map_congr_left fun p hp => by rw [e p hp]
    simp only [List.flatMap_def, e1, e2]

theorem noBirthday_birthday (c : Contact) (d : Option (Int × Nat × Nat)) : noBirthday (c.setBirthdayDate d) = noBirthday c := by
  unfold Contact.setBirthdayDate
  split <;> rfl

theorem noBirthday_address {c d : Contact} (h : noBirthday c = noBirthday d) (a : Address) :
    noBirthday (c.insertAddress a) = noBirthday (d.insertAddress a) := by
  have hk : c.addresses = d.addresses := (congrArg Contact.addresses h :)
  unfold Contact.insertAddress
  split
  · exact h
  · rw [hk]
    split
    · exact congrArg (fun x : Contact => { x with addresses := replaceFirst Address.id a.id a d.addresses }) h
    · exact congrArg (fun x : Contact => { x with addresses := d.addresses ++ [a] }) h

theorem noBirthday_result (s : LdifState) (n m : Nat) (b b' : Int × Int × Int) :
    (ldifResult (s.moved n b)).1.map noBirthday = (ldifResult (s.moved m b')).1.map noBirthday ∧ (ldifResult (s.moved n b)).2 = (ldifResult (s.moved m b')).2 := by
  unfold ldifResult
  have e1 : ∀ n b, (s.moved n b).a = s.a := fun _ _ => rfl
  have e2 : ∀ n b, (s.moved n b).group = s.group := fun _ _ => rfl
  have e3 : ∀ n b, (s.moved n b).home = s.home := fun _ _ => rfl
  have e4 : ∀ n b, (s.moved n b).work = s.work := fun _ _ => rfl
  simp only [e1, e2, e3, e4]
  split
  · have key : ∀ b n, noBirthday (if validDate (s.moved n b).birthyear (s.moved n b).birthmonth (s.moved n b).birthday then
        s.a.setBirthdayDate (some ((s.moved n b).birthyear, (s.moved n b).birthmonth.toNat, (s.moved n b).birthday.toNat)) else s.a) = noBirthday s.a := by
      intro b n
      split
      · exact noBirthday_birthday _ _
      · rfl
    have k1 := key b n
    have k2 := key b' m
    generalize (if validDate (s.moved n b).birthyear (s.moved n b).birthmonth (s.moved n b).birthday then
        s.a.setBirthdayDate (some ((s.moved n b).birthyear, (s.moved n b).birthmonth.toNat, (s.moved n b).birthday.toNat)) else s.a) = x at k1 ⊢
    generalize (if validDate (s.moved m b').birthyear (s.moved m b').birthmonth (s.moved m b').birthday then
        s.a.setBirthdayDate (some ((s.moved m b').birthyear, (s.moved m b').birthmonth.toNat, (s.moved m b').birthday.toNat)) else s.a) = y at k2 ⊢
    have hxy : noBirthday x = noBirthday y := k1.trans k2.symm
    have f1 : x.formattedName = y.formattedName := (congrArg Contact.formattedName hxy :)
    have f2 : x.name = y.name := (congrArg Contact.name hxy :)
    have f3 : x.familyName = y.familyName := (congrArg Contact.familyName hxy :)
    rw [f1, f2, f3]
    split
    · refine ⟨?_, rfl⟩
      simp only [List.map_cons, List.map_nil]
      congr 1
      cases s.home.empty <;> cases s.work.empty <;> simp only [Bool.not_true, Bool.not_false, Bool.false_eq_true, if_true, if_false]
      · exact noBirthday_address (noBirthday_address hxy _) _
      · exact noBirthday_address hxy _
      · exact noBirthday_address hxy _
      · exact hxy
    · exact ⟨rfl, rfl⟩
  · exact ⟨rfl, rfl⟩

/-- C43: for every list of entries the import gives the contacts (and groups) of the entries imported alone, in order, but for the birthdays. -/
theorem C43_fields_partial (E : LdifEnv) (ids : Nat → QString) (now : QDateTime) (linelen : Nat) (rs : List LdifRecord) (h : ∀ r ∈ rs, r.Proper) :
    ∃ (parts : List (Nat × List Contact × List Group)) (contacts : List Contact), parts.length = rs.length ∧
      (∀ p ∈ rs.zip parts, ImportGives E ids now p.2.1 (p.1.text linelen) p.2.2) ∧
      ImportGives E ids now 0 (rs.flatMap (LdifRecord.text linelen)) (contacts, parts.flatMap (·.2.2)) ∧
      contacts.map noBirthday = (parts.flatMap (·.2.1)).map noBirthday := by
  obtain ⟨parts, h1, h2, h3⟩ := import_many E ids now (fun _ x y => x.1.map noBirthday = y.1.map noBirthday ∧ x.2 = y.2) (fun _ _ => True)
    (fun b r rs k _ => noBirthday_result _ _ _ _ _) (fun _ _ _ _ => trivial) linelen rs h (-1, -1, -1) 0 ([], []) trivial
  have e : ∀ p ∈ parts, p.2.1.1.map noBirthday = p.2.2.1.map noBirthday ∧ p.2.1.2 = p.2.2.2 := by
    intro p hp
    obtain ⟨i, hi, rfl⟩ := List.getElem_of_mem hp
    have hm : (rs[i]'(by omega), parts[i]) ∈ rs.zip parts := by
      rw [List.mem_iff_getElem]
      exact ⟨i, by simp; omega, by simp⟩
    exact (h2 _ hm).2
  refine ⟨parts.map fun p => (p.1, p.2.1), parts.flatMap (·.2.2.1), by simp [h1], ?_, ?_, ?_⟩
  · intro p hp
    rw [List.zip_map_right, List.mem_map] at hp
    obtain ⟨q, hq, rfl⟩ := hp
    exact (h2 q hq).1
  · unfold ImportGives
    simp only [Nat.zero_add]
    rw [import_all E ids now linelen rs h, h3]
    have e2 : parts.map (fun p => p.2.2.2) = parts.map (fun p => p.2.1.2) := List.map_congr_left fun p hp => (e p hp).2.symm
    simp only [List.nil_append, List.flatMap_def, e2, List.map_map]
    rfl
  · have e1 : parts.map (fun p => p.2.2.1.map noBirthday) = parts.map (fun p => p.2.1.1.map noBirthday) := List.map_congr_left fun p hp => (e p hp).1.symm
    rw [List.map_flatMap, List.map_flatMap, List.flatMap_map, List.flatMap_def, List.flatMap_def, e1]

theorem name_of (s : QString) (hs : ∀ c ∈ s, 97 ≤ c ∧ c ≤ 122) (h : s ≠ []) (w : WellFormed s) : LdifName s := by
  have big : ∀ c ∈ s, ¬ AsciiSpace c ∧ c ≠ 0xFEFF ∧ c ≠ qc! ':' ∧ c ≠ qc! '#' ∧ c ≠ 10 ∧ c ≠ 13 := by
    intro c hc
    have h1 := UInt16.le_iff_toNat_le.1 (hs c hc).1
    have h2 := UInt16.le_iff_toNat_le.1 (hs c hc).2
    have e1 : (97 : UInt16).toNat = 97 := rfl
    have e2 : (122 : UInt16).toNat = 122 := rfl
    refine ⟨?_, ?_, ?_, ?_, ?_, ?_⟩
    · rintro (rfl | ⟨_, h⟩)
      · exact absurd h1 (by decide)
      · have := UInt16.le_iff_toNat_le.1 h
        have e3 : (13 : UInt16).toNat = 13 := rfl
        omega
    all_goals (rintro rfl; first | exact absurd h1 (by decide) | exact absurd h2 (by decide))
  refine ⟨h, w, ?_, fun hm => (big _ hm).2.2.1 rfl, fun hm => (big _ hm).2.2.2.2.1 rfl, fun hm => (big _ hm).2.2.2.2.2 rfl, ?_, ?_, ?_⟩
  · intro he; exact (big _ (List.mem_of_mem_head? he)).2.1 rfl
  · intro he; exact (big _ (List.mem_of_mem_head? he)).2.2.2.1 rfl
  · intro c he; exact (big _ (List.mem_of_mem_head? he)).1
  · intro c he; exact (big _ (List.mem_of_mem_getLast? he)).1

private theorem birthOf_append (b : Int × Int × Int) (x y : List (QString × QByteArray)) : birthOf b (x ++ y) = birthOf (birthOf b x) y := List.foldl_append

private theorem birthOf_filter (as : List (QString × QByteArray)) : ∀ b, birthOf b (as.filter fun a => toLowerQ a.1 ∈ birthNames) = birthOf b as := by
  induction as with
  | nil => intro b; rfl
  | cons a as ih =>
    intro b
    rw [List.filter_cons]
    split
    · exact ih _
    · rename_i h1
      simp only [birthNames, List.mem_cons, List.not_mem_nil, or_false, not_or, decide_eq_true_eq] at h1
      have e : birthStep b (toLowerQ a.1) (fromUtf8 a.2) = b := by
        simp only [birthStep, h1.1, h1.2.1, h1.2.2, if_false]
      show _ = birthOf (birthStep b (toLowerQ a.1) (fromUtf8 a.2)) as
      rw [e]; exact ih b

private theorem evalAttrs_birth (E : LdifEnv) (ids : Nat → QString) (as : List (QString × QByteArray)) (h : ∀ a ∈ as, toLowerQ a.1 ∈ birthNames) :
    ∀ (b : Int × Int × Int) (s : LdifState), evalAttrs E ids (s.moved 0 b) as = s.moved 0 (birthOf b as) := by
  induction as with
  | nil => intro b s; rfl
  | cons a as ih =>
    intro b s
    have ha := h a (by simp)
    have e : evaluatePair E ids (s.moved 0 b) (toLowerQ a.1) (fromUtf8 a.2) = s.moved 0 (birthStep b (toLowerQ a.1) (fromUtf8 a.2)) := by
      simp only [birthNames, List.mem_cons, List.not_mem_nil, or_false] at ha
      rcases ha with e | e | e <;> rw [e] <;> rfl
    show evalAttrs E ids (evaluatePair E ids (s.moved 0 b) (toLowerQ a.1) (fromUtf8 a.2)) as = _
    rw [e]
    exact ih (fun x hx => h x (by simp [hx])) _ _

private theorem inheriting_own (E : LdifEnv) (ids : Nat → QString) (now : QDateTime) (k : Nat) (earlier : List LdifRecord) (r : LdifRecord) :
    (own E ids now k (inheriting earlier r)).moved 0 (birthOf (-1, -1, -1) (inheriting earlier r).attrs) =
      (own E ids now k r).moved 0 (birthOf (birthOf (-1, -1, -1) (earlier.flatMap (·.attrs))) r.attrs) := by
  have e0 : birthOf (-1, -1, -1) (inheriting earlier r).attrs = birthOf (birthOf (-1, -1, -1) (earlier.flatMap (·.attrs))) r.attrs := by
    show birthOf (birthStep (-1, -1, -1) _ _) (_ ++ r.attrs) = _
    rw [birthOf_append, birthOf_filter]
    rfl
  have e1 : own E ids now k (inheriting earlier r) =
      (own E ids now k r).moved 0 (birthOf (birthOf (-1, -1, -1) (earlier.flatMap (·.attrs))) r.attrs) := by
    have hf : ∀ x, evalAttrs E (fun i => ids (k + i)) (ldifFresh E (fun i => ids (k + i)) now 0 (-1) (-1) (-1)) ((q! "objectclass", b! "top") :: x) =
        evalAttrs E (fun i => ids (k + i)) ((ldifFresh E (fun i => ids (k + i)) now 0 (-1) (-1) (-1)).moved 0 (-1, -1, -1)) x := fun x => rfl
    show evalAttrs E (fun i => ids (k + i)) (ldifFresh E (fun i => ids (k + i)) now 0 (-1) (-1) (-1)) (_ :: (_ ++ r.attrs)) = _
    rw [hf]
    have happ : ∀ s x y, evalAttrs E (fun i => ids (k + i)) s (x ++ y) = evalAttrs E (fun i => ids (k + i)) (evalAttrs E (fun i => ids (k + i)) s x) y :=
      fun s x y => List.foldl_append
    rw [happ, evalAttrs_birth E _ _ (fun a ha => of_decide_eq_true (List.mem_filter.1 ha).2), birthOf_filter, evalAttrs_moved]
    simp only [Nat.zero_add]
    rfl
  rw [e0, e1]
  unfold LdifState.moved
  simp

private theorem inheriting_proper {earlier : List LdifRecord} {r : LdifRecord} (he : ∀ x ∈ earlier, x.Proper) (hr : r.Proper) : (inheriting earlier r).Proper := by
  refine ⟨?_, ⟨_, _, rfl, by decide, by decide⟩⟩
  intro a ha
  rcases List.mem_cons.1 ha with rfl | ha
  · exact name_of _ (by decide) (by decide) ⟨"objectclass".toList, by decide⟩
  · rcases List.mem_append.1 ha with ha | ha
    · obtain ⟨x, hx, hax⟩ := List.mem_flatMap.1 (List.mem_filter.1 ha).1
      exact (he x hx).names a hax
    · exact hr.names a ha

/-- C43, exactly what happens, for every list of entries: the import gives in order what each entry would give alone if all that earlier entries say
    about birth dates stood in front of its own attributes. -/
theorem C43_exact (E : LdifEnv) (ids : Nat → QString) (now : QDateTime) (linelen : Nat) (rs : List LdifRecord) (h : ∀ r ∈ rs, r.Proper) :
    ∃ parts : List (Nat × List Contact × List Group), parts.length = rs.length ∧
      (∀ i r p, rs[i]? = some r → parts[i]? = some p → ImportGives E ids now p.1 ((inheriting (rs.take i) r).text linelen) p.2) ∧
      ImportGives E ids now 0 (rs.flatMap (LdifRecord.text linelen)) (parts.flatMap (·.2.1), parts.flatMap (·.2.2)) := by
  have key : ∀ (rs pre : List LdifRecord), (∀ r ∈ rs, r.Proper) → (∀ r ∈ pre, r.Proper) → ∀ (n : Nat) (out : List Contact × List Group),
      ∃ parts : List (Nat × List Contact × List Group), parts.length = rs.length ∧
        (∀ i r p, rs[i]? = some r → parts[i]? = some p → ImportGives E ids now p.1 ((inheriting (pre ++ rs.take i) r).text linelen) p.2) ∧
        ((rs.flatMap LdifRecord.items).foldl (ldifStep E ids now) (ldifFresh E ids now n (birthOf (-1, -1, -1) (pre.flatMap (·.attrs))).2.2
          (birthOf (-1, -1, -1) (pre.flatMap (·.attrs))).2.1 (birthOf (-1, -1, -1) (pre.flatMap (·.attrs))).1, out)).2 =
          (out.1 ++ parts.flatMap (·.2.1), out.2 ++ parts.flatMap (·.2.2)) := by
    intro rs
    induction rs with
    | nil => intro pre _ _ n out; exact ⟨[], rfl, by simp, by simp⟩
    | cons r rs ih =>
      intro pre hr hpre n out
      have hpr : ∀ x ∈ pre ++ [r], x.Proper := by
        intro x hx
        rcases List.mem_append.1 hx with hx | hx
        · exact hpre x hx
        · rw [List.mem_singleton.1 hx]; exact hr r (by simp)
      obtain ⟨parts, h1, h2, h3⟩ := ih (pre ++ [r]) (fun x hx => hr x (by simp [hx])) hpr (n + (own E ids now n r).next)
        (out.1 ++ (ldifResult ((own E ids now n r).moved n (birthOf (birthOf (-1, -1, -1) (pre.flatMap (·.attrs))) r.attrs))).1,
         out.2 ++ (ldifResult ((own E ids now n r).moved n (birthOf (birthOf (-1, -1, -1) (pre.flatMap (·.attrs))) r.attrs))).2)
      refine ⟨(n, ldifResult ((own E ids now n r).moved n (birthOf (birthOf (-1, -1, -1) (pre.flatMap (·.attrs))) r.attrs))) :: parts, by simp [h1], ?_, ?_⟩
      · intro i x p hx hp
        cases i with
        | zero =>
          simp only [List.getElem?_cons_zero, Option.some.injEq] at hx hp
          subst hx hp
          rw [List.take_zero, List.append_nil]
          have := import_one E ids now n linelen (inheriting pre r) (inheriting_proper hpre (hr r (by simp)))
          rw [inheriting_own] at this
          exact this
        | succ i =>
          simp only [List.getElem?_cons_succ] at hx hp
          have := h2 i x p hx hp
          rw [List.append_assoc] at this
          exact this
      · rw [List.flatMap_cons, List.foldl_append, step_record]
        rw [List.flatMap_append, birthOf_append] at h3
        simp only [List.flatMap_cons, List.flatMap_nil, List.append_nil] at h3
        rw [h3]
        simp [List.append_assoc]
  obtain ⟨parts, h1, h2, h3⟩ := key rs [] h (by simp) 0 ([], [])
  refine ⟨parts, h1, h2, ?_⟩
  unfold ImportGives
  simp only [Nat.zero_add]
  rw [import_all E ids now linelen rs h]
  exact congrArg some (h3.trans (by simp))

/-- An entry with a birth date. -/
def born : LdifRecord :=
  ⟨b! "cn=a", [(q! "cn", b! "a"), (q! "birthyear", b! "1980"), (q! "birthmonth", b! "5"), (q! "birthday", b! "17")]⟩
/-- An entry without one. -/
def unborn : LdifRecord := ⟨b! "cn=b", [(q! "cn", b! "b"), (q! "street", [0x41, 0xC3, 0xBC])]⟩

theorem born_proper : born.Proper := by
  refine ⟨?_, ⟨_, _, rfl, by decide, by decide⟩⟩
  intro a ha
  simp only [born, List.mem_cons, List.not_mem_nil, or_false] at ha
  rcases ha with rfl | rfl | rfl | rfl
  · exact name_of _ (by decide) (by decide) ⟨"cn".toList, by decide⟩
  · exact name_of _ (by decide) (by decide) ⟨"birthyear".toList, by decide⟩
  · exact name_of _ (by decide) (by decide) ⟨"birthmonth".toList, by decide⟩
  · exact name_of _ (by decide) (by decide) ⟨"birthday".toList, by decide⟩

theorem unborn_proper : unborn.Proper := by
  refine ⟨?_, ⟨_, _, rfl, by decide, by decide⟩⟩
  intro a ha
  simp only [unborn, List.mem_cons, List.not_mem_nil, or_false] at ha
  rcases ha with rfl | rfl
  · exact name_of _ (by decide) (by decide) ⟨"cn".toList, by decide⟩
  · exact name_of _ (by decide) (by decide) ⟨"street".toList, by decide⟩

-- entries without a birth date before entries with one
example : (∀ r ∈ [unborn, born, born], r.Proper) ∧ [unborn, born, born].Pairwise BirthApart := by
  refine ⟨?_, ?_⟩
  · intro r hr
    simp only [List.mem_cons, List.not_mem_nil, or_false] at hr
    rcases hr with rfl | rfl | rfl
    · exact unborn_proper
    · exact born_proper
    · exact born_proper
  · have hb : ∀ n ∈ birthNames, born.Has n := by
      intro n hn
      simp only [birthNames, List.mem_cons, List.not_mem_nil, or_false] at hn
      rcases hn with rfl | rfl | rfl
      · exact ⟨(q! "birthyear", b! "1980"), by decide, by decide⟩
      · exact ⟨(q! "birthmonth", b! "5"), by decide, by decide⟩
      · exact ⟨(q! "birthday", b! "17"), by decide, by decide⟩
    exact .cons (fun _ h => .inr (by simp at h; rw [h]; exact hb)) (.cons (fun _ h => .inr (by simp at h; rw [h]; exact hb)) (.cons (fun _ h => by simp at h) .nil))

-- an entry without a birth date behind one with a birth date
example : (∀ r ∈ [born, unborn], r.Proper) ∧ (inheriting [born] unborn).attrs =
    [(q! "objectclass", b! "top"), (q! "birthyear", b! "1980"), (q! "birthmonth", b! "5"), (q! "birthday", b! "17"), (q! "cn", b! "b"),
      (q! "street", [0x41, 0xC3, 0xBC])] := by
  refine ⟨?_, by decide +kernel⟩
  intro r hr
  simp only [List.mem_cons, List.not_mem_nil, or_false] at hr
  rcases hr with rfl | rfl
  · exact born_proper
  · exact unborn_proper

/-- C43 as stated is false of the code: an entry without a birth date that comes after one with a birth date gets that birth date. -/
theorem C43_false : ¬ ∀ (E : LdifEnv) (ids : Nat → QString) (now : QDateTime) (linelen : Nat) (rs : List LdifRecord), (∀ r ∈ rs, r.Proper) →
    ∃ parts : List (Nat × List Contact × List Group), parts.length = rs.length ∧
      (∀ p ∈ rs.zip parts, ImportGives E ids now p.2.1 (p.1.text linelen) p.2.2) ∧
      ImportGives E ids now 0 (rs.flatMap (LdifRecord.text linelen)) (parts.flatMap (·.2.1), parts.flatMap (·.2.2)) := by
  intro h
  obtain ⟨parts, h1, h2, h3⟩ := h sampleLdifEnv (fun _ => []) sampleNow 0 [born, unborn] (by
    intro r hr
    simp only [List.mem_cons, List.not_mem_nil, or_false] at hr
    rcases hr with rfl | rfl
    · exact born_proper
    · exact unborn_proper)
  match parts, h1 with
  | [p, q], _ =>
    have a1 : ImportGives sampleLdifEnv (fun _ => []) sampleNow p.1 (born.text 0) p.2 := h2 (born, p) (by simp)
    have a2 : ImportGives sampleLdifEnv (fun _ => []) sampleNow q.1 (unborn.text 0) q.2 := h2 (unborn, q) (by simp)
    have b1 : (ldifToAddressee sampleLdifEnv (fun _ => []) sampleNow (documentString (born.text 0))).map (fun r => r.1.map fun c => c.birthday.isSome) = some [true] := by
      decide +kernel
    have b2 : (ldifToAddressee sampleLdifEnv (fun _ => []) sampleNow (documentString (unborn.text 0))).map (fun r => r.1.map fun c => c.birthday.isSome) = some [false] := by
      decide +kernel
    have b3 : (ldifToAddressee sampleLdifEnv (fun _ => []) sampleNow (documentString ([born, unborn].flatMap (LdifRecord.text 0)))).map
        (fun r => r.1.map fun c => c.birthday.isSome) = some [true, true] := by
      decide +kernel
    unfold ImportGives at a1 a2 h3
    rw [a1, Option.map_some, Option.some.injEq] at b1
    rw [a2, Option.map_some, Option.some.injEq] at b2
    rw [h3, Option.map_some, Option.some.injEq] at b3
    simp [b1, b2] at b3

end KC
