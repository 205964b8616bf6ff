import Verif.Lemmas.LdifFields
import Verif.Props.C15
/-
  The contact made from the attributes of an exported contact.
-/
namespace KC
open KC.Spec

/-! ### values -/

theorem Spec.LdifValue.nil : LdifValue [] := ⟨⟨[], rfl⟩, by simp⟩

theorem Spec.LdifValue.ascii {s : QString} (h : ∀ c ∈ s, c.toNat < 128) : LdifValue s := by
  refine ⟨ascii_wellFormed h, ?_⟩
  intro he
  have := h _ (List.mem_of_mem_head? he)
  exact absurd this (by decide)

theorem Spec.LdifValue.dec (n : Nat) : LdifValue (dec n) := .ascii fun c hc => by have := dec_chars n c hc; omega

theorem Spec.LdifValue.revision (d : QDateTime) : LdifValue (revisionText d) := by
  cases d with
  | none => exact .nil
  | some d =>
    apply LdifValue.ascii
    intro c hc
    simp only [revisionText, dateToVCardString, List.mem_append, List.mem_singleton] at hc
    have pc := fun w n (h : c ∈ padded w n) => padded_chars w n c h
    rcases hc with ((((((hc | hc) | hc) | hc) | hc) | hc) | hc) | hc
    · split at hc
      · rcases List.mem_cons.1 hc with rfl | hc
        · decide
        · have := pc _ _ hc; omega
      · have := pc _ _ hc; omega
    · have := pc _ _ hc; omega
    · have := pc _ _ hc; omega
    · subst hc; decide
    · have := pc _ _ hc; omega
    · have := pc _ _ hc; omega
    · have := pc _ _ hc; omega
    · subst hc; decide

theorem Spec.LdifValue.birth (d : QDateTime) : LdifValue (birthTexts d).1 ∧ LdifValue (birthTexts d).2.1 ∧ LdifValue (birthTexts d).2.2 := by
  cases d with
  | none => exact ⟨.nil, .nil, .nil⟩
  | some d =>
    refine ⟨?_, .dec _, .dec _⟩
    simp only [birthTexts]
    split
    · exact .dec _
    · exact .nil

theorem Spec.LdifValue.streets {E : LdifEnv} {a : Address} (h : LdifAddressOK E a) : LdifValue (streetLines a.street).1 ∧ LdifValue (streetLines a.street).2 := by
  rcases streetLines_cases h.street.1 with ⟨_, e⟩ | ⟨_, e⟩ | ⟨x, y, e', _, _, e⟩
  · rw [e]; exact ⟨.nil, .nil⟩
  · rw [e]; exact ⟨h.street.2, .nil⟩
  · rw [e]; exact h.lines x y e'

theorem Spec.LdifValue.phone {c : Contact} (h : ∀ p ∈ c.phoneNumbers, LdifValue p.number) (fresh : QString) (t : Nat) : LdifValue (c.phoneNumber fresh t).number := by
  have : ∀ (l : List PhoneNumber) cur, LdifValue cur.number → (∀ p ∈ l, LdifValue p.number) → LdifValue (phoneLoop t cur l).number := by
    intro l
    induction l with
    | nil => intro cur h _; exact h
    | cons p l ih =>
      intro cur h hl
      have hp := hl p (by simp)
      have hl' : ∀ q ∈ l, LdifValue q.number := fun q hq => hl q (by simp [hq])
      rw [phoneLoop]
      split
      · split
        · exact hp
        · split
          · exact ih _ hp hl'
          · exact ih _ h hl'
      · exact ih _ h hl'
  exact this c.phoneNumbers _ LdifValue.nil h

theorem readable_values (E : LdifEnv) (fresh : QString) (c : Contact) (h : LdifReadable E c) : ∀ p ∈ ldifPairs E fresh c, LdifValue p.2 := by
  have ht := h.texts
  simp only [List.forall_mem_cons] at ht
  obtain ⟨t1, t2, t3, t4, t5, t6, t7, t8, t9, t10, t11, t12, _⟩ := ht
  have hpe : LdifValue c.preferredEmail := by
    unfold Contact.preferredEmail
    cases he : c.emails with
    | nil => exact .nil
    | cons e t => exact (h.emails.2 e.mail (by simp [Contact.emailAddresses, he])).2
  have ph : ∀ t, LdifValue (c.phoneNumber fresh t).number := fun t => LdifValue.phone (fun p hp => (h.phones p hp).2) fresh t
  have hh := h.home fresh
  have hw := h.work fresh
  have hhs := LdifValue.streets hh
  have hws := LdifValue.streets hw
  have hhc : LdifValue (E.countryName (c.address fresh 16).country) := by rw [hh.countryName]; exact hh.country
  have hwc : LdifValue (E.countryName (c.address fresh 32).country) := by rw [hw.countryName]; exact hw.country
  have hb := LdifValue.birth c.birthday
  intro p hp
  unfold ldifPairs at hp
  simp only [List.mem_append] at hp
  rcases hp with (hp | hp) | hp
  · have : ∀ p ∈ ldifPairs1 c, LdifValue p.2 := by
      simp only [ldifPairs1, List.forall_mem_cons]
      exact ⟨.ascii (by decide), .ascii (by decide), .ascii (by decide), t1, t2, t3, t4, t5, t5, t5, hpe, by simp⟩
    exact this p hp
  · have he : p.2 ∈ c.emailAddresses := by
      unfold emailPairs at hp
      split at hp
      · simp at hp
      · rename_i e t hd
        rcases List.mem_cons.1 hp with rfl | hp
        · exact List.mem_of_mem_drop (i := 1) (by rw [hd]; simp)
        · obtain ⟨x, hx, rfl⟩ := List.mem_map.1 hp
          exact List.mem_of_mem_drop (i := 1) (by rw [hd]; simp [hx])
    exact (h.emails.2 _ he).2
  · have : ∀ p ∈ ldifPairs2 E fresh c, LdifValue p.2 := by
      simp only [ldifPairs2, List.forall_mem_cons]
      exact ⟨ph _, ph _, ph _, ph _, ph _, ph _, ph _, hh.street.2, hw.postalCode, hw.postOfficeBox, hhs.1, hhs.2, hh.locality, hh.region, hh.postalCode, hhc,
        hw.locality, hw.street.2, hws.1, hws.2, hwc, hw.locality, hwc, hw.region, t6, t7, t8, t9, t9, t9, t10, t11, t11, t11, t12, .revision _, hb.1, hb.2.1, hb.2.2, by simp⟩
    exact this p hp

/-- The entry of a contact. -/
def contactEntry (E : LdifEnv) (fresh : QString) (c : Contact) : LdifEntry := { dn := some (ldifDn c), pairs := ldifPairs E fresh c }

theorem contactEntry_ok (E : LdifEnv) (fresh : QString) (c : Contact) (h : LdifReadable E c) : (contactEntry E fresh c).OK := by
  refine ⟨?_, ldifPairs_names E fresh c, readable_values E fresh c h, ?_⟩
  · simp [contactEntry, ldifDn]
  · refine ⟨(q! "objectclass", q! "top"), written ((ldifPairs E fresh c).drop 1), rfl, ?_⟩
    decide

/-! ### the revision -/

theorem removeChar_id {c : UInt16} {l : QString} (h : c ∉ l) : removeChar c l = l := by
  unfold removeChar
  rw [List.filter_eq_self]
  intro a ha
  have : a ≠ c := fun e => h (e ▸ ha)
  simp [this]

theorem revision_back (d : DT) (hy : 1 ≤ d.date.1 ∧ d.date.1 ≤ 9999) (hv : validDate d.date.1 d.date.2.1 d.date.2.2 = true) (h1 : d.time.1 < 24)
    (h2 : d.time.2.1 < 60) (h3 : d.time.2.2.1 < 60) :
    vCardStringToDate (dateToVCardString d) = some { d with time := (d.time.1, d.time.2.1, d.time.2.2.1, 0), zone := none } := by
  obtain ⟨⟨y, m, dd⟩, ⟨h, mi, se, ms⟩, z⟩ := d
  simp only at hy hv h1 h2 h3 ⊢
  obtain ⟨n, rfl⟩ : ∃ n : Nat, y = n := ⟨y.toNat, by omega⟩
  have hm : m ≤ 12 ∧ dd ≤ 31 := by
    have := daysInMonth_le (n : Int) m
    simp only [validDate, Bool.and_eq_true, decide_eq_true_eq] at hv
    omega
  have hna : (n : Int).natAbs = n := rfl
  have e1 : dateToVCardString { date := ((n : Int), m, dd), time := (h, mi, se, ms), zone := z } =
      [dig (n / 1000), dig (n / 100 % 10), dig (n / 10 % 10), dig (n % 10), dig (m / 10), dig (m % 10), dig (dd / 10), dig (dd % 10), qc! 'T',
       dig (h / 10), dig (h % 10), dig (mi / 10), dig (mi % 10), dig (se / 10), dig (se % 10), qc! 'Z'] := by
    simp only [dateToVCardString]
    rw [if_neg (by omega), hna, padded4 n (by omega), padded2 m (by omega), padded2 dd (by omega), padded2 h (by omega), padded2 mi (by omega), padded2 se (by omega)]
    rfl
  have e2 : removeChar (qc! ':') (removeChar (qc! '-') (dateToVCardString { date := ((n : Int), m, dd), time := (h, mi, se, ms), zone := z })) =
      dateToVCardString { date := ((n : Int), m, dd), time := (h, mi, se, ms), zone := z } := by
    have hall : ∀ c ∈ dateToVCardString { date := ((n : Int), m, dd), time := (h, mi, se, ms), zone := z }, c ≠ qc! '-' ∧ c ≠ qc! ':' := by
      intro c hc
      have dg : 48 ≤ c.toNat ∧ c.toNat ≤ 57 → c ≠ qc! '-' ∧ c ≠ qc! ':' := by
        intro hd
        constructor <;> (intro e; rw [e] at hd; revert hd; decide)
      have pc := fun w n (h : c ∈ padded w n) => dg (padded_chars w n c h)
      have hneg : ¬ ((n : Int) < 0) := by omega
      simp only [dateToVCardString, if_neg hneg, List.mem_append, List.mem_singleton] at hc
      rcases hc with ((((((hc | hc) | hc) | hc) | hc) | hc) | hc) | hc
      · exact pc _ _ hc
      · exact pc _ _ hc
      · exact pc _ _ hc
      · subst hc; decide
      · exact pc _ _ hc
      · exact pc _ _ hc
      · exact pc _ _ hc
      · subst hc; decide
    rw [removeChar_id (fun hm => (hall _ hm).1 rfl), removeChar_id (fun hm => (hall _ hm).2 rfl)]
  unfold vCardStringToDate
  rw [e2, e1]
  generalize hL : [dig (n / 1000), dig (n / 100 % 10), dig (n / 10 % 10), dig (n % 10), dig (m / 10), dig (m % 10), dig (dd / 10), dig (dd % 10), qc! 'T',
       dig (h / 10), dig (h % 10), dig (mi / 10), dig (mi % 10), dig (se / 10), dig (se % 10), qc! 'Z'] = L
  have l1 : midQ L 0 4 = [dig (n / 1000), dig (n / 100 % 10), dig (n / 10 % 10), dig (n % 10)] := by subst hL; rfl
  have l2 : midQ L 4 2 = [dig (m / 10), dig (m % 10)] := by subst hL; rfl
  have l3 : midQ L 6 2 = [dig (dd / 10), dig (dd % 10)] := by subst hL; rfl
  have l4 : midQ L 9 2 = [dig (h / 10), dig (h % 10)] := by subst hL; rfl
  have l5 : midQ L 11 2 = [dig (mi / 10), dig (mi % 10)] := by subst hL; rfl
  have l6 : midQ L 13 2 = [dig (se / 10), dig (se % 10)] := by subst hL; rfl
  have l7 : L.length = 16 := by subst hL; rfl
  have l8 : L.getD 8 0 = qc! 'T' := by subst hL; rfl
  have hvt : validTime h mi se = true := by
    simp only [validTime, Bool.and_eq_true, decide_eq_true_eq]
    omega
  have hup : (decide (9 < 16) && decide (upperQ (qc! 'T') = qc! 'T')) = true := by decide
  simp only [l1, l2, l3, l4, l5, l6, l7, l8, toIntQ4 n (by omega), toIntQ2 m (by omega), toIntQ2 dd (by omega), toIntQ2 h (by omega), toIntQ2 mi (by omega),
    toIntQ2 se (by omega), hv, hvt, hup, if_true, Int.toNat_natCast]
  rfl

/-! ### one entry -/

theorem address_fresh (c : Contact) (f f' : QString) (t : Nat) :
    c.address f t = c.address f' t ∨ (c.address f t = { id := f, type := t } ∧ c.address f' t = { id := f', type := t }) := by
  have : ∀ (l : List Address) (a b : Address), a.empty = b.empty → addressLoop t a l = addressLoop t b l ∨ (addressLoop t a l = a ∧ addressLoop t b l = b) := by
    intro l
    induction l with
    | nil => intro a b _; exact .inr ⟨rfl, rfl⟩
    | cons p l ih =>
      intro a b h
      rw [addressLoop, addressLoop, h]
      split
      · split
        · exact .inl rfl
        · split
          · exact .inl rfl
          · exact ih a b h
      · exact ih a b h
  exact this c.addresses _ _ rfl

/-- Same fields of an address. -/
def SameAddress (x y : Address) : Prop :=
  x.street = y.street ∧ x.locality = y.locality ∧ x.region = y.region ∧ x.postalCode = y.postalCode ∧ x.country = y.country ∧ x.postOfficeBox = y.postOfficeBox

theorem address_fresh' (c : Contact) (f f' : QString) (t : Nat) : SameAddress (c.address f t) (c.address f' t) := by
  rcases address_fresh c f f' t with h | ⟨h, h'⟩
  · rw [h]; exact ⟨rfl, rfl, rfl, rfl, rfl, rfl⟩
  · rw [h, h']; exact ⟨rfl, rfl, rfl, rfl, rfl, rfl⟩

/-- The two addresses are put into the contact. -/
def withAddresses (a : Contact) (home work : Address) : Contact :=
  let a := if !home.empty then a.insertAddress home else a
  if !work.empty then a.insertAddress work else a

theorem withAddresses_addresses (a : Contact) (home work : Address) (h0 : a.addresses = []) (hid : home.id ≠ work.id) :
    (withAddresses a home work).addresses = (if home.empty then [] else [home]) ++ (if work.empty then [] else [work]) ∧
    ∃ e, withAddresses a home work = { a with addresses := (if home.empty then [] else [home]) ++ (if work.empty then [] else [work]), empty := e } := by
  have key : ∃ e, withAddresses a home work = { a with addresses := (if home.empty then [] else [home]) ++ (if work.empty then [] else [work]), empty := e } := by
    unfold withAddresses
    cases hh : home.empty with
    | true =>
      cases hw : work.empty with
      | true => refine ⟨a.empty, ?_⟩; cases a; simp_all
      | false => exact ⟨false, by simp [Contact.insertAddress, hw, h0, findFirst]⟩
    | false =>
      cases hw : work.empty with
      | true => exact ⟨false, by simp [Contact.insertAddress, hh, h0, findFirst]⟩
      | false => exact ⟨false, by simp [Contact.insertAddress, hh, hw, h0, findFirst, hid]⟩
  refine ⟨?_, key⟩
  obtain ⟨e, he⟩ := key
  rw [he]

theorem address_of_two (a : Contact) (home work : Address) (ha : a.addresses = (if home.empty then [] else [home]) ++ (if work.empty then [] else [work]))
    (hh : home.type = 16) (hw : work.type = 32) (f : QString) :
    a.address f 16 = (if home.empty then { id := f, type := 16 } else home) ∧ a.address f 32 = (if work.empty then { id := f, type := 32 } else work) := by
  have m1 : matchBinaryPattern 16 16 = true := by decide
  have m2 : matchBinaryPattern 32 16 = false := by decide
  have m3 : matchBinaryPattern 16 32 = false := by decide
  have m4 : matchBinaryPattern 32 32 = true := by decide
  have p1 : 16 &&& addressPref = 0 := by decide
  have p2 : 32 &&& addressPref = 0 := by decide
  unfold Contact.address
  rw [ha]
  cases home.empty <;> cases work.empty <;> simp [addressLoop, hh, hw, m1, m2, m3, m4, p1, p2]

theorem birth_back (d : QDateTime) (b : Int × Int × Int)
    (hd : ∀ x, d = some x → (x.date.1 = -1 ∨ (1 ≤ x.date.1 ∧ x.date.1 ≤ 2147483647)) ∧ validDate x.date.1 x.date.2.1 x.date.2.2 = true)
    (hb : b = (-1, -1, -1) ∨ ∃ x, d = some x ∧ 0 < x.date.1) :
    let r := runField storeBirth [(.birthYear, (birthTexts d).1), (.birthMonth, (birthTexts d).2.1), (.birthDay, (birthTexts d).2.2)] b
    (d = none → r = (-1, -1, -1)) ∧ ∀ x, d = some x → r = (x.date.1, (x.date.2.1 : Int), (x.date.2.2 : Int)) := by
  cases d with
  | none =>
    refine ⟨fun _ => ?_, fun x hx => (by cases hx)⟩
    rcases hb with rfl | ⟨x, hx, _⟩
    · rfl
    · cases hx
  | some x =>
    refine ⟨fun hx => (by cases hx), fun x' hx' => ?_⟩
    simp only [Option.some.injEq] at hx'
    subst hx'
    obtain ⟨hy, hv⟩ := hd x rfl
    obtain ⟨⟨y, m, dd⟩, t, z⟩ := x
    simp only at hy hv ⊢
    have hm : m ≤ 12 ∧ dd ≤ 31 := by
      have := daysInMonth_le y m
      simp only [validDate, Bool.and_eq_true, decide_eq_true_eq] at hv
      omega
    simp only [birthTexts, runField_cons, runField_nil, dec_ne, Bool.false_eq_true, if_false, storeBirth, toInt32_dec m (by omega), toInt32_dec dd (by omega), Option.getD_some]
    by_cases h0 : 0 < y
    · have h9 : y ≤ 2147483647 := by omega
      obtain ⟨n, rfl⟩ : ∃ n : Nat, y = n := ⟨y.toNat, by omega⟩
      rw [if_pos h0]
      simp only [Int.toNat_natCast, dec_ne, Bool.false_eq_true, if_false]
      rw [toInt32_dec n (by omega)]
      rfl
    · rw [if_neg h0]
      have : y = -1 := by omega
      subst this
      rcases hb with rfl | ⟨x, hx, hx'⟩
      · rfl
      · simp only [Option.some.injEq] at hx
        subst hx
        simp only at hx'
        omega

theorem entry_back (E : LdifEnv) (ids : Nat → QString) (hids : ∀ i j, ids i = ids j → i = j) (now : QDateTime) (fresh : QString) (c : Contact) (h : LdifReadable E c)
    (n : Nat) (b : Int × Int × Int) (hb : b = (-1, -1, -1) ∨ ∃ x, c.birthday = some x ∧ 0 < x.date.1) :
    (∃ a, ldifResult (afterExport E ids fresh c (ldifFresh E ids now n b.2.2 b.2.1 b.1)) = ([a], []) ∧ LdifSurvives E c a) ∧
    (c.birthday = none → (afterExport E ids fresh c (ldifFresh E ids now n b.2.2 b.2.1 b.1)).birth = (-1, -1, -1)) := by
  generalize hs0 : ldifFresh E ids now n b.2.2 b.2.1 b.1 = s0
  have fa : ∃ r e, s0.a = { Contact.new (ids n) with revision := r, empty := e } := by
    subst hs0
    simp only [ldifFresh, Contact.setRevision]
    split
    · exact ⟨none, true, rfl⟩
    · exact ⟨now, false, rfl⟩
  obtain ⟨r0, e0, fa⟩ := fa
  have fh : s0.home = { id := ids (n + 1), type := 16 } := by subst hs0; rfl
  have fw : s0.work = { id := ids (n + 2), type := 32 } := by subst hs0; rfl
  have fb : s0.birth = b := by subst hs0; rfl
  have fg : s0.group = { id := ids (n + 3) } := by subst hs0; rfl
  have hst := after_store E ids fresh c s0
  have htx := after_texts E ids fresh c s0 (by intro k; rw [fa]; cases k <;> rfl)
  have hnt := after_note E ids fresh c s0 (by rw [fa]; rfl)
  have hrs := after_rest E ids fresh c s0
  have hem := after_emails E ids fresh c s0 (by rw [fa]; rfl) ⟨h.emails.1, fun e he => (h.emails.2 e he).1⟩
  have hur := after_url E ids fresh c s0 (by rw [fa]; rfl) h.url
  have hph := after_phones E ids hids fresh c s0 (by rw [fa]; rfl) (fun p hp => (h.phones p hp).1)
  have hho := after_home E ids fresh c s0 ⟨_, fh⟩ (h.home fresh).street.1 (h.home fresh).countryName
  have hwo := after_work E ids fresh c s0 ⟨_, fw⟩ (h.work fresh).street.1 (h.work fresh).countryName
  have hbi := after_birth E ids fresh c s0
  have hrev := fun d (hd : c.revision = some d) => after_revision E ids fresh c s0
    (some { d with time := (d.time.1, d.time.2.1, d.time.2.2.1, 0), zone := none }) (by
      rw [hd]; simp [revisionText, dateToVCardString]) (by
      rw [hd]
      intro e
      have := congrArg List.length e
      simp [revisionText, dateToVCardString] at this
      have h8 := (padded2 d.time.1 (by have := (h.revision d hd).2.2.1; omega))
      rw [h8] at this
      have h9 := (padded2 d.time.2.1 (by have := (h.revision d hd).2.2.2.1; omega))
      rw [h9] at this
      simp at this
      omega) (by
      rw [hd]
      obtain ⟨h1, h2, h3, h4, h5⟩ := h.revision d hd
      exact revision_back d h1 h2.valid h3 h4 h5) rfl
  rw [fb] at hbi
  have hbb := birth_back c.birthday b (fun d hd => ⟨(h.birthday d hd).1, (h.birthday d hd).2.valid⟩) hb
  rw [← hbi] at hbb
  generalize hs : afterExport E ids fresh c s0 = s at *
  simp only [Prod.mk.injEq] at hrs
  obtain ⟨hname, hbd, hbw, had, hgr⟩ := hrs
  have hname : s.a.name = [] := by rw [hname, fa]; rfl
  have hbd : s.a.birthday = none := by rw [hbd, fa]; rfl
  have hbw : s.a.birthdayWithTime = false := by rw [hbw, fa]; rfl
  have had : s.a.addresses = [] := by rw [had, fa]; rfl
  have hgc : s.group.count = 0 := by rw [hgr, fg]; rfl
  obtain ⟨s1, s2, s3, s4, s5, s6⟩ := hst
  have hg : s.a.givenName = c.givenName := by rw [s1, fa]; exact ite_empty _
  have hf : s.a.familyName = c.familyName := by rw [s2, fa]; exact ite_empty _
  have hfn : s.a.formattedName = simplified c.formattedName := by rw [s3, fa]; exact ite_empty _
  have hui : s.a.uid = c.uid := by
    rw [s4]
    cases hu : c.uid with
    | nil => exact absurd hu h.uid
    | cons => rfl
  have hpx : s.a.prefix_ = c.prefix_ := by rw [s5, fa]; exact ite_empty _
  have hdp : s.a.department = departmentOf c := by rw [s6, fa]; exact ite_empty _
  -- the birthday
  have hbirth : ∃ e, (if validDate s.birthyear s.birthmonth s.birthday then
      s.a.setBirthdayDate (some (s.birthyear, s.birthmonth.toNat, s.birthday.toNat)) else s.a) =
      { s.a with birthday := c.birthday.map fun d => { date := d.date, time := (0, 0, 0, 0), zone := none }, empty := e } := by
    cases hc : c.birthday with
    | none =>
      have hbb := hbb.1 hc
      have e1 : s.birthyear = -1 := congrArg (·.1) hbb
      have e2 : s.birthmonth = -1 := congrArg (·.2.1) hbb
      have e3 : s.birthday = -1 := congrArg (·.2.2) hbb
      refine ⟨s.a.empty, ?_⟩
      rw [e1, e2, e3, if_neg (by decide)]
      exact congrArg (fun w => { s.a with birthday := w }) hbd
    | some d =>
      have hbb := hbb.2 d hc
      have e1 : s.birthyear = d.date.1 := congrArg (·.1) hbb
      have e2 : s.birthmonth = (d.date.2.1 : Int) := congrArg (·.2.1) hbb
      have e3 : s.birthday = (d.date.2.2 : Int) := congrArg (·.2.2) hbb
      refine ⟨false, ?_⟩
      rw [e1, e2, e3, if_pos (h.birthday d hc).2.valid]
      unfold Contact.setBirthdayDate
      rw [if_neg (by simp [hbd])]
      exact congrArg (fun w => { s.a with birthday := some { date := d.date, time := (0, 0, 0, 0), zone := none }, birthdayWithTime := w, empty := false }) hbw.symm
  obtain ⟨eb, hbirth⟩ := hbirth
  refine ⟨?_, fun hn => hbb.1 hn⟩
  have hres : ldifResult s = ([withAddresses { s.a with birthday := c.birthday.map fun d => { date := d.date, time := (0, 0, 0, 0), zone := none }, empty := eb } s.home s.work], []) := by
    unfold ldifResult
    rw [if_pos hgc, hbirth]
    have hnm : (!s.a.formattedName.isEmpty || !s.a.name.isEmpty || !s.a.familyName.isEmpty) = true := by
      rw [hfn, hf]
      rcases h.named with hn | hn
      · simp [hn]
      · simp [hn]
    simp only [hnm, if_true]
    rfl
  have hidn : s.home.id ≠ s.work.id := by
    rw [hho.1, hwo.1, fh, fw]
    intro e
    have := hids _ _ e
    omega
  obtain ⟨hadd, ew, hwa⟩ := withAddresses_addresses { s.a with birthday := c.birthday.map fun d => { date := d.date, time := (0, 0, 0, 0), zone := none }, empty := eb }
    s.home s.work had hidn
  refine ⟨_, hres, ?_⟩
  have haddr := fun f => address_of_two (withAddresses { s.a with birthday := c.birthday.map fun d => { date := d.date, time := (0, 0, 0, 0), zone := none }, empty := eb } s.home s.work)
    s.home s.work hadd hho.2.1 hwo.2.1 f
  constructor
  · rw [hwa]; exact hg
  · rw [hwa]; exact hf
  · rw [hwa]; exact hfn
  · rw [hwa]; exact hui
  · intro k; rw [hwa]; rw [← htx k]; cases k <;> rfl
  · rw [hwa]; exact hpx
  · rw [hwa]; exact hdp
  · rw [hwa]; exact hnt
  · rw [hwa]; exact hem
  · intro t ht f f'
    have := hph t ht f f'
    rw [hwa]; exact this
  · intro f f'
    have hf := (haddr f).1
    have hfr := address_fresh' c fresh f' 16
    simp only [hf]
    obtain ⟨_, _, a3, a4, a5, a6, a7, a8⟩ := hho
    cases he : s.home.empty with
    | true =>
      obtain ⟨b1, b2, b3, b4, b5⟩ := a8 he
      simp only [if_true]
      exact ⟨by rw [← hfr.1, b1], by rw [← hfr.2.1, b2], by rw [← hfr.2.2.1, b3], by rw [← hfr.2.2.2.1, b4], by rw [← hfr.2.2.2.2.1, b5]⟩
    | false =>
      simp only [Bool.false_eq_true, if_false]
      exact ⟨a3.trans hfr.1, a4.trans hfr.2.1, a5.trans hfr.2.2.1, a6.trans hfr.2.2.2.1, a7.trans hfr.2.2.2.2.1⟩
  · intro f f'
    have hf := (haddr f).2
    have hfr := address_fresh' c fresh f' 32
    simp only [hf]
    obtain ⟨_, _, a3, a4, a5, a6, a7, a9, a8⟩ := hwo
    cases he : s.work.empty with
    | true =>
      obtain ⟨b1, b2, b3, b4, b5, b6⟩ := a8 he
      simp only [if_true]
      exact ⟨by rw [← hfr.1, b1], by rw [← hfr.2.1, b2], by rw [← hfr.2.2.1, b3], by rw [← hfr.2.2.2.1, b4], by rw [← hfr.2.2.2.2.1, b5], by rw [← hfr.2.2.2.2.2, b6]⟩
    | false =>
      simp only [Bool.false_eq_true, if_false]
      exact ⟨a3.trans hfr.1, a4.trans hfr.2.1, a5.trans hfr.2.2.1, a6.trans hfr.2.2.2.1, a7.trans hfr.2.2.2.2.1, a9.trans hfr.2.2.2.2.2⟩
  · rw [hwa]; exact hur
  · intro d hd
    rw [hwa]
    have hsym : ∀ x y : QDateTime, QDateTime.eq E.toQtEnv x y = true → QDateTime.eq E.toQtEnv y x = true := by
      intro x y hxy
      cases x <;> cases y <;> simp_all [QDateTime.eq]
    rcases hrev d hd with hr | hr
    · exact hsym _ _ hr
    · have : (some { d with time := (d.time.1, d.time.2.1, d.time.2.2.1, 0), zone := none } : QDateTime) = s.a.revision := hr.symm
      rw [this]
      show QDateTime.eq E.toQtEnv s.a.revision s.a.revision = true
      rw [hr]
      simp [QDateTime.eq]
  · rw [hwa]
    simp only [Option.map_map]
    rfl

end KC
