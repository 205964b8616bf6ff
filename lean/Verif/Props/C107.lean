import Verif.Props.C24
import Verif.Spec.LdifConverter
import Mathlib.Data.List.Forall2

/-! # C107: going through a vCard makes no difference to an LDIF export -/

namespace KC

/-! ### looking up by type -/

private theorem match_masked (m t pat : Nat) (h0 : pat ≠ 0) (hm : pat &&& m = pat) : matchBinaryPattern (t &&& m) pat = matchBinaryPattern t pat := by
  have : pat &&& (t &&& m) = pat &&& t := by rw [Nat.and_comm t m, ← Nat.and_assoc, hm]
  simp only [matchBinaryPattern, if_neg h0, this]

private theorem pref_masked (m t pat : Nat) (hm : pat &&& m = pat) : (t &&& m) &&& pat = t &&& pat := by
  rw [Nat.and_assoc, Nat.and_comm m pat, hm]

private theorem phone_match (v : Version) (id : QString) (p : PhoneNumber) (pat : Nat) (h0 : pat ≠ 0) (hm : pat &&& 16383 = pat) :
    matchBinaryPattern (p.restored v id).type pat = matchBinaryPattern p.type pat := by
  have e : (p.restored v id).type = if p.named = 0 then 16384 else p.named := rfl
  rw [e]
  split_ifs with h
  · have h1 : pat &&& 16384 = 0 := by
      rw [← hm, Nat.and_assoc]
      simp
    have h2 := match_masked 16383 p.type pat h0 hm
    rw [← h2]
    have h3 : p.type &&& 16383 = 0 := h
    rw [h3]
    simp only [matchBinaryPattern, if_neg h0, h1, Nat.and_zero]
  · exact match_masked 16383 p.type pat h0 hm

private theorem phone_pref (v : Version) (id : QString) (p : PhoneNumber) : (p.restored v id).type &&& phonePref = p.type &&& phonePref := by
  have e : (p.restored v id).type = if p.named = 0 then 16384 else p.named := rfl
  have h2 := pref_masked 16383 p.type phonePref (by decide)
  rw [e, ← h2]
  split_ifs with h
  · have h3 : p.type &&& 16383 = 0 := h
    rw [h3]
    decide
  · rfl

private theorem phoneLoop_restored (v : Version) (pat : Nat) (h0 : pat ≠ 0) (hm : pat &&& 16383 = pat) (l : List PhoneNumber) (f : Nat → QString) (x y : PhoneNumber)
    (hxy : x.number = y.number) :
    (phoneLoop pat x (l.mapIdx fun i p => p.restored v (f i))).number = (phoneLoop pat y l).number := by
  induction l generalizing f x y with
  | nil => exact hxy
  | cons p l ih =>
    rw [List.mapIdx_cons]
    simp only [phoneLoop, phone_match v _ p pat h0 hm, phone_pref, hxy]
    split_ifs
    · rfl
    · exact ih (fun i => f (i + 1)) _ _ rfl
    · exact ih (fun i => f (i + 1)) _ _ hxy
    · exact ih (fun i => f (i + 1)) _ _ hxy

/-- What an address says, apart from its id, its types and its position. -/
private def said (a : Address) : Bool × QString × QString × QString × QString × QString × QString × QString × QString :=
  (a.empty, a.street, a.locality, a.region, a.postalCode, a.country, a.postOfficeBox, a.extended, a.label)

private theorem addressLoop_restored (v : Version) (pat : Nat) (h0 : pat ≠ 0) (hm : pat &&& 127 = pat) (l : List Address) (he : ∀ a ∈ l, a.empty = false)
    (f : Nat → QString) (x y : Address) (hxy : said x = said y) :
    said (addressLoop pat x (l.mapIdx fun i a => a.restored v (f i))) = said (addressLoop pat y l) := by
  induction l generalizing f x y with
  | nil => exact hxy
  | cons a l ih =>
    have ha := he a List.mem_cons_self
    have hl : ∀ b ∈ l, b.empty = false := fun b hb => he b (List.mem_cons_of_mem _ hb)
    have e : x.empty = y.empty := congrArg Prod.fst hxy
    have e1 : matchBinaryPattern (a.restored v (f 0)).type pat = matchBinaryPattern a.type pat := match_masked 127 a.type pat h0 hm
    have e2 : (a.restored v (f 0)).type &&& addressPref = a.type &&& addressPref := pref_masked 127 a.type addressPref (by decide)
    have e3 : said (a.restored v (f 0)) = said a := by
      simp only [said, Address.restored, ha]
    rw [List.mapIdx_cons]
    simp only [addressLoop, e1, e2, e]
    split_ifs
    · exact e3
    · exact ih hl (fun i => f (i + 1)) _ _ e3
    · exact ih hl (fun i => f (i + 1)) _ _ hxy
    · exact ih hl (fun i => f (i + 1)) _ _ hxy

/-- The export of a contact read back is that of the contact. -/
private theorem ldif_restored (E : ToolEnv) (L : LdifEnv) (v : Version) (ids : IdKind → Nat → QString) (a p k : Nat) (c : Contact) (fresh fresh' : QString)
    (hc : c.empty = false) (ha : ∀ x ∈ c.addresses, x.empty = false) (hn : v = .v2_1 → c.text .nickName = [])
    (hd : c.organizations = [] → c.department = [] ∨ c.department = c.custom (q! "KADDRESSBOOK") (q! "X-Department")) (str : QString) :
    addresseeToLDIF L fresh' (c.restored E v ids a p k) str = addresseeToLDIF L fresh c str := by
  have hp : ∀ t, t ≠ 0 → t &&& 16383 = t → ((c.restored E v ids a p k).phoneNumber fresh' t).number = (c.phoneNumber fresh t).number :=
    fun t h0 hm => phoneLoop_restored v t h0 hm c.phoneNumbers (fun i => ids .phone (p + i)) _ _ rfl
  have hA : ∀ t, t ≠ 0 → t &&& 127 = t → said ((c.restored E v ids a p k).address fresh' t) = said (c.address fresh t) :=
    fun t h0 hm => addressLoop_restored v t h0 hm c.addresses ha (fun i => ids .address (a + i)) _ _ rfl
  have h16 := hA 16 (by decide) (by decide)
  have h32 := hA 32 (by decide) (by decide)
  simp only [said, Prod.mk.injEq] at h16 h32
  have hnick : (c.restored E v ids a p k).text .nickName = c.text .nickName := by
    by_cases hv : v = .v2_1
    · rw [hn hv]
      subst hv
      rfl
    · have e : (c.restored E v ids a p k).nickNames = c.nickNames := if_neg hv
      show firstText (c.restored E v ids a p k).nickNames = firstText c.nickNames
      rw [e]
  have hb : ldifBirthday (c.restored E v ids a p k).birthday = ldifBirthday c.birthday := by
    show ldifBirthday (if c.birthdayWithTime then c.birthday else c.birthday.dateOnly) = _
    split_ifs
    · rfl
    · cases c.birthday <;> rfl
  have hdep : (if !(c.restored E v ids a p k).department.isEmpty then ldifOut (q! "department") (c.restored E v ids a p k).department
      else ldifOut (q! "department") ((c.restored E v ids a p k).custom (q! "KADDRESSBOOK") (q! "X-Department")))
      = (if !c.department.isEmpty then ldifOut (q! "department") c.department
        else ldifOut (q! "department") (c.custom (q! "KADDRESSBOOK") (q! "X-Department"))) := by
    have e : (c.restored E v ids a p k).department = if c.organizations = [] then [] else c.department := rfl
    have e' : (c.restored E v ids a p k).custom (q! "KADDRESSBOOK") (q! "X-Department") = c.custom (q! "KADDRESSBOOK") (q! "X-Department") := rfl
    rw [e, e']
    by_cases ho : c.organizations = []
    · rw [if_pos ho]
      rcases hd ho with h | h
      · rw [h]
      · rw [← h]
        simp
    · rw [if_neg ho]
  have e0 : (c.restored E v ids a p k).empty = false := rfl
  simp only [addresseeToLDIF, hc, e0, hp 2 (by decide) (by decide), hp 32 (by decide) (by decide), hp 1 (by decide) (by decide), hp 64 (by decide) (by decide),
    hp 8192 (by decide) (by decide), h16, h32, hnick, hb, hdep]
  rfl

private theorem readAs_forall {E : ToolEnv} {v : Version} {ids : IdKind → Nat → QString} {a p k : Nat} {cs cs' : List Contact} (h : ReadAs E v ids a p k cs cs') :
    List.Forall₂ (fun c c' => ∃ a p k, c' = c.restored E v ids a p k) cs cs' := by
  induction h with
  | nil => exact .nil
  | cons h _ ih => exact .cons ⟨_, _, _, h⟩ ih

private theorem foldl_read {α β : Type} (F G : β → α → β) {R : α → α → Prop} {l m : List α} (h : List.Forall₂ R l m)
    (hfg : ∀ c ∈ l, ∀ d, R c d → ∀ acc, F acc d = G acc c) (acc : β) : m.foldl F acc = l.foldl G acc := by
  induction h generalizing acc with
  | nil => rfl
  | cons h _ ih =>
    rw [List.foldl_cons, List.foldl_cons, hfg _ List.mem_cons_self _ h, ih fun c hc => hfg c (List.mem_cons_of_mem _ hc)]

/-- **C107.** Contacts a version of the vCard format can carry are written as vCards and read again. The LDIF export of what was read is the LDIF export of
    the contacts themselves, to the letter. Two entries of a contact must not get lost on the way: the nick name (version 2.1 has none) and the department (it is
    written with an organization only; the export takes it from the custom field when it is missing). -/
theorem C107_partial (E : ToolEnv) (v : Version) (ids : IdKind → Nat → QString) (hinj : ∀ k i j, ids k i = ids k j → i = j) (cs : List Contact)
    (hR : ∀ c ∈ cs, Readable E v c) (hu : ∀ c ∈ cs, ∀ i, c.uid ≠ ids .contact i)
    (he : ∀ c ∈ cs, c.empty = false ∧ ∀ a ∈ c.addresses, a.empty = false)
    (hn : v = .v2_1 → ∀ c ∈ cs, c.text .nickName = [])
    (hd : ∀ c ∈ cs, c.organizations = [] → c.department = [] ∨ c.department = c.custom (q! "KADDRESSBOOK") (q! "X-Department")) :
    ∃ cs', (∃ n, ∀ fuel, n ≤ fuel → parseContacts E ids fuel (createContacts E v false cs) = .ok cs') ∧
      ∀ (L : LdifEnv) (fresh fresh' str : QString), addresseesToLDIF L fresh' cs' str = addresseesToLDIF L fresh cs str := by
  obtain ⟨cs', h1, h2⟩ := C24_contacts E v ids hinj cs hR hu
  refine ⟨cs', h2, fun L fresh fresh' str => ?_⟩
  have hall := readAs_forall h1
  have hempty : cs'.isEmpty = cs.isEmpty := by
    cases hall <;> rfl
  have key : ∀ acc : Bool × QString,
      cs'.foldl (fun acc c => let r := addresseeToLDIF L fresh' c acc.2; (r.1 || acc.1, r.2)) acc
        = cs.foldl (fun acc c => let r := addresseeToLDIF L fresh c acc.2; (r.1 || acc.1, r.2)) acc := by
    refine fun acc => foldl_read _ _ hall (fun c hc c' h acc => ?_) acc
    obtain ⟨a, p, k, rfl⟩ := h
    have hc' := he c hc
    simp only [ldif_restored E L v ids a p k c fresh fresh' hc'.1 hc'.2 (fun hv => hn hv c hc) (hd c hc)]
  simp only [addresseesToLDIF, hempty, key]

/-- C107, the lookups the export rests on: asked for a type (or several) that has a name, the contact read back gives the phone number and the address the
    contact gives. -/
theorem C107_lookup (E : ToolEnv) (v : Version) (ids : IdKind → Nat → QString) (hinj : ∀ k i j, ids k i = ids k j → i = j) (c : Contact)
    (hR : Readable E v c) (hu : ∀ i, c.uid ≠ ids .contact i) (ha : ∀ a ∈ c.addresses, a.empty = false) :
    ∃ c', WrittenAndRead E v ids c c' ∧ ∀ (fresh fresh' : QString) (t : Nat), t ≠ 0 →
      (t &&& 16383 = t → (c'.phoneNumber fresh' t).number = (c.phoneNumber fresh t).number) ∧
      (t &&& 127 = t → (c'.address fresh' t).parts = (c.address fresh t).parts ∧ (c'.address fresh' t).label = (c.address fresh t).label) := by
  refine ⟨_, C24_contact E v ids hinj c hR hu, fun fresh fresh' t h0 => ⟨fun hm => ?_, fun hm => ?_⟩⟩
  · exact phoneLoop_restored v t h0 hm c.phoneNumbers (fun i => ids .phone (0 + i)) _ _ rfl
  · have h : said ((c.restored E v ids 0 0 0).address fresh' t) = said (c.address fresh t) :=
      addressLoop_restored v t h0 hm c.addresses ha (fun i => ids .address (0 + i)) _ _ rfl
    simp only [said, Prod.mk.injEq] at h
    obtain ⟨-, e1, e2, e3, e4, e5, e6, e7, e8⟩ := h
    exact ⟨by simp only [Address.parts, e1, e2, e3, e4, e5, e6, e7], e8⟩

/-- Non-vacuity: two copies of the sample contact in version 3.0. -/
example : ∃ cs', (∃ n, ∀ fuel, n ≤ fuel →
      parseContacts Sample.env Sample.ids fuel (createContacts Sample.env .v3_0 false [Sample.contact, Sample.contact]) = .ok cs') ∧
    ∀ (L : LdifEnv) (fresh fresh' str : QString), addresseesToLDIF L fresh' cs' str = addresseesToLDIF L fresh [Sample.contact, Sample.contact] str := by
  have hm : ∀ {P : Contact → Prop}, P Sample.contact → ∀ c ∈ [Sample.contact, Sample.contact], P c := by
    intro P h c hc
    rcases List.mem_cons.1 hc with rfl | hc
    · exact h
    · obtain rfl : c = Sample.contact := by simpa using hc
      exact h
  exact C107_partial Sample.env .v3_0 Sample.ids Sample.ids_inj _ (hm (C24_sample_readable _)) (hm C24_sample_uid) (hm ⟨rfl, by decide⟩)
    (fun h => by cases h) (hm fun h => by cases h)

/-- C107 fails for a nick name in version 2.1: it is in the export before, not after. -/
theorem C107_nick_false : ∃ c c', Readable Sample.env .v2_1 c ∧ c.empty = false ∧ (∀ a ∈ c.addresses, a.empty = false) ∧ c.organizations ≠ [] ∧
    WrittenAndRead Sample.env .v2_1 Sample.ids c c' ∧ addresseesToLDIF Spec.sampleLdifEnv [] [c'] [] ≠ addresseesToLDIF Spec.sampleLdifEnv [] [c] [] :=
  ⟨_, _, C24_sample_readable .v2_1, rfl, by decide, by decide, C24_contact _ _ _ Sample.ids_inj _ (C24_sample_readable .v2_1) C24_sample_uid,
    by decide +kernel⟩

/-- C107 fails for a department without an organization, in every version. -/
theorem C107_department_false (v : Version) : ∃ c c', Readable Sample.env v c ∧ c.empty = false ∧ (∀ a ∈ c.addresses, a.empty = false) ∧
    c.nickNames = [] ∧ WrittenAndRead Sample.env v Sample.ids c c' ∧
    addresseesToLDIF Spec.sampleLdifEnv [] [c'] [] ≠ addresseesToLDIF Spec.sampleLdifEnv [] [c] [] := by
  have h := C24_sample_readable v
  have hr : Readable Sample.env v { Sample.contact with organizations := [], nickNames := [] } :=
    { h with organizations := fun o ho => (List.not_mem_nil ho).elim, nickNames := fun _ t ht => (List.not_mem_nil ht).elim }
  refine ⟨_, _, hr, rfl, by decide, rfl, C24_contact _ _ _ Sample.ids_inj _ hr C24_sample_uid, ?_⟩
  cases v <;> decide +kernel

end KC
