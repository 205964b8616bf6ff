import Verif.Lemmas.LdifExport
/-
  The LDIF export of a contact as a list of attributes with values.
-/
namespace KC
open KC.Spec

/-- The text for some attributes. -/
def pairsText (ps : List (QString × QString)) : QString := ps.flatMap fun p => ldifOut p.1 p.2

theorem pairsText_append (a b : List (QString × QString)) : pairsText (a ++ b) = pairsText a ++ pairsText b := by simp [pairsText]
theorem pairsText_cons (f v : QString) (b : List (QString × QString)) : pairsText ((f, v) :: b) = ldifOut f v ++ pairsText b := rfl
theorem pairsText_nil : pairsText [] = [] := rfl
theorem ldifOut_nil (f : QString) : ldifOut f [] = [] := rfl

/-- The e-mail addresses after the first. -/
def emailPairs (es : List QString) : List (QString × QString) :=
  match es.drop 1 with
  | [] => []
  | e :: t => (q! "mozillasecondemail", e) :: t.map fun e => (q! "othermailbox", e)

/-- The first two lines of a street. -/
def streetLines (s : QString) : QString × QString := ((splitOn (qc! '\n') s).getD 0 [], (splitOn (qc! '\n') s).getD 1 [])

/-- The text for a revision. -/
def revisionText (d : QDateTime) : QString := match d with | some d => dateToVCardString d | none => []
/-- The texts for a birth date: year, month and day. -/
def birthTexts (d : QDateTime) : QString × QString × QString :=
  match d with
  | some d => (if 0 < d.date.1 then dec d.date.1.toNat else [], dec d.date.2.1, dec d.date.2.2)
  | none => ([], [], [])

/-- The attributes before the e-mail addresses after the first. -/
def ldifPairs1 (c : Contact) : List (QString × QString) :=
  [(q! "objectclass", q! "top"), (q! "objectclass", q! "person"), (q! "objectclass", q! "organizationalPerson"),
   (q! "givenname", c.givenName), (q! "sn", c.familyName), (q! "cn", simplified c.formattedName), (q! "uid", c.uid),
   (q! "nickname", c.text .nickName), (q! "xmozillanickname", c.text .nickName), (q! "mozillanickname", c.text .nickName),
   (q! "mail", c.preferredEmail)]

/-- The attributes after them. -/
def ldifPairs2 (E : LdifEnv) (fresh : QString) (c : Contact) : List (QString × QString) :=
  let home := c.address fresh 16
  let work := c.address fresh 32
  [(q! "telephonenumber", (c.phoneNumber fresh 2).number), (q! "facsimiletelephonenumber", (c.phoneNumber fresh 32).number),
   (q! "homephone", (c.phoneNumber fresh 1).number), (q! "mobile", (c.phoneNumber fresh 64).number), (q! "cellphone", (c.phoneNumber fresh 64).number),
   (q! "pager", (c.phoneNumber fresh 8192).number), (q! "pagerphone", (c.phoneNumber fresh 8192).number),
   (q! "streethomeaddress", home.street), (q! "postalcode", work.postalCode), (q! "postofficebox", work.postOfficeBox),
   (q! "homepostaladdress", (streetLines home.street).1), (q! "mozillahomepostaladdress2", (streetLines home.street).2),
   (q! "mozillahomelocalityname", home.locality), (q! "mozillahomestate", home.region), (q! "mozillahomepostalcode", home.postalCode),
   (q! "mozillahomecountryname", E.countryName home.country), (q! "locality", work.locality), (q! "streetaddress", work.street),
   (q! "street", (streetLines work.street).1), (q! "mozillaworkstreet2", (streetLines work.street).2),
   (q! "countryname", E.countryName work.country), (q! "l", work.locality), (q! "c", E.countryName work.country), (q! "st", work.region),
   (q! "title", c.text .title), (q! "vocation", c.prefix_), (q! "ou", c.text .role), (q! "o", c.text .organization),
   (q! "organization", c.text .organization), (q! "organizationname", c.text .organization), (q! "department", departmentOf c),
   (q! "workurl", E.urlDisplay c.url.url), (q! "homeurl", E.urlDisplay c.url.url), (q! "mozillahomeurl", E.urlDisplay c.url.url),
   (q! "description", c.note), (q! "modifytimestamp", revisionText c.revision), (q! "birthyear", (birthTexts c.birthday).1),
   (q! "birthmonth", (birthTexts c.birthday).2.1), (q! "birthday", (birthTexts c.birthday).2.2)]

/-- All attributes of an exported contact. -/
def ldifPairs (E : LdifEnv) (fresh : QString) (c : Contact) : List (QString × QString) :=
  ldifPairs1 c ++ emailPairs c.emailAddresses ++ ldifPairs2 E fresh c

/-- The value of the distinguished name. -/
def ldifDn (c : Contact) : QString := q! "cn=" ++ simplified c.formattedName ++ q! ",mail=" ++ c.preferredEmail

theorem ldifEmails_rest (l : List QString) : ∀ i, ldifEmails (i + 2) l = pairsText (l.map fun e => (q! "othermailbox", e)) := by
  induction l with
  | nil => intro i; rfl
  | cons e l ih =>
    intro i
    have := ih (i + 1)
    rw [ldifEmails, List.map_cons, pairsText_cons, ← this]
    rw [if_neg (by omega), if_neg (by omega)]

theorem ldifEmails_pairs (l : List QString) : ldifEmails 0 l = pairsText (emailPairs l) := by
  match l with
  | [] => rfl
  | [e] => rfl
  | e :: f :: l =>
    have := ldifEmails_rest l 0
    simp only [ldifEmails, emailPairs, List.drop_succ_cons, List.drop_zero, pairsText_cons, ← this]
    rfl

theorem ldifStreets_pairs (f g s : QString) : ldifStreets f g s = ldifOut f (streetLines s).1 ++ ldifOut g (streetLines s).2 := by
  unfold ldifStreets streetLines
  dsimp only
  cases h : splitOn (qc! '\n') s with
  | nil => exact absurd h (splitOn_ne_nil _ _)
  | cons x l =>
    cases l with
    | nil => simp [ldifOut_nil]
    | cons y l => simp

theorem addresseeToLDIF_pairs (E : LdifEnv) (fresh : QString) (c : Contact) (str : QString) (h : c.empty = false) :
    addresseeToLDIF E fresh c str = (true, str ++ (ldifOut (q! "dn") (ldifDn c) ++ pairsText (ldifPairs E fresh c) ++ q! "\n")) := by
  have o1 : q! "objectclass: top\n" = ldifOut (q! "objectclass") (q! "top") := by decide
  have o2 : q! "objectclass: person\n" = ldifOut (q! "objectclass") (q! "person") := by decide
  have o3 : q! "objectclass: organizationalPerson\n" = ldifOut (q! "objectclass") (q! "organizationalPerson") := by decide
  have hd : (if !c.department.isEmpty then ldifOut (q! "department") c.department
          else ldifOut (q! "department") (c.custom (q! "KADDRESSBOOK") (q! "X-Department"))) = ldifOut (q! "department") (departmentOf c) := by
    unfold departmentOf
    cases c.department.isEmpty <;> rfl
  have hr : ldifRevision c.revision = ldifOut (q! "modifytimestamp") (revisionText c.revision) := by
    cases c.revision <;> rfl
  have hb : ldifBirthday c.birthday = ldifOut (q! "birthyear") (birthTexts c.birthday).1 ++ ldifOut (q! "birthmonth") (birthTexts c.birthday).2.1
              ++ ldifOut (q! "birthday") (birthTexts c.birthday).2.2 := by
    cases c.birthday with
    | none => rfl
    | some d =>
      simp only [birthTexts, ldifBirthday]
      split <;> rfl
  unfold addresseeToLDIF
  rw [if_neg (by rw [h]; decide), hd, hr, hb, o1, o2, o3]
  dsimp only
  rw [ldifEmails_pairs, ldifStreets_pairs, ldifStreets_pairs]
  unfold ldifPairs
  rw [pairsText_append, pairsText_append]
  generalize pairsText (emailPairs c.emailAddresses) = em
  unfold ldifPairs1 ldifPairs2 ldifDn
  simp only [pairsText_cons, pairsText_nil, List.append_assoc, List.append_nil, List.nil_append]

/-! ### as lines -/

/-- The names used. -/
def ldifOutNames : List QString :=
  (ldifPairs1 (Contact.new [])).map (·.1) ++ [q! "mozillasecondemail", q! "othermailbox"] ++ (ldifPairs2 sampleLdifEnv [] (Contact.new [])).map (·.1) ++ [q! "member"]

/-- An attribute name of lower case letters and digits. -/
def plainName (s : QString) : Bool :=
  !s.isEmpty && s.all fun c => (97 ≤ c && c ≤ 122) || (48 ≤ c && c ≤ 57)

theorem plainName_chars {s : QString} (h : plainName s = true) : s ≠ [] ∧ ∀ c ∈ s, 48 ≤ c.toNat ∧ c.toNat ≤ 122 ∧ c.toNat ≠ 58 := by
  simp only [plainName, Bool.and_eq_true, Bool.not_eq_true', List.isEmpty_eq_false_iff, List.all_eq_true, Bool.or_eq_true, decide_eq_true_eq] at h
  refine ⟨h.1, fun c hc => ?_⟩
  have := h.2 c hc
  simp only [UInt16.le_iff_toNat_le] at this
  have e1 : (97 : UInt16).toNat = 97 := rfl
  have e2 : (122 : UInt16).toNat = 122 := rfl
  have e3 : (48 : UInt16).toNat = 48 := rfl
  have e4 : (57 : UInt16).toNat = 57 := rfl
  omega

theorem ascii_wellFormed {s : QString} (h : ∀ c ∈ s, c.toNat < 128) : WellFormed s := by
  refine ⟨s.map fun c => Char.ofNat c.toNat, ?_⟩
  induction s with
  | nil => rfl
  | cons c s ih =>
    have hc := h c (by simp)
    have e : utf16 (Char.ofNat c.toNat :: s.map fun c => Char.ofNat c.toNat) = utf16Char (Char.ofNat c.toNat) ++ utf16 (s.map fun c => Char.ofNat c.toNat) := by
      simp [utf16]
    rw [List.map_cons, e, ← ih (fun x hx => h x (by simp [hx]))]
    have : ∀ n : Fin 128, utf16Char (Char.ofNat n.val) = [UInt16.ofNat n.val] := by decide
    rw [this ⟨c.toNat, hc⟩]
    simp

theorem plainName_ldif {s : QString} (h : plainName s = true) : LdifName s := by
  obtain ⟨h0, h1⟩ := plainName_chars h
  have lit : ∀ x : UInt16, x.toNat < 48 ∨ 122 < x.toNat ∨ x.toNat = 58 → x ∉ s := by
    intro x hx hm
    have := h1 x hm
    omega
  refine ⟨h0, ascii_wellFormed fun c hc => by have := h1 c hc; omega, ?_, lit _ (by decide), lit _ (by decide), lit _ (by decide), ?_, ?_, ?_⟩
  · intro he; exact lit 0xFEFF (by decide) (List.mem_of_mem_head? he)
  · intro he; exact lit (qc! '#') (by decide) (List.mem_of_mem_head? he)
  · intro c he ha
    have := h1 c (List.mem_of_mem_head? he)
    rcases ha with rfl | ⟨_, ha⟩
    · exact absurd this.1 (by decide)
    · have := UInt16.le_iff_toNat_le.1 ha
      have e : (13 : UInt16).toNat = 13 := rfl
      omega
  · intro c he ha
    have := h1 c (List.mem_of_mem_getLast? he)
    rcases ha with rfl | ⟨_, ha⟩
    · exact absurd this.1 (by decide)
    · have := UInt16.le_iff_toNat_le.1 ha
      have e : (13 : UInt16).toNat = 13 := rfl
      omega

theorem plainName_ascii {s : QString} (h : plainName s = true) : ∀ b ∈ toUtf8 s, b.toNat < 128 := by
  obtain ⟨_, h1⟩ := plainName_chars h
  have key : ∀ s : QString, (∀ c ∈ s, c.toNat < 128) → ∀ b ∈ toUtf8 s, b.toNat < 128 := by
    intro s hs
    fun_induction toUtf8 s with
    | case1 => simp
    | case2 u =>
      intro b hb
      have hu := hs u (by simp)
      simp only [utf8Unit, if_pos hu, List.mem_singleton] at hb
      subst hb
      simp; omega
    | case3 u v t hsur _ => exact absurd (hs u (by simp)) (by omega)
    | case4 u v t _ ih =>
      intro b hb
      have hu := hs u (by simp)
      rcases List.mem_append.1 hb with hb | hb
      · simp only [utf8Unit, if_pos hu, List.mem_singleton] at hb
        subst hb
        simp; omega
      · exact ih (fun x hx => hs x (by simp [List.mem_cons.1 hx])) b hb
  exact key s (fun c hc => by have := h1 c hc; omega)

theorem plainName_lower {s : QString} (h : plainName s = true) : toLowerQ s = s := by
  obtain ⟨_, h1⟩ := plainName_chars h
  simp only [plainName, Bool.and_eq_true, List.all_eq_true, Bool.or_eq_true, decide_eq_true_eq] at h
  unfold toLowerQ
  conv => rhs; rw [← List.map_id s]
  apply List.map_congr_left
  intro c hc
  have h2 := h.2 c hc
  simp only [UInt16.le_iff_toNat_le] at h2
  have e1 : (97 : UInt16).toNat = 97 := rfl
  have e3 : (57 : UInt16).toNat = 57 := rfl
  have e4 : (122 : UInt16).toNat = 122 := rfl
  have e5 : (90 : UInt16).toNat = 90 := rfl
  have e6 : (65 : UInt16).toNat = 65 := rfl
  have e7 : (0xC0 : UInt16).toNat = 192 := rfl
  simp only [lowerQ, UInt16.le_iff_toNat_le, id]
  rw [if_neg]
  rintro (h3 | h3)
  · omega
  · omega

/-- The attributes that are written: those with a value. -/
def written (ps : List (QString × QString)) : List (QString × QString) := ps.filter fun p => !p.2.isEmpty

/-- The lines of some attributes, as text and unfolded. -/
def pairLines (ps : List (QString × QString)) : List (QByteArray × QByteArray) :=
  (written ps).map fun p => (assembleLine p.1 (toUtf8 p.2) 72 false, plainLine p.1 (toUtf8 p.2))

theorem toLatin1_append (a b : QString) : toLatin1 (a ++ b) = toLatin1 a ++ toLatin1 b := by simp [toLatin1]

theorem pairsText_lines (ps : List (QString × QString)) (h : ∀ p ∈ ps, plainName p.1 = true ∧ p.1 ≠ q! "dn") :
    toLatin1 (pairsText ps) = textOf ((pairLines ps).map Prod.fst) := by
  induction ps with
  | nil => rfl
  | cons p ps ih =>
    obtain ⟨f, v⟩ := p
    have hp := h (f, v) (by simp)
    rw [pairsText_cons, toLatin1_append, ih (fun q hq => h q (by simp [hq]))]
    unfold ldifOut pairLines written
    cases hv : v.isEmpty with
    | true => simp [hv, toLatin1]
    | false =>
      simp only [List.filter_cons, hv, Bool.not_false, if_true, Bool.false_eq_true, if_false, List.map_cons]
      rw [toLatin1_append, latin_fromUtf8_ascii (assembleLine_ascii (plainName_ascii hp.1) (by rw [plainName_lower hp.1]; exact hp.2) _ _)]
      simp [textOf]
      rfl

theorem pairLines_text (ps : List (QString × QString)) (h : ∀ p ∈ ps, plainName p.1 = true ∧ p.1 ≠ q! "dn") : ∀ l ∈ pairLines ps, LineText l.1 l.2 := by
  intro l hl
  simp only [pairLines, List.mem_map] at hl
  obtain ⟨p, hp, rfl⟩ := hl
  exact assembleLine_text (plainName_ldif (h p (List.mem_filter.1 hp).1).1) (toUtf8 p.2) 72

theorem emailPairs_names (es : List QString) : ∀ p ∈ emailPairs es, p.1 = q! "mozillasecondemail" ∨ p.1 = q! "othermailbox" := by
  intro p hp
  unfold emailPairs at hp
  split at hp
  · simp at hp
  · rcases List.mem_cons.1 hp with rfl | hp
    · exact .inl rfl
    · obtain ⟨e, _, rfl⟩ := List.mem_map.1 hp
      exact .inr rfl

theorem ldifPairs_names (E : LdifEnv) (fresh : QString) (c : Contact) : ∀ p ∈ ldifPairs E fresh c, plainName p.1 = true ∧ p.1 ≠ q! "dn" := by
  have k1 : ∀ f ∈ (ldifPairs1 c).map (·.1), plainName f = true ∧ f ≠ q! "dn" := by
    have : (ldifPairs1 c).map (·.1) = (ldifPairs1 (Contact.new [])).map (·.1) := rfl
    rw [this]; decide
  have k2 : ∀ f ∈ (ldifPairs2 E fresh c).map (·.1), plainName f = true ∧ f ≠ q! "dn" := by
    have : (ldifPairs2 E fresh c).map (·.1) = (ldifPairs2 sampleLdifEnv [] (Contact.new [])).map (·.1) := rfl
    rw [this]; decide
  intro p hp
  unfold ldifPairs at hp
  simp only [List.mem_append] at hp
  rcases hp with (hp | hp) | hp
  · exact k1 _ (List.mem_map.2 ⟨p, hp, rfl⟩)
  · rcases emailPairs_names _ p hp with e | e <;> rw [e] <;> decide
  · exact k2 _ (List.mem_map.2 ⟨p, hp, rfl⟩)

/-! ### whole documents -/

/-- An entry: the value of the distinguished name, if there is one, and the attributes. -/
structure LdifEntry where
  dn : Option QString
  pairs : List (QString × QString)

/-- The text of an entry. -/
def LdifEntry.text (e : LdifEntry) : QString :=
  (match e.dn with | some d => ldifOut (q! "dn") d | none => []) ++ pairsText e.pairs ++ q! "\n"

/-- Entries that are read back. -/
structure LdifEntry.OK (e : LdifEntry) : Prop where
  dn : e.dn ≠ some []
  names : ∀ p ∈ e.pairs, plainName p.1 = true ∧ p.1 ≠ q! "dn"
  values : ∀ p ∈ e.pairs, LdifValue p.2
  first : ∃ p r, written e.pairs = p :: r ∧ p.1 ∉ ldifKeywords

/-- The lines of an entry. -/
theorem entry_lines (e : LdifEntry) (h : e.OK) : ∃ ls : List (QByteArray × QByteArray), (∀ p ∈ ls, LineText p.1 p.2) ∧
    toLatin1 e.text = textOf (ls.map Prod.fst) ∧
    ∀ s, Ready s → (∃ dn : List LdifItem, (∀ i ∈ dn, i.kind = .newEntry) ∧ (ldifRun s (ls.map Prod.snd)).1.map LdifEvent.short =
        dn ++ (written e.pairs).map (fun p => ⟨.item, p.1, toUtf8 p.2, false⟩) ++ [⟨.endEntry, [], [], false⟩]) ∧ Ready (ldifRun s (ls.map Prod.snd)).2 := by
  obtain ⟨p, r, hf, hk⟩ := h.first
  have hpm : p ∈ e.pairs := by
    have : p ∈ written e.pairs := by rw [hf]; simp
    exact (List.mem_filter.1 this).1
  have hpv : p.2 ≠ [] := by
    have : p ∈ written e.pairs := by rw [hf]; simp
    simpa using (List.mem_filter.1 this).2
  have hrm : ∀ q ∈ r, q ∈ e.pairs := by
    intro q hq
    have : q ∈ written e.pairs := by rw [hf]; simp [hq]
    exact (List.mem_filter.1 this).1
  have hbl : ∀ q ∈ [(([] : QByteArray), ([] : QByteArray))], LineText q.1 q.2 := by
    intro q hq; simp at hq; subst hq; exact .inl ⟨rfl, rfl⟩
  have hpl := pairLines_text e.pairs h.names
  have hn : LdifName p.1 := plainName_ldif (h.names p hpm).1
  -- what the attributes and the empty line give
  have attrs : ∀ s, Ready s → (ldifRun s ((pairLines e.pairs ++ [([], [])]).map Prod.snd)).1.map LdifEvent.short =
      (written e.pairs).map (fun p => ⟨.item, p.1, toUtf8 p.2, false⟩) ++ [⟨.endEntry, [], [], false⟩] ∧
      Ready (ldifRun s ((pairLines e.pairs ++ [([], [])]).map Prod.snd)).2 := by
    intro s hs
    have e1 : (pairLines e.pairs ++ [([], [])]).map Prod.snd = plainLine p.1 (toUtf8 p.2) :: (r.map fun q => plainLine q.1 (toUtf8 q.2)) ++ [[]] := by
      simp [pairLines, hf]
    have h1 := ready_item hs (splitLine_plain hn (toUtf8 p.2)) hn.nonempty (toUtf8_ne hpv) (by rw [plainName_lower (h.names p hpm).1]; exact hk)
    have h2 := ldifRun_attrs (r.map fun q => (q.1, toUtf8 q.2)) (by
      intro a ha
      obtain ⟨q, hq, rfl⟩ := List.mem_map.1 ha
      exact plainName_ldif (h.names q (hrm q hq)).1) h1.2
    rw [List.map_map] at h2
    have h3 := inEntry_end h2.2
    rw [e1, hf]
    simp only [List.cons_append, ldifRun, ldifRun_append, List.map_append, List.map_cons]
    rw [h1.1]
    refine ⟨?_, h3.2⟩
    have h21 := h2.1
    have h31 := h3.1
    simp only [Function.comp_def, List.map_map] at h21 h31 ⊢
    rw [h21]
    try rw [h31]
    simp
  have hnl : toLatin1 (q! "\n") = textOf [[]] := by decide
  have htail : toLatin1 (pairsText e.pairs ++ q! "\n") = textOf ((pairLines e.pairs ++ [([], [])]).map Prod.fst) := by
    rw [toLatin1_append, pairsText_lines e.pairs h.names, hnl]
    simp [textOf]
  cases hdn : e.dn with
  | none =>
    refine ⟨pairLines e.pairs ++ [([], [])], ?_, ?_, ?_⟩
    · intro q hq
      rcases List.mem_append.1 hq with hq | hq
      · exact hpl q hq
      · exact hbl q hq
    · simp only [LdifEntry.text, hdn, List.nil_append]
      exact htail
    · intro s hs
      exact ⟨⟨[], by simp, by rw [(attrs s hs).1, List.nil_append]⟩, (attrs s hs).2⟩
  | some d =>
    obtain ⟨u, v, hu, hv⟩ := dn_line (toUtf8 d) 72
    have hd : d.isEmpty = false := by
      cases d with
      | nil => exact absurd hdn h.dn
      | cons => rfl
    refine ⟨(toLatin1 (fromUtf8 (assembleLine (q! "dn") (toUtf8 d) 72 false)), u) :: (pairLines e.pairs ++ [([], [])]), ?_, ?_, ?_⟩
    · intro q hq
      rcases List.mem_cons.1 hq with rfl | hq
      · exact hu
      rcases List.mem_append.1 hq with hq | hq
      · exact hpl q hq
      · exact hbl q hq
    · have : e.text = ldifOut (q! "dn") d ++ (pairsText e.pairs ++ q! "\n") := by
        simp only [LdifEntry.text, hdn, List.append_assoc]
      rw [this, toLatin1_append, htail, ldifOut, hd]
      simp only [Bool.false_eq_true, if_false, toLatin1_append]
      have : toLatin1 (q! "\n") = [10] := by decide
      rw [this]
      simp [textOf]
    · intro s hs
      have h1 := ready_dn hs hv
      have h2 := attrs _ h1.2
      have e1 : (ldifRun s (((toLatin1 (fromUtf8 (assembleLine (q! "dn") (toUtf8 d) 72 false)), u) :: (pairLines e.pairs ++ [([], [])])).map Prod.snd)) =
          (ldifEmit (s.proc u).1 (s.proc u).2 ++ (ldifRun (s.proc u).2 ((pairLines e.pairs ++ [([], [])]).map Prod.snd)).1,
            (ldifRun (s.proc u).2 ((pairLines e.pairs ++ [([], [])]).map Prod.snd)).2) := rfl
      rw [e1]
      refine ⟨⟨[⟨.newEntry, q! "dn", v, false⟩], by simp, ?_⟩, h2.2⟩
      rw [List.map_append, h1.1, h2.1]
      simp

/-- What the attributes of an entry do. -/
def evalPairs (E : LdifEnv) (ids : Nat → QString) (s : LdifState) (ps : List (QString × QString)) : LdifState :=
  (written ps).foldl (fun s p => evaluatePair E ids s p.1 p.2) s

/-- What the entries of a document give, one after the other. -/
def evalEntries (E : LdifEnv) (ids : Nat → QString) (now : QDateTime) : List LdifEntry → Nat → Int × Int × Int → List Contact × List Group
  | [], _, _ => ([], [])
  | e :: es, n, b =>
    let s := evalPairs E ids (ldifFresh E ids now n b.2.2 b.2.1 b.1) e.pairs
    let r := evalEntries E ids now es s.next s.birth
    ((ldifResult s).1 ++ r.1, (ldifResult s).2 ++ r.2)

theorem step_items (E : LdifEnv) (ids : Nat → QString) (now : QDateTime) (ps : List (QString × QString)) (h : ∀ p ∈ ps, plainName p.1 = true ∧ LdifValue p.2)
    (x : LdifState × (List Contact × List Group)) :
    ((written ps).map fun p => (⟨.item, p.1, toUtf8 p.2, false⟩ : LdifItem)).foldl (ldifStep E ids now) x = (evalPairs E ids x.1 ps, x.2) := by
  unfold evalPairs
  have hw : ∀ p ∈ written ps, plainName p.1 = true ∧ LdifValue p.2 := fun p hp => h p (List.mem_filter.1 hp).1
  generalize written ps = l at hw
  induction l generalizing x with
  | nil => rfl
  | cons p l ih =>
    have hp := hw p (by simp)
    simp only [List.map_cons, List.foldl_cons]
    have e : ldifStep E ids now x ⟨.item, p.1, toUtf8 p.2, false⟩ = (evaluatePair E ids x.1 p.1 p.2, x.2) := by
      simp only [ldifStep]
      rw [plainName_lower hp.1, C11_utf8_roundtrip_partial p.2 hp.2.1 hp.2.2]
    rw [e]
    exact ih _ (fun q hq => hw q (by simp [hq]))

theorem step_newEntry (E : LdifEnv) (ids : Nat → QString) (now : QDateTime) (dn : List LdifItem) (h : ∀ i ∈ dn, i.kind = .newEntry)
    (x : LdifState × (List Contact × List Group)) : dn.foldl (ldifStep E ids now) x = x := by
  induction dn generalizing x with
  | nil => rfl
  | cons i dn ih =>
    have hi := h i (by simp)
    have e : ldifStep E ids now x i = x := by simp only [ldifStep, hi]
    rw [List.foldl_cons, e]
    exact ih (fun j hj => h j (by simp [hj])) x

/-- The import of exported entries. -/
theorem import_entries (E : LdifEnv) (ids : Nat → QString) (now : QDateTime) (es : List LdifEntry) (h : ∀ e ∈ es, e.OK) :
    ldifToAddressee E ids now (es.flatMap LdifEntry.text) = some (evalEntries E ids now es 0 (-1, -1, -1)) := by
  have key : ∀ es : List LdifEntry, (∀ e ∈ es, e.OK) → ∃ ls : List (QByteArray × QByteArray), (∀ p ∈ ls, LineText p.1 p.2) ∧
      toLatin1 (es.flatMap LdifEntry.text) = textOf (ls.map Prod.fst) ∧
      ∀ s, Ready s → Ready (ldifRun s (ls.map Prod.snd)).2 ∧ ∀ n b out, (((ldifRun s (ls.map Prod.snd)).1.map LdifEvent.short).foldl (ldifStep E ids now)
        (ldifFresh E ids now n b.2.2 b.2.1 b.1, out)).2 = (out.1 ++ (evalEntries E ids now es n b).1, out.2 ++ (evalEntries E ids now es n b).2) := by
    intro es
    induction es with
    | nil => intro _; exact ⟨[], by simp, rfl, fun s hs => ⟨hs, by intro n b out; simp [ldifRun, evalEntries]⟩⟩
    | cons e es ih =>
      intro h
      obtain ⟨ls, h1, h2, h3⟩ := ih (fun x hx => h x (by simp [hx]))
      have he := h e (by simp)
      obtain ⟨ms, m1, m2, m3⟩ := entry_lines e he
      refine ⟨ms ++ ls, ?_, ?_, ?_⟩
      · intro p hp
        rcases List.mem_append.1 hp with hp | hp
        · exact m1 p hp
        · exact h1 p hp
      · rw [List.flatMap_cons, toLatin1_append, m2, h2]
        simp [textOf]
      · intro s hs
        obtain ⟨⟨dn, hdn, hit⟩, hrd⟩ := m3 s hs
        have h4 := h3 _ hrd
        simp only [List.map_append, ldifRun_append]
        refine ⟨h4.1, ?_⟩
        intro n b out
        rw [List.foldl_append, hit, List.foldl_append, List.foldl_append, step_newEntry E ids now dn hdn,
          step_items E ids now e.pairs (fun p hp => ⟨(he.names p hp).1, he.values p hp⟩)]
        simp only [List.foldl_cons, List.foldl_nil, ldifStep]
        have := h4.2 (evalPairs E ids (ldifFresh E ids now n b.2.2 b.2.1 b.1) e.pairs).next (evalPairs E ids (ldifFresh E ids now n b.2.2 b.2.1 b.1) e.pairs).birth
          (out.1 ++ (ldifResult (evalPairs E ids (ldifFresh E ids now n b.2.2 b.2.1 b.1) e.pairs)).1,
           out.2 ++ (ldifResult (evalPairs E ids (ldifFresh E ids now n b.2.2 b.2.1 b.1) e.pairs)).2)
        simp only [LdifState.birth] at this
        rw [this]
        simp [evalEntries, List.append_assoc, LdifState.birth]
  obtain ⟨ls, h1, h2, h3⟩ := key es h
  obtain ⟨evs, he⟩ := C42_readable (toLatin1 (es.flatMap LdifEntry.text))
  rw [ldifToAddressee_items E ids now _ evs he]
  rw [h2] at he
  rw [short_of_noLine (document_lines h1 evs he), ldifRun_append]
  have hb := ready_blanks (h3 {} ready_new).1 2
  have hb1 : (ldifRun (ldifRun {} (ls.map Prod.snd)).2 [[], []]).1 = [] := hb.1
  rw [hb1, List.append_nil]
  have := (h3 {} ready_new).2 0 (-1, -1, -1) ([], [])
  simp only at this
  rw [this]
  simp

end KC
