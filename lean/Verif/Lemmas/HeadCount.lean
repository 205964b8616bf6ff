import Verif.Lemmas.HeadSections
/-
  Helper lemmas: how many lines of each property a contact has.
-/
namespace KC
open KC.Spec

variable {E : ToolEnv} {v : Version} {c : Contact}

private theorem adr_count (n : QString) (hn : n = q! "ADR" ∨ n = q! "LABEL") (as : List Address) :
    ((as.flatMap (addressLines E v)).filter fun l => decide (l.identifier = n)).length ≤ as.length := by
  induction as with
  | nil => simp
  | cons a as ih =>
    rw [List.flatMap_cons, List.filter_append, List.length_append, List.length_cons]
    have : ((addressLines E v a).filter fun l => decide (l.identifier = n)).length ≤ 1 := by
      unfold addressLines
      simp only [List.filter_append, List.length_append]
      have e1 : ∀ (Q : Prop) [Decidable Q] (l : VCardLine), ((if Q then [l] else []).filter fun l => decide (l.identifier = n)).length ≤ if l.identifier = n then 1 else 0 := by
        intro Q _ l
        split
        · by_cases e : l.identifier = n <;> simp [e]
        · simp
      have e2 : ∀ (Q : Prop) [Decidable Q] (l : VCardLine), ((if Q then [] else [l]).filter fun l => decide (l.identifier = n)).length ≤ if l.identifier = n then 1 else 0 := by
        intro Q _ l
        split
        · simp
        · by_cases e : l.identifier = n <;> simp [e]
      refine Nat.le_trans (Nat.add_le_add (e1 _ _) (e2 _ _)) ?_
      rw [id_tool, id_tool, id_encoded, id_text]
      have : ∀ (Q R : Prop) [Decidable Q] [Decidable R] (l : VCardLine) (k1 v1 k2 v2 : QString),
          (if R then (if Q then l.addParameter k1 v1 else l).addParameter k2 v2 else if Q then l.addParameter k1 v1 else l).identifier = l.identifier := by
        intro Q R _ _ l k1 v1 k2 v2
        (repeat' split) <;> rfl
      rw [this, id_encoded, id_text]
      rcases hn with rfl | rfl <;> decide
    omega

private theorem len_ite {Q : Prop} [Decidable Q] {α : Type} {f : α → VCardLine} {m : List α} : (if Q then m.map f else []).length ≤ m.length := by
  split <;> simp

theorem contact_count (E : ToolEnv) (v : Version) (ex : Bool) (c : Contact) (n : QString) (k : Nat) (hn : (n, k) ∈ entries c) (hg : ∀ g ∈ c.fieldGroups, g.fieldGroupName ≠ n) :
    ((contactLines E v ex c).filter fun l => decide (l.identifier = n)).length ≤ k := by
  unfold entries at hn
  rcases List.mem_append.1 hn with hn | hn
  rotate_left
  · obtain ⟨m, hm, e⟩ := List.mem_map.1 hn
    cases e
    exact contact_single E v ex c _ hm hg
  have hn' : n ∈ [q! "ADR", q! "LABEL", q! "EMAIL", q! "TEL", q! "ORG", q! "ROLE", q! "TITLE", q! "NICKNAME", q! "LANG", q! "CLIENTPIDMAP", q! "KEY", q! "URL", q! "IMPP",
      q! "MEMBER", q! "SOURCE", q! "SOUND"] := List.mem_map_of_mem (f := (·.1)) hn
  have none_ : ∀ (S : List VCardLine), (∀ l ∈ S, l.identifier ≠ n) → S.filter (fun l => decide (l.identifier = n)) = [] := by
    intro S h
    rw [List.filter_eq_nil_iff]
    intro l hl
    simp [h l hl]
  have hx : n ∉ [q! "CALADRURI", q! "CALURI", q! "FBURL"] ∧ (n ≠ q! "LOGO" ∧ n ≠ q! "PHOTO" ∧ ¬ q! "LOGO:data:image/" <+: n ∧ ¬ q! "PHOTO:data:image/" <+: n) ∧
      ¬ q! "X-" <+: n ∧ n ≠ q! "ANNIVERSARY" ∧ n ≠ q! "RELATED" := by
    generalize n = m at hn'
    revert m
    decide +kernel
  obtain ⟨x1, ⟨n1, n2, n3, n4⟩, m1, m2, m3⟩ := hx
  have e2 : (calendarLines E v c).filter (fun l => decide (l.identifier = n)) = [] := none_ _ fun l hl e => x1 (e ▸ names_calendar E v c l hl)
  have e3 : ∀ id, id = q! "LOGO" ∨ id = q! "PHOTO" → ∀ p extra, (pictureLines E v id p extra).filter (fun l => decide (l.identifier = n)) = [] := by
    intro id hid p extra
    refine none_ _ fun l hl e => ?_
    rcases picture_names E v id p extra l hl with h | ⟨_, h⟩
    · rw [e] at h
      rcases hid with rfl | rfl
      · exact n1 h
      · exact n2 h
    · rw [e] at h
      rcases hid with rfl | rfl
      · exact n3 h
      · exact n4 h
  have e4 : (customLines E v ex c).filter (fun l => decide (l.identifier = n)) = [] := none_ _ fun l hl e => by
    rcases custom_names E v ex c l hl with h | ⟨_, h | h⟩
    · exact m1 (e ▸ h)
    · exact m2 (e.symm.trans h)
    · exact m3 (e.symm.trans h)
  have e5 : (groupLines c).filter (fun l => decide (l.identifier = n)) = [] := none_ _ fun l hl e => by
    obtain ⟨g, hg', rfl⟩ := List.mem_map.1 hl
    rw [id_adds] at e
    exact hg g hg' e
  have l1 : (memberLines v c).length ≤ c.members.length := len_ite
  have l2 : (nickLines v c).length ≤ c.nickNames.length := len_ite
  have l3 : (langLines v c).length ≤ c.langs.length := len_ite
  have l4 : (pidLines v c).length ≤ c.clientPidMaps.length := len_ite
  have l5 : (soundLines v c).length ≤ c.extraSounds.length + 1 := by unfold soundLines; split <;> simp
  have l6 : (sourceLines c).length ≤ c.sources.length := by simp [sourceLines]
  have l7 : (emailLines v c).length ≤ c.emails.length := by simp [emailLines]
  have l8 : (telLines v c).length ≤ c.phoneNumbers.length := by simp [telLines]
  have l9 : (orgLines v c).length ≤ c.organizations.length := by simp [orgLines]
  have l10 : (roleLines v c).length ≤ c.roles.length := by simp [roleLines]
  have l11 : (titleLines v c).length ≤ c.titles.length := by simp [titleLines]
  have l12 : (keyLines v c).length ≤ c.keys.length := by simp [keyLines]
  have l13 : (urlLines c).length ≤ c.extraUrls.length := by simp [urlLines]
  have l14 : (imppLines c).length ≤ c.impps.length := by simp [imppLines]
  have l15 := adr_count (E := E) (v := v) (q! "ADR") (Or.inl rfl) c.addresses
  have l16 := adr_count (E := E) (v := v) (q! "LABEL") (Or.inr rfl) c.addresses
  have e1 : n ≠ q! "ADR" → n ≠ q! "LABEL" → (adrLines E v c).filter (fun l => decide (l.identifier = n)) = [] := fun a b => none_ _ fun l hl e => by
    rcases names_adr E v c l hl with h | h
    · exact a (e.symm.trans h)
    · exact b (e.symm.trans h)
  unfold contactLines contactSections
  simp only [List.flatten_cons, List.flatten_nil, List.append_nil, List.filter_append, e2, e4, e5, logoLines, photoLines, e3 _ (Or.inl rfl), e3 _ (Or.inr rfl),
    filter_named (named_version v), filter_named (named_bday v c), filter_named (named_death v c), filter_named (named_category v c), filter_named (named_member v c),
    filter_named (named_source c), filter_named (named_related c), filter_named (named_class v c), filter_named (named_lang v c), filter_named (named_pid v c),
    filter_named (named_email v c), filter_named (named_fn v c), filter_named (named_geo E v c), filter_named (named_key v c), filter_named (named_mailer v c),
    filter_named (named_n v c), filter_named (named_name v c), filter_named (named_nick v c), filter_named (named_note v c), filter_named (named_org v c),
    filter_named (named_prodid v c), filter_named (named_rev v c), filter_named (named_role v c), filter_named (named_sort v c), filter_named (named_sound v c),
    filter_named (named_tel v c), filter_named (named_title v c), filter_named (named_tz c), filter_named (named_uid c), filter_named (named_url c),
    filter_named (named_gender v c), filter_named (named_kind v c), filter_named (named_impp c)]
  clear hn'
  simp only [List.mem_cons, List.not_mem_nil, or_false, Prod.mk.injEq] at hn
  rcases hn with ⟨rfl, rfl⟩ | ⟨rfl, rfl⟩ | h
  · simp (decide := true) only [List.nil_append, List.append_nil, if_true, if_false, if_pos, if_neg]
    exact l15
  · simp (decide := true) only [List.nil_append, List.append_nil, if_true, if_false, if_pos, if_neg]
    exact l16
  rcases h with ⟨rfl, rfl⟩ | ⟨rfl, rfl⟩ | ⟨rfl, rfl⟩ | ⟨rfl, rfl⟩ | ⟨rfl, rfl⟩ | ⟨rfl, rfl⟩ | ⟨rfl, rfl⟩ | ⟨rfl, rfl⟩ | ⟨rfl, rfl⟩ | ⟨rfl, rfl⟩ | ⟨rfl, rfl⟩ | ⟨rfl, rfl⟩ |
    ⟨rfl, rfl⟩ | ⟨rfl, rfl⟩ <;> rw [e1 (by decide) (by decide)] <;>
    simp (decide := true) only [List.nil_append, List.append_nil, if_true, if_false, if_pos, if_neg] <;> assumption

/-- a line that begins with a plain name and a separator has that name, unless its name begins so -/
theorem name_of_start {n id : QString} {sep : UInt8} {rest : QByteArray} (hn : (n.all fun u => u.toNat < 256 && u ≠ qc! '?' && u ≠ qc! ';' && u ≠ qc! ':') = true)
    (hid : qc! ';' ∉ id ∧ qc! ':' ∉ id) (hs : sep = c! ';' ∨ sep = c! ':') (h' : isProperty n (toLatin1 id ++ sep :: rest) = true) : id = n := by
  simp only [isProperty, Bool.or_eq_true, List.isPrefixOf_iff_prefix] at h'
  have h : ∃ s r, (s = c! ';' ∨ s = c! ':') ∧ toLatin1 n ++ s :: r = toLatin1 id ++ sep :: rest := by
    rcases h' with ⟨r, h⟩ | ⟨r, h⟩
    · exact ⟨_, r, Or.inl rfl, by rw [← h]; simp⟩
    · exact ⟨_, r, Or.inr rfl, by rw [← h]; simp⟩
  clear h'
  obtain ⟨s, r, hs', e⟩ := h
  induction n generalizing id with
  | nil =>
    cases id with
    | nil => rfl
    | cons u id =>
      exfalso
      have e0 : s = (if u.toNat < 256 then UInt8.ofNat u.toNat else 63) := (List.cons.inj e).1
      have : u = qc! ';' ∨ u = qc! ':' := by
        split at e0
        · rename_i hlt
          have hv : s.toNat = u.toNat := by rw [e0, UInt8.toNat_ofNat']; omega
          rcases hs' with rfl | rfl
          · exact Or.inl (UInt16.toNat_inj.1 hv.symm)
          · exact Or.inr (UInt16.toNat_inj.1 hv.symm)
        · subst e0; rcases hs' with h | h <;> exact absurd h (by decide)
      rcases this with rfl | rfl
      · exact hid.1 (by simp)
      · exact hid.2 (by simp)
  | cons w n ih =>
    rw [List.all_cons, Bool.and_eq_true] at hn
    obtain ⟨hw, hn⟩ := hn
    simp only [Bool.and_eq_true, decide_eq_true_eq] at hw
    cases id with
    | nil =>
      exfalso
      have e0 : (if w.toNat < 256 then UInt8.ofNat w.toNat else 63) = sep := (List.cons.inj e).1
      rw [if_pos hw.1.1.1] at e0
      have hv : sep.toNat = w.toNat := by rw [← e0, UInt8.toNat_ofNat']; have := hw.1.1.1; omega
      rcases hs with rfl | rfl
      · exact hw.1.2 (UInt16.toNat_inj.1 hv.symm)
      · exact hw.2 (UInt16.toNat_inj.1 hv.symm)
    | cons u id =>
      have e0 : (if w.toNat < 256 then UInt8.ofNat w.toNat else 63) = (if u.toNat < 256 then UInt8.ofNat u.toNat else 63) ∧ toLatin1 n ++ s :: r = toLatin1 id ++ sep :: rest := List.cons.inj e
      rw [if_pos hw.1.1.1] at e0
      have hu : w = u := by
        have e1 := e0.1
        split at e1
        · rename_i hlt
          have := congrArg UInt8.toNat e1
          rw [UInt8.toNat_ofNat', UInt8.toNat_ofNat'] at this
          have := hw.1.1.1
          exact UInt16.toNat_inj.1 (by omega)
        · exfalso
          have := congrArg UInt8.toNat e1
          rw [UInt8.toNat_ofNat'] at this
          have h2 := hw.1.1.1
          apply hw.1.1.2
          refine UInt16.toNat_inj.1 ?_
          have h3 : (63 : UInt8).toNat = 63 := rfl
          show w.toNat = 63
          omega
      subst hu
      rw [ih hn ⟨fun hm => hid.1 (by simp [hm]), fun hm => hid.2 (by simp [hm])⟩ e0.2]

end KC
