import Verif.Props.C44
import Verif.Props.C116
/- C117: editing one thing in an exported LDIF entry changes only that thing. -/
namespace KC
open Spec

/-! ### Proof -/

/-- the attributes of an exported contact -/
private def exportedAttrs (E : LdifEnv) (fresh : QString) (c : Contact) : List (QString × QByteArray) :=
  (written (ldifPairs E fresh c)).map fun p => (p.1, toUtf8 p.2)

private theorem pairs_document (ps : List (QString × QString)) (h : ∀ p ∈ ps, plainName p.1 = true ∧ p.1 ≠ q! "dn") :
    pairsText ps = documentString (((written ps).map fun p => (p.1, toUtf8 p.2)).flatMap fun a => ldifLine 72 a.1 a.2) := by
  induction ps with
  | nil => rfl
  | cons p ps ih =>
    obtain ⟨f, v⟩ := p
    have hp := h (f, v) (by simp)
    rw [pairsText_cons, ih (fun q hq => h q (by simp [hq]))]
    unfold ldifOut written
    cases hv : v.isEmpty with
    | true => simp [hv]
    | false =>
      simp only [List.filter_cons, hv, Bool.not_false, if_true, Bool.false_eq_true, if_false, List.map_cons, List.flatMap_cons]
      rw [fromUtf8_ascii (assembleLine_ascii (plainName_ascii hp.1) (by rw [plainName_lower hp.1]; exact hp.2) _ _)]
      have e : q! "\n" = fromLatin1 (b! "\n") := by decide
      unfold documentString ldifLine
      rw [e]
      simp [fromLatin1]

private theorem exported_names (E : LdifEnv) (fresh : QString) (c : Contact) : ∀ a ∈ exportedAttrs E fresh c, plainName a.1 = true := by
  intro a ha
  obtain ⟨p, hp, rfl⟩ := List.mem_map.1 ha
  exact (ldifPairs_names E fresh c p (List.mem_filter.1 hp).1).1

private theorem exported_proper (E : LdifEnv) (fresh : QString) (c : Contact) (dn : QByteArray) : LdifRecord.Proper ⟨dn, exportedAttrs E fresh c⟩ :=
  ⟨fun a ha => plainName_ldif (exported_names E fresh c a ha), (q! "objectclass", b! "top"), _, rfl, by decide, by decide⟩

private theorem no_member (E : LdifEnv) (fresh : QString) (c : Contact) (dn : QByteArray) : ¬ LdifRecord.Has ⟨dn, exportedAttrs E fresh c⟩ (q! "member") := by
  have k1 : ∀ f ∈ (ldifPairs1 c).map (·.1), f ≠ q! "member" := by
    have : (ldifPairs1 c).map (·.1) = (ldifPairs1 (Contact.new [])).map (·.1) := rfl
    rw [this]; decide
  have k2 : ∀ f ∈ (ldifPairs2 E fresh c).map (·.1), f ≠ q! "member" := by
    have : (ldifPairs2 E fresh c).map (·.1) = (ldifPairs2 sampleLdifEnv [] (Contact.new [])).map (·.1) := rfl
    rw [this]; decide
  rintro ⟨a, ha, e⟩
  rw [plainName_lower (exported_names E fresh c a ha)] at e
  obtain ⟨p, hp, rfl⟩ := List.mem_map.1 ha
  have hp := (List.mem_filter.1 hp).1
  unfold ldifPairs at hp
  simp only [List.mem_append] at hp
  rcases hp with (hp | hp) | hp
  · exact k1 _ (List.mem_map.2 ⟨p, hp, rfl⟩) e
  · rcases emailPairs_names _ p hp with e' | e' <;> simp only [e'] at e <;> exact absurd e (by decide)
  · exact k2 _ (List.mem_map.2 ⟨p, hp, rfl⟩) e

private theorem has_value (E : LdifEnv) (fresh : QString) (c : Contact) (h : LdifReadable E c) (dn : QByteArray) (n v : QString) (hm : (n, v) ∈ ldifPairs E fresh c)
    (hv : v ≠ []) : LdifRecord.last ⟨dn, exportedAttrs E fresh c⟩ [n] ≠ [] := by
  have hall : ∀ x ∈ LdifRecord.values ⟨dn, exportedAttrs E fresh c⟩ [n], x ≠ [] := by
    intro x hx
    obtain ⟨a, ha, rfl⟩ := List.mem_map.1 hx
    obtain ⟨p, hp, rfl⟩ := List.mem_map.1 (List.mem_filter.1 ha).1
    obtain ⟨hp, he⟩ := List.mem_filter.1 hp
    have hval := readable_values E fresh c h p hp
    show fromUtf8 (toUtf8 p.2) ≠ []
    rw [C11_utf8_roundtrip_partial p.2 hval.1 hval.2]
    simpa using he
  have hne : LdifRecord.values ⟨dn, exportedAttrs E fresh c⟩ [n] ≠ [] := by
    have : fromUtf8 (toUtf8 v) ∈ LdifRecord.values ⟨dn, exportedAttrs E fresh c⟩ [n] := by
      refine List.mem_map.2 ⟨(n, toUtf8 v), List.mem_filter.2 ⟨List.mem_map.2 ⟨(n, v), List.mem_filter.2 ⟨hm, by simpa using hv⟩, rfl⟩, ?_⟩, rfl⟩
      simp [plainName_lower (ldifPairs_names E fresh c _ hm).1]
    exact List.ne_nil_of_mem this
  unfold LdifRecord.last
  rw [List.getLast?_eq_some_getLast hne]
  exact hall _ (List.getLast_mem hne)

/-- The export is imported like the same attributes behind another distinguished name. -/
private theorem export_import (E : LdifEnv) (ids : Nat → QString) (now : QDateTime) (fresh : QString) (c : Contact) (h : LdifReadable E c) :
    ldifToAddressee E ids now (addresseeToLDIF E fresh c []).2 = ldifToAddressee E ids now (documentString (LdifRecord.text 72 ⟨b! "x", exportedAttrs E fresh c⟩)) := by
  have hok := contactEntry_ok E fresh c h
  have hok' : LdifEntry.OK { dn := some (q! "x"), pairs := ldifPairs E fresh c } := { hok with dn := by simp }
  have h1 := import_entries E ids now [contactEntry E fresh c] (by simpa using hok)
  have h2 := import_entries E ids now [{ dn := some (q! "x"), pairs := ldifPairs E fresh c }] (by simpa using hok')
  have e1 : [contactEntry E fresh c].flatMap LdifEntry.text = (addresseeToLDIF E fresh c []).2 := by
    rw [addresseeToLDIF_pairs E fresh c [] h.notEmpty]
    simp [LdifEntry.text, contactEntry]
  have e2 : [({ dn := some (q! "x"), pairs := ldifPairs E fresh c } : LdifEntry)].flatMap LdifEntry.text =
      documentString (LdifRecord.text 72 ⟨b! "x", exportedAttrs E fresh c⟩) := by
    have d1 : ldifOut (q! "dn") (q! "x") = fromLatin1 (ldifLine 72 (q! "dn") (b! "x")) := by decide +kernel
    have d2 : q! "\n" = fromLatin1 (b! "\n") := by decide
    simp only [List.flatMap_cons, List.flatMap_nil, List.append_nil, LdifEntry.text]
    rw [pairs_document _ (ldifPairs_names E fresh c), d1, d2]
    unfold documentString LdifRecord.text exportedAttrs
    simp [fromLatin1]
  rw [e1] at h1
  rw [e2] at h2
  rw [h1, h2]
  rfl

private theorem exported_named (E : LdifEnv) (fresh : QString) (c : Contact) (h : LdifReadable E c) :
    LdifRecord.last ⟨b! "x", exportedAttrs E fresh c⟩ [q! "cn"] ≠ [] ∨ LdifRecord.last ⟨b! "x", exportedAttrs E fresh c⟩ [q! "sn"] ≠ [] := by
  rcases h.named with hc | hc
  · exact .inl (has_value E fresh c h _ _ _ (by simp [ldifPairs, ldifPairs1]) hc)
  · exact .inr (has_value E fresh c h _ _ _ (by simp [ldifPairs, ldifPairs1]) hc)

private theorem exported_text (E : LdifEnv) (fresh : QString) (c : Contact) (h : LdifReadable E c) : addresseeToLDIF E fresh c [] =
    (true, ldifOut (q! "dn") (ldifDn c) ++ documentString ((exportedAttrs E fresh c).flatMap fun x => ldifLine 72 x.1 x.2) ++ q! "\n") := by
  rw [addresseeToLDIF_pairs E fresh c [] h.notEmpty, pairs_document _ (ldifPairs_names E fresh c)]
  rfl

private theorem edited_attrs (E : LdifEnv) (ids : Nat → QString) (hids : ∀ i j, ids i = ids j → i = j) (hu : ∀ u, E.urlValid u = true → u ≠ []) (now : QDateTime)
    (fresh : QString) (c : Contact) (h : LdifReadable E c) :
    ∃ a : Contact, ldifToAddressee E ids now (addresseeToLDIF E fresh c []).2 = some ([a], []) ∧ LdifSurvives E c a ∧
      ∀ (s : LdifRecord) (linelen : Nat), s.Proper → ¬ s.Has (q! "member") → (s.last [q! "cn"] ≠ [] ∨ s.last [q! "sn"] ≠ []) →
        ∃ d, ldifToAddressee E ids now (documentString (s.text linelen)) = some ([d], []) ∧
          (∀ f, LdifRecord.on ⟨[], exportedAttrs E fresh c⟩ (ldifReadFrom f) = s.on (ldifReadFrom f) → SameImported E.toQtEnv a d f) ∧
          (LdifRecord.on ⟨[], exportedAttrs E fresh c⟩ homeNames = s.on homeNames → addressesOf 16 a = addressesOf 16 d) ∧
          (LdifRecord.on ⟨[], exportedAttrs E fresh c⟩ workNames = s.on workNames → addressesOf 32 a = addressesOf 32 d) := by
  obtain ⟨text, a, ht, hi, hs⟩ := C44_one_partial E ids hids now fresh c h
  rw [show text = (addresseeToLDIF E fresh c []).2 by rw [ht]] at hi
  refine ⟨a, hi, hs, fun s linelen sp sm sn => ?_⟩
  obtain ⟨a', d, h1, h2, h3, h4, h5⟩ := C116 E ids hids hu now 72 linelen ⟨b! "x", exportedAttrs E fresh c⟩ s (exported_proper E fresh c _) sp (no_member E fresh c _) sm
    (exported_named E fresh c h) sn
  rw [export_import E ids now fresh c h, h1] at hi
  simp only [Option.some.injEq, Prod.mk.injEq, and_true, List.cons.injEq] at hi
  subst hi
  exact ⟨d, h2, h3, h4, h5⟩

/-! ### The property -/

/-- **C117.** A contact LDIF can express is exported: a line with the distinguished name, the lines of attributes `attrs`, an empty line. The text is
    imported as a contact `a` with the supported fields of the exported one. Now the entry is edited in any way: attributes are left out, added,
    changed or moved, lines are folded otherwise, the distinguished name is another. A field (and each of the two addresses) has the data it has
    in `a`, unless an attribute about it was edited. -/
theorem C117 (E : LdifEnv) (ids : Nat → QString) (hids : ∀ i j, ids i = ids j → i = j) (hu : ∀ u, E.urlValid u = true → u ≠ []) (now : QDateTime)
    (fresh : QString) (c : Contact) (h : LdifReadable E c) :
    ∃ (dn : QString) (attrs : List (QString × QByteArray)) (a : Contact),
      addresseeToLDIF E fresh c [] = (true, ldifOut (q! "dn") dn ++ documentString (attrs.flatMap fun x => ldifLine 72 x.1 x.2) ++ q! "\n") ∧
      ldifToAddressee E ids now (addresseeToLDIF E fresh c []).2 = some ([a], []) ∧ LdifSurvives E c a ∧
      ∀ (s : LdifRecord) (linelen : Nat), s.Proper → ¬ s.Has (q! "member") → (s.last [q! "cn"] ≠ [] ∨ s.last [q! "sn"] ≠ []) →
        ∃ d, ldifToAddressee E ids now (documentString (s.text linelen)) = some ([d], []) ∧
          (∀ f, LdifRecord.on ⟨[], attrs⟩ (ldifReadFrom f) = s.on (ldifReadFrom f) → SameImported E.toQtEnv a d f) ∧
          (LdifRecord.on ⟨[], attrs⟩ homeNames = s.on homeNames → addressesOf 16 a = addressesOf 16 d) ∧
          (LdifRecord.on ⟨[], attrs⟩ workNames = s.on workNames → addressesOf 32 a = addressesOf 32 d) := by
  obtain ⟨a, h1, h2, h3⟩ := edited_attrs E ids hids hu now fresh c h
  exact ⟨ldifDn c, exportedAttrs E fresh c, a, exported_text E fresh c h, h1, h2, h3⟩

/-- **C117.** Some attribute lines `x` of an export, behind the first one, are replaced by other attributes `y` (or removed, or only others put in), none of
    them a name that decides whether the entry is imported. Every field that neither `x` nor `y` is about stays as it was. -/
theorem C117_edited (E : LdifEnv) (ids : Nat → QString) (hids : ∀ i j, ids i = ids j → i = j) (hu : ∀ u, E.urlValid u = true → u ≠ []) (now : QDateTime)
    (fresh : QString) (c : Contact) (h : LdifReadable E c) :
    ∃ (dn : QString) (attrs : List (QString × QByteArray)) (a : Contact),
      addresseeToLDIF E fresh c [] = (true, ldifOut (q! "dn") dn ++ documentString (attrs.flatMap fun x => ldifLine 72 x.1 x.2) ++ q! "\n") ∧
      ldifToAddressee E ids now (addresseeToLDIF E fresh c []).2 = some ([a], []) ∧ LdifSurvives E c a ∧
      ∀ (p x q y : List (QString × QByteArray)) (dn' : QByteArray) (linelen : Nat), attrs = p ++ x ++ q → p ≠ [] →
        (∀ t ∈ y, LdifName t.1 ∧ toLowerQ t.1 ≠ q! "member") → (∀ t ∈ x ++ y, toLowerQ t.1 ∉ [q! "cn", q! "sn"]) →
        ∃ d, ldifToAddressee E ids now (documentString (LdifRecord.text linelen ⟨dn', p ++ y ++ q⟩)) = some ([d], []) ∧
          ∀ f, (∀ t ∈ x ++ y, toLowerQ t.1 ∉ ldifReadFrom f) → SameImported E.toQtEnv a d f := by
  obtain ⟨a, h1, h2, h3⟩ := edited_attrs E ids hids hu now fresh c h
  refine ⟨ldifDn c, exportedAttrs E fresh c, a, exported_text E fresh c h, h1, h2, fun p x q y dn' linelen ha hp hy hx => ?_⟩
  have hon : ∀ topic, (∀ t ∈ x ++ y, toLowerQ t.1 ∉ topic) → ∀ dn, LdifRecord.on ⟨dn, exportedAttrs E fresh c⟩ topic = LdifRecord.on ⟨dn', p ++ y ++ q⟩ topic := by
    intro topic ht dn
    have hz : ∀ l : List (QString × QByteArray), (∀ t ∈ l, t ∈ x ++ y) → (l.map fun a => (toLowerQ a.1, a.2)).filter (fun a => decide (a.1 ∈ topic)) = [] := by
      intro l hl
      refine List.filter_eq_nil_iff.2 fun b hb => ?_
      obtain ⟨t, htm, rfl⟩ := List.mem_map.1 hb
      simpa using ht t (hl t htm)
    unfold LdifRecord.on
    rw [ha]
    simp only [List.map_append, List.filter_append]
    rw [hz x fun t h => List.mem_append_left _ h, hz y fun t h => List.mem_append_right _ h]
  have hlast : ∀ n, (∀ t ∈ x ++ y, toLowerQ t.1 ≠ n) → LdifRecord.last ⟨b! "x", exportedAttrs E fresh c⟩ [n] = LdifRecord.last ⟨dn', p ++ y ++ q⟩ [n] := by
    intro n hn
    have e := hon [n] (fun t ht => by simpa using hn t ht) (b! "x")
    unfold LdifRecord.last
    rw [values_on _ [n] [n] (fun _ h => h), e, ← values_on _ [n] [n] (fun _ h => h)]
  obtain ⟨d, g1, g2, -, -⟩ := h3 ⟨dn', p ++ y ++ q⟩ linelen (by
      have hpr := exported_proper E fresh c (b! "x")
      refine ⟨fun t ht => ?_, ?_⟩
      · rcases List.mem_append.1 ht with ht | ht
        · rcases List.mem_append.1 ht with ht | ht
          · exact hpr.names t (by rw [show (LdifRecord.attrs ⟨b! "x", exportedAttrs E fresh c⟩) = _ from ha]; simp [ht])
          · exact (hy t ht).1
        · exact hpr.names t (by rw [show (LdifRecord.attrs ⟨b! "x", exportedAttrs E fresh c⟩) = _ from ha]; simp [ht])
      · obtain ⟨u, r, e, hu, hk⟩ := hpr.first
        cases p with
        | nil => exact absurd rfl hp
        | cons w p =>
          have : w = u := by
            have e' : w :: (p ++ x ++ q) = u :: r := by rw [← e]; exact ha.symm
            exact (List.cons.inj e').1
          exact ⟨w, p ++ y ++ q, rfl, this ▸ hu, this ▸ hk⟩) (by
      rintro ⟨t, ht, e⟩
      have hnm := no_member E fresh c (b! "x")
      rcases List.mem_append.1 ht with ht | ht
      · rcases List.mem_append.1 ht with ht | ht
        · exact hnm ⟨t, by rw [show (LdifRecord.attrs ⟨b! "x", exportedAttrs E fresh c⟩) = _ from ha]; simp [ht], e⟩
        · exact (hy t ht).2 e
      · exact hnm ⟨t, by rw [show (LdifRecord.attrs ⟨b! "x", exportedAttrs E fresh c⟩) = _ from ha]; simp [ht], e⟩) (by
      rw [← hlast (q! "cn") fun t ht e => hx t ht (by simp [e]), ← hlast (q! "sn") fun t ht e => hx t ht (by simp [e])]
      exact exported_named E fresh c h)
  exact ⟨d, g1, fun f hf => g2 f (hon _ hf _)⟩

/-! ### Instances -/

private def lee : Contact :=
  { uid := q! "uid-1", familyName := q! "Lee", formattedName := q! "Ann Lee", note := q! "n", titles := [{ text := q! "Dr" }], emails := [{ mail := q! "a@b" }],
    phoneNumbers := [{ id := q! "p", type := 1, number := q! "1" }], empty := false }

private theorem lee_address (fresh : QString) (t : Nat) : lee.address fresh t = { id := fresh, type := t } := rfl

private theorem lee_readable : LdifReadable sampleLdifEnv lee where
  notEmpty := rfl
  named := .inr (by decide)
  texts := fun s hs => .ascii (by revert s; decide +kernel)
  uid := by decide
  emails := ⟨by decide, fun e he => ⟨by revert e; decide, .ascii (by revert e; decide +kernel)⟩⟩
  phones := fun p hp => ⟨by revert p; decide, .ascii (by revert p; decide +kernel)⟩
  home := fun fresh => by rw [lee_address]; exact ⟨⟨.inl rfl, .nil⟩, (fun x y e => by cases x <;> cases e), .nil, .nil, .nil, .nil, .nil, (by decide : sampleLdifEnv.countryName [] = [])⟩
  work := fun fresh => by rw [lee_address]; exact ⟨⟨.inl rfl, .nil⟩, (fun x y e => by cases x <;> cases e), .nil, .nil, .nil, .nil, .nil, (by decide : sampleLdifEnv.countryName [] = [])⟩
  url := .inl ⟨by decide, by decide⟩
  revision := fun d hd => by cases hd
  birthday := fun d hd => by cases hd

/-- The export of that contact with another home phone number and a town. -/
private def leeEdited : LdifRecord :=
  ⟨b! "cn=?", [(q! "objectclass", b! "top"), (q! "objectclass", b! "person"), (q! "objectclass", b! "organizationalPerson"), (q! "sn", b! "Lee"), (q! "cn", b! "Ann Lee"),
    (q! "uid", b! "uid-1"), (q! "mail", b! "a@b"), (q! "homephone", b! "2"), (q! "l", b! "Ulm"), (q! "title", b! "Dr"), (q! "description", b! "n")]⟩

private theorem leeEdited_proper : leeEdited.Proper := by
  have h : ∀ a ∈ leeEdited.attrs, plainName a.1 = true := by decide +kernel
  exact ⟨fun a ha => plainName_ldif (h a ha), _, _, rfl, by decide, by decide⟩

-- what is read has the other fields of the contact
example (now : QDateTime) : ∃ d, ldifToAddressee sampleLdifEnv (Sample.ids .contact) now (documentString (leeEdited.text 0)) = some ([d], []) ∧
    d.uid = q! "uid-1" ∧ d.note = q! "n" ∧ d.text .title = q! "Dr" := by
  obtain ⟨a, h1, h2, h3⟩ := edited_attrs sampleLdifEnv _ (Sample.ids_inj .contact) (fun u hu e => by rw [e] at hu; exact absurd hu (by decide)) now (q! "f") lee lee_readable
  obtain ⟨d, g1, g2, -, -⟩ := h3 leeEdited 0 leeEdited_proper (by unfold LdifRecord.Has; decide +kernel) (.inl (by decide +kernel))
  exact ⟨d, g1, (g2 .uid (by decide +kernel)).symm.trans h2.uid, (g2 .note (by decide +kernel)).symm.trans h2.note, by
    have e : a.titles = d.titles := g2 (.text .title) (by decide +kernel)
    have ht := h2.texts .title
    have : d.text .title = a.text .title := by
      show firstText d.titles = firstText a.titles
      rw [e]
    rw [this, ht]; rfl⟩

-- its lines, divided as in C117_edited: the home phone number is line 8
example : exportedAttrs sampleLdifEnv (q! "f") lee = (leeEdited.attrs.take 7) ++ [(q! "homephone", b! "1")] ++ leeEdited.attrs.drop 9 ∧
    (∀ t ∈ [(q! "homephone", b! "1")] ++ [(q! "homephone", b! "2"), (q! "l", b! "Ulm")], toLowerQ t.1 ∉ [q! "cn", q! "sn"] ∧ toLowerQ t.1 ∉ ldifReadFrom .emails) := by decide +kernel

end KC
