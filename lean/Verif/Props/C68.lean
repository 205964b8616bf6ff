import Verif.Props.C44
/-
  C68. Contact groups through LDIF
-/
namespace KC
namespace Spec

/-- what the import makes of an exported member whose name and e-mail address contain no comma -/
def memberBack (d : GroupData) : GroupData :=
  if trimmedQ d.name ≠ [] ∧ trimmedQ d.email ≠ [] then { name := trimmedQ d.name, email := q! " <" ++ trimmedQ d.email ++ q! ">" }
  else { name := trimmedQ d.name, email := trimmedQ d.email }

/-- Members whose texts can be written: no unpaired surrogates, no commas. -/
structure LdifMember (d : GroupData) : Prop where
  name : WellFormed d.name
  email : WellFormed d.email
  nameComma : qc! ',' ∉ d.name
  emailComma : qc! ',' ∉ d.email

/-- A group comes back with a new id, without its name, its references to contacts and to groups, and with its own members changed by `back`. -/
structure GroupBack (back : GroupData → GroupData) (g g' : Group) : Prop where
  name : g'.name = []
  refs : g'.refs = []
  groupRefs : g'.groupRefs = []
  data : g'.data = g.data.map back

end Spec
open Spec

/-- the value written for a member -/
def memberValue (d : GroupData) : QString := q! "cn=" ++ d.name ++ q! ",mail=" ++ d.email

/-- the entry written for a group -/
def groupEntry (g : Group) : LdifEntry :=
  { dn := none, pairs := (q! "objectclass", q! "top") :: (q! "objectclass", q! "groupOfNames") :: g.data.map fun d => (q! "member", memberValue d) }

theorem group_text (g : Group) (str : QString) (h : g.data ≠ []) : contactGroupToLDIF g str = (true, str ++ (groupEntry g).text) := by
  unfold contactGroupToLDIF
  rw [if_neg (by simpa using h)]
  have e1 : q! "objectclass: top\n" = ldifOut (q! "objectclass") (q! "top") := by decide +kernel
  have e2 : q! "objectclass: groupOfNames\n" = ldifOut (q! "objectclass") (q! "groupOfNames") := by decide +kernel
  rw [e1, e2]
  simp only [LdifEntry.text, groupEntry, pairsText_cons, List.nil_append]
  have e3 : pairsText (g.data.map fun d => (q! "member", memberValue d)) = g.data.flatMap fun d => ldifOut (q! "member") (memberValue d) := by
    simp [pairsText, List.flatMap_map]
  rw [e3]
  simp only [memberValue, List.append_assoc]

theorem groups_text (gs : List Group) (str : QString) (h : ∀ g ∈ gs, g.data ≠ []) : (contactGroupsToLDIF gs str).2 = str ++ (gs.map groupEntry).flatMap LdifEntry.text := by
  have key : ∀ (gs : List Group), (∀ g ∈ gs, g.data ≠ []) → ∀ acc : Bool × QString,
      (gs.foldl (fun acc g => let r := contactGroupToLDIF g acc.2; (r.1 || acc.1, r.2)) acc).2 = acc.2 ++ (gs.map groupEntry).flatMap LdifEntry.text := by
    intro gs
    induction gs with
    | nil => intro _ acc; simp
    | cons g gs ih =>
      intro h acc
      rw [List.foldl_cons, ih (fun x hx => h x (by simp [hx]))]
      simp only [group_text g acc.2 (h g (by simp)), List.map_cons, List.flatMap_cons, List.append_assoc]
  unfold contactGroupsToLDIF
  split
  · rename_i e
    rw [List.isEmpty_iff] at e
    simp [e]
  · exact key gs h (true, str)

theorem memberValue_ok (d : GroupData) (h : WellFormed d.name) (h' : WellFormed d.email) : LdifValue (memberValue d) := by
  refine ⟨?_, ?_⟩
  · unfold memberValue
    exact wf_append (wf_append (wf_append (wf_ascii (by decide)) h) (wf_ascii (by decide))) h'
  · unfold memberValue
    simp only [List.cons_append, List.nil_append, List.head?_cons]
    decide

theorem groupEntry_ok (g : Group) (h : ∀ d ∈ g.data, WellFormed d.name ∧ WellFormed d.email) : (groupEntry g).OK where
  dn := by simp [groupEntry]
  names := by
    intro p hp
    simp only [groupEntry, List.mem_cons, List.mem_map] at hp
    rcases hp with rfl | rfl | ⟨d, _, rfl⟩
    · exact ⟨by decide, by decide⟩
    · exact ⟨by decide, by decide⟩
    · exact ⟨(by decide : plainName (q! "member") = true), (by decide : q! "member" ≠ q! "dn")⟩
  values := by
    intro p hp
    simp only [groupEntry, List.mem_cons, List.mem_map] at hp
    rcases hp with rfl | rfl | ⟨d, hd, rfl⟩
    · exact ⟨wf_ascii (by decide), by decide⟩
    · exact ⟨wf_ascii (by decide), by decide⟩
    · exact memberValue_ok d (h d hd).1 (h d hd).2
  first := by
    refine ⟨(q! "objectclass", q! "top"), written ((q! "objectclass", q! "groupOfNames") :: g.data.map fun d => (q! "member", memberValue d)), ?_, by decide⟩
    unfold written groupEntry
    exact List.filter_cons_of_pos (by decide)

theorem evaluate_objectclass (E : LdifEnv) (ids : Nat → QString) (s : LdifState) (v : QString) : evaluatePair E ids s (q! "objectclass") v = s := by
  have h : ∀ b, ldifField b (q! "objectclass") = .ignored := by decide
  unfold evaluatePair
  rw [h]
  rfl

theorem evaluate_member (E : LdifEnv) (ids : Nat → QString) (s : LdifState) (v : QString) :
    evaluatePair E ids s (q! "member") v = { s with group := s.group.apply (.appendData (memberData v)) } := by
  have h : ∀ b, ldifField b (q! "member") = .member := by decide
  unfold evaluatePair
  rw [h]
  rfl

theorem group_eval (E : LdifEnv) (ids : Nat → QString) (g : Group) (s : LdifState) :
    evalPairs E ids s (groupEntry g).pairs = { s with group := { s.group with data := s.group.data ++ g.data.map fun d => memberData (memberValue d) } } := by
  unfold evalPairs groupEntry written
  have hw : (((q! "objectclass", q! "top") :: (q! "objectclass", q! "groupOfNames") :: g.data.map fun d => (q! "member", memberValue d)).filter fun p : QString × QString => !p.2.isEmpty) =
      (q! "objectclass", q! "top") :: (q! "objectclass", q! "groupOfNames") :: g.data.map fun d => (q! "member", memberValue d) := by
    rw [List.filter_eq_self]
    intro p hp
    simp only [List.mem_cons, List.mem_map] at hp
    rcases hp with rfl | rfl | ⟨d, _, rfl⟩
    · rfl
    · rfl
    · simp [memberValue]
  rw [hw, List.foldl_cons, List.foldl_cons]
  rw [evaluate_objectclass, evaluate_objectclass]
  generalize g.data = ds
  induction ds generalizing s with
  | nil => simp
  | cons d ds ih =>
    rw [List.map_cons, List.foldl_cons, evaluate_member, ih]
    simp [Group.apply]

theorem groups_eval (E : LdifEnv) (ids : Nat → QString) (now : QDateTime) (gs : List Group) (h : ∀ g ∈ gs, g.data ≠ []) : ∀ n b,
    ∃ gs', evalEntries E ids now (gs.map groupEntry) n b = ([], gs') ∧ gs'.length = gs.length ∧
      ∀ p ∈ gs.zip gs', GroupBack (fun d => memberData (memberValue d)) p.1 p.2 := by
  induction gs with
  | nil => intro n b; exact ⟨[], rfl, rfl, by simp⟩
  | cons g gs ih =>
    intro n b
    rw [List.map_cons, evalEntries]
    simp only [group_eval]
    obtain ⟨gs', h1, h2, h3⟩ := ih (fun x hx => h x (by simp [hx]))
      ({ ldifFresh E ids now n b.2.2 b.2.1 b.1 with group := { (ldifFresh E ids now n b.2.2 b.2.1 b.1).group with data := (ldifFresh E ids now n b.2.2 b.2.1 b.1).group.data ++ g.data.map fun d => memberData (memberValue d) } } : LdifState).next
      ({ ldifFresh E ids now n b.2.2 b.2.1 b.1 with group := { (ldifFresh E ids now n b.2.2 b.2.1 b.1).group with data := (ldifFresh E ids now n b.2.2 b.2.1 b.1).group.data ++ g.data.map fun d => memberData (memberValue d) } } : LdifState).birth
    rw [h1]
    have hc : ldifResult { ldifFresh E ids now n b.2.2 b.2.1 b.1 with group := { (ldifFresh E ids now n b.2.2 b.2.1 b.1).group with data := (ldifFresh E ids now n b.2.2 b.2.1 b.1).group.data ++ g.data.map fun d => memberData (memberValue d) } } =
        ([], [{ id := ids (n + 3), data := g.data.map fun d => memberData (memberValue d) }]) := by
      unfold ldifResult
      rw [if_neg]
      · rfl
      · simp only [ldifFresh, Group.count, List.length_nil, List.nil_append, List.length_map, Nat.zero_add]
        have := List.length_pos_iff.2 (h g (by simp))
        omega
    rw [hc]
    refine ⟨_, rfl, by simp [h2], ?_⟩
    intro p hp
    simp only [List.cons_append, List.nil_append, List.zip_cons_cons] at hp
    rcases List.mem_cons.1 hp with rfl | hp
    · exact ⟨rfl, rfl, rfl, rfl⟩
    · exact h3 p hp

theorem evalEntries_append (E : LdifEnv) (ids : Nat → QString) (now : QDateTime) (a b : List LdifEntry) : ∀ n x,
    ∃ n' x', evalEntries E ids now (a ++ b) n x =
      ((evalEntries E ids now a n x).1 ++ (evalEntries E ids now b n' x').1, (evalEntries E ids now a n x).2 ++ (evalEntries E ids now b n' x').2) := by
  induction a with
  | nil => intro n x; exact ⟨n, x, by simp [evalEntries]⟩
  | cons e a ih =>
    intro n x
    rw [List.cons_append, evalEntries, evalEntries]
    obtain ⟨n', x', h⟩ := ih (evalPairs E ids (ldifFresh E ids now n x.2.2 x.2.1 x.1) e.pairs).next (evalPairs E ids (ldifFresh E ids now n x.2.2 x.2.1 x.1) e.pairs).birth
    refine ⟨n', x', ?_⟩
    simp only [h, List.append_assoc]

/-! ### One member -/

theorem memberData_value (d : GroupData) (h : LdifMember d) : memberData (memberValue d) = memberBack d := by
  have hs : splitOn (qc! ',') (memberValue d) = [q! "cn=" ++ d.name, q! "mail=" ++ d.email] := by
    have e : memberValue d = (q! "cn=" ++ d.name) ++ qc! ',' :: (q! "mail=" ++ d.email) := by simp [memberValue]
    rw [e, splitOn_append_sep, splitOn_of_not_mem, splitOn_of_not_mem]
    · rfl
    · intro hm
      rcases List.mem_append.1 hm with hm | hm
      · revert hm; decide
      · exact h.emailComma hm
    · intro hm
      rcases List.mem_append.1 hm with hm | hm
      · revert hm; decide
      · exact h.nameComma hm
  unfold memberData
  rw [hs]
  have s1 : ∀ t : QString, startsWith (q! "cn=") (q! "cn=" ++ t) = true := by intro t; simp [startsWith]
  have s2 : ∀ t : QString, startsWith (q! "cn=") (q! "mail=" ++ t) = false := by intro t; simp [startsWith]
  have s3 : ∀ t : QString, startsWith (q! "mail=") (q! "mail=" ++ t) = true := by intro t; simp [startsWith]
  have hp : memberParts [q! "cn=" ++ d.name, q! "mail=" ++ d.email] ([], []) = (trimmedQ d.name, trimmedQ d.email) := by
    rw [memberParts, if_pos (s1 _), memberParts, if_neg (by rw [s2]; decide), if_pos (s3 _), memberParts]
    rfl
  rw [hp]
  unfold memberBack
  by_cases h1 : trimmedQ d.name = []
  · simp [h1]
  · by_cases h2 : trimmedQ d.email = []
    · simp [h1, h2]
    · simp [h1, h2]

/-! ### The property -/

/-- **C68.** Contacts and groups exported to one LDIF text and imported: the contacts as in C44, and one group for each group, in order, with its own
    members in order. What is missing: the id, the name and the references of a group, and the e-mail addresses (see below). -/
theorem C68_partial (E : LdifEnv) (ids : Nat → QString) (hids : ∀ i j, ids i = ids j → i = j) (now : QDateTime) (fresh : QString) (cs : List Contact)
    (h : ∀ c ∈ cs, LdifReadable E c) (hb : cs.Pairwise BirthdaysApart) (gs : List Group) (hg : ∀ g ∈ gs, g.data ≠ [] ∧ ∀ d ∈ g.data, LdifMember d) :
    ∃ as gs', ldifToAddressee E ids now (addresseeAndContactGroupToLDIF E fresh cs gs []).2 = some (as, gs') ∧
      as.length = cs.length ∧ (∀ p ∈ cs.zip as, LdifSurvives E p.1 p.2) ∧ gs'.length = gs.length ∧ ∀ p ∈ gs.zip gs', GroupBack memberBack p.1 p.2 := by
  have htext : (addresseeAndContactGroupToLDIF E fresh cs gs []).2 = (cs.map (contactEntry E fresh) ++ gs.map groupEntry).flatMap LdifEntry.text := by
    unfold addresseeAndContactGroupToLDIF
    rw [List.flatMap_append]
    have e1 := ldif_export_text E fresh cs fun c hc => (h c hc).notEmpty
    by_cases he : gs = []
    · subst he
      simp [e1]
    · simp only [List.isEmpty_iff, he, if_false]
      rw [groups_text gs _ fun g hg' => (hg g hg').1, e1]
  rw [htext, import_entries E ids now _ (by
    intro e he
    rcases List.mem_append.1 he with he | he
    · obtain ⟨c, hc, rfl⟩ := List.mem_map.1 he
      exact contactEntry_ok E fresh c (h c hc)
    · obtain ⟨g, hg', rfl⟩ := List.mem_map.1 he
      exact groupEntry_ok g fun d hd => ⟨((hg g hg').2 d hd).name, ((hg g hg').2 d hd).email⟩)]
  obtain ⟨as, h1, h2, h3⟩ := ldif_entries_back E ids hids now fresh cs h hb 0 (-1, -1, -1) (.inl rfl)
  obtain ⟨n', x', h4⟩ := evalEntries_append E ids now (cs.map (contactEntry E fresh)) (gs.map groupEntry) 0 (-1, -1, -1)
  obtain ⟨gs', h5, h6, h7⟩ := groups_eval E ids now gs (fun g hg' => (hg g hg').1) n' x'
  refine ⟨as, gs', ?_, h2, h3, h6, ?_⟩
  · rw [h4, h1, h5]; simp
  · intro p hp
    have hb := h7 p hp
    refine ⟨hb.name, hb.refs, hb.groupRefs, ?_⟩
    rw [hb.data]
    apply List.map_congr_left
    intro d hd
    exact memberData_value d ((hg p.1 (List.of_mem_zip hp).1).2 d hd)

/-- A text without white space at its ends. -/
def Tight (s : QString) : Prop := trimmedQ s = s

/-- **C68.** For a member with tight texts without commas: it comes back as it was if and only if its name or its e-mail address is empty (and it has no
    custom fields). -/
theorem C68_member_iff (d : GroupData) (h1 : Tight d.name) (h2 : Tight d.email) :
    memberBack d = d ↔ (d.name = [] ∨ d.email = []) ∧ d.customs = [] := by
  unfold memberBack
  rw [h1, h2]
  obtain ⟨n, e, c⟩ := d
  simp only
  split
  · rename_i h
    constructor
    · intro he
      simp only [GroupData.mk.injEq] at he
      have := congrArg List.length he.2.1
      simp at this
      omega
    · rintro ⟨hx | hx, _⟩
      · exact absurd hx h.1
      · exact absurd hx h.2
  · rename_i h
    simp only [GroupData.mk.injEq, true_and]
    constructor
    · intro he
      refine ⟨?_, he.symm⟩
      by_cases hn : n = []
      · exact .inl hn
      · exact .inr (not_not.1 fun he => h ⟨hn, he⟩)
    · intro hx; exact hx.2.symm

/-- **C68 is false:** the e-mail address of a member with a name comes back with " <" and ">" around it. -/
theorem C68_false (E : LdifEnv) (ids : Nat → QString) (now : QDateTime) :
    ∃ g g' : Group, (∀ d ∈ g.data, LdifMember d ∧ Tight d.name ∧ Tight d.email ∧ d.name ≠ [] ∧ d.email ≠ []) ∧ g.data.length = 1 ∧
      ldifToAddressee E ids now (contactGroupToLDIF g []).2 = some ([], [g']) ∧ g'.data ≠ g.data ∧
      g'.data = [{ name := q! "Ann", email := q! " <ann@example.org>" }] := by
  let g : Group := { id := [], data := [{ name := q! "Ann", email := q! "ann@example.org" }] }
  have hm : LdifMember { name := q! "Ann", email := q! "ann@example.org" } := ⟨wf_ascii (by decide), wf_ascii (by decide), by decide, by decide⟩
  have hne : ∀ x ∈ [g], x.data ≠ [] := by intro x hx; rw [List.mem_singleton] at hx; subst hx; simp [g]
  obtain ⟨gs', h5, h6, h7⟩ := groups_eval E ids now [g] hne 0 (-1, -1, -1)
  obtain ⟨g', rfl⟩ := List.length_eq_one_iff.1 h6
  have hd := (h7 (g, g') (by simp)).data
  have hd' : g'.data = [{ name := q! "Ann", email := q! " <ann@example.org>" }] := by
    rw [hd]
    simp only [g, List.map_cons, List.map_nil, memberData_value _ hm]
    decide
  refine ⟨g, g', ?_, rfl, ?_, ?_, hd'⟩
  · intro d hd
    simp only [g, List.mem_singleton] at hd
    subst hd
    exact ⟨hm, by unfold Tight; decide, by unfold Tight; decide, by decide, by decide⟩
  · rw [group_text g [] (hne g (by simp)), List.nil_append]
    have := import_entries E ids now [groupEntry g] (by
      intro e he
      rw [List.mem_singleton] at he
      subst he
      exact groupEntry_ok g (by
        intro d hd
        simp only [g, List.mem_singleton] at hd
        subst hd
        exact ⟨hm.name, hm.email⟩))
    rw [List.flatMap_cons, List.flatMap_nil, List.append_nil] at this
    rw [this]
    exact congrArg some h5
  · rw [hd']; simp [g]

/-- **C68 is false** also because a group without members of its own (for instance one with references to contacts only) is not written at all. -/
theorem C68_references_false (g : Group) (h : g.data = []) (str : QString) : contactGroupToLDIF g str = (false, str) := by
  unfold contactGroupToLDIF
  simp [h]

/-- A comma in a name cuts the name off there. -/
theorem C68_comma_false : memberData (memberValue { name := q! "Lee, Ann", email := q! "a@b" }) = { name := q! "Lee", email := q! " <a@b>" } := by decide

/-! ### Instances -/

example : LdifMember { name := q! "Ann", email := [] } := ⟨wf_ascii (by decide), wf_ascii (by decide), by decide, by decide⟩
example : Tight (q! "Ann Lee") := by unfold Tight; decide
example : memberBack { name := [], email := q! "a@b" } = { name := [], email := q! "a@b" } := by decide

end KC
