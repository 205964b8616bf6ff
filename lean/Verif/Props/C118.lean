import Verif.Props.C46
/-
  C118: a contact group file that was not written to its end.
-/
namespace KC

/-! ### helpers -/

theorem cut_body (t : List Xml) : ∀ g : Group, Xml.finish (q! "contactGroup") ∉ t → readMembers g t = none := by
  induction t with
  | nil => intro g _; rfl
  | cons x t ih =>
    intro g h
    have ht : Xml.finish (q! "contactGroup") ∉ t := fun m => h (List.mem_cons_of_mem _ m)
    cases x with
    | other => exact ih g ht
    | finish n =>
      have hn : n ≠ q! "contactGroup" := by rintro rfl; exact h (List.mem_cons_self ..)
      rw [readMembers, if_neg hn]; exact ih g ht
    | start n a =>
      rw [readMembers]
      split
      · split
        · rfl
        · exact ih _ ht
      · split
        · split
          · rfl
          · exact ih _ ht
        · split
          · split
            · rfl
            · exact ih _ ht
          · rfl

theorem cut_members (g : Group) :
    Xml.finish (q! "contactGroup") ∉ g.refs.flatMap writeRef ++ g.groupRefs.flatMap writeGroupRef ++ g.data.flatMap writeData := by
  have e1 : q! "contactGroup" ≠ q! "contactReference" := by decide
  have e2 : q! "contactGroup" ≠ q! "contactGroupReference" := by decide
  have e3 : q! "contactGroup" ≠ q! "contactData" := by decide
  simp only [List.mem_append, List.mem_flatMap, writeRef, writeGroupRef, writeData, List.mem_cons, reduceCtorEq, Xml.finish.injEq,
    List.not_mem_nil, or_false, false_or]
  rintro ((⟨_, _, h⟩ | ⟨_, _, h⟩) | ⟨_, _, h⟩)
  · exact e1 h
  · exact e2 h
  · exact e3 h

/-- What is there of a group that was not written to its end: nothing, or its opening tag and members without the closing tag. -/
theorem cut_group {g : Group} {p : List Xml} (hp : p <+: writeGroup g) (hne : p ≠ writeGroup g) :
    p = [] ∨ ∃ t, p = .start (q! "contactGroup") [(q! "uid", g.id), (q! "name", g.name)] :: t ∧ Xml.finish (q! "contactGroup") ∉ t := by
  cases p with
  | nil => exact Or.inl rfl
  | cons x t =>
    right
    unfold writeGroup at hp hne
    obtain ⟨rfl, ht⟩ := List.cons_prefix_cons.1 hp
    refine ⟨t, rfl, ?_⟩
    rcases List.prefix_concat_iff.1 ht with h | h
    · exact absurd (by rw [h]) hne
    · exact fun m => cut_members g (h.subset m)

theorem cut_readGroup (g0 : Group) (a : List (QString × QString)) {t : List Xml} (h : Xml.finish (q! "contactGroup") ∉ t) :
    readGroup g0 a t = none := by
  unfold readGroup
  split
  · rfl
  · split
    · rfl
    · exact cut_body t _ h

theorem writeGroup_ne_nil (g : Group) : writeGroup g ≠ [] := by simp [writeGroup]

theorem cut_list (fresh : QString) (gs : List Group) : ∀ (acc : List Group) (p : List Xml), (∀ g ∈ gs, ReadableGroup g) →
    p <+: gs.flatMap writeGroup ++ [.finish (q! "contactGroupList")] →
    ∃ k ≤ gs.length, readGroupListLoop false fresh 1 acc p = (false, acc ++ (gs.take k).map Group.withoutCustoms) ∧
      ∀ j ≤ gs.length, ((gs.take j).flatMap writeGroup <+: p ↔ j ≤ k) := by
  induction gs with
  | nil =>
    intro acc p _ hp
    refine ⟨0, Nat.le_refl _, ?_, fun j hj => by simp at hj; simp [hj]⟩
    cases p with
    | nil => simp [readGroupListLoop]
    | cons x t =>
      obtain ⟨rfl, ht⟩ := List.cons_prefix_cons.1 hp
      rw [List.prefix_nil.1 ht]
      simp [readGroupListLoop]
  | cons g gs ih =>
    intro acc p hr hp
    rw [List.flatMap_cons, List.append_assoc] at hp
    rcases List.prefix_or_prefix_of_prefix (List.prefix_append (writeGroup g) _) hp with ⟨p', rfl⟩ | hc
    · have hp' := (List.prefix_append_right_inj _).1 hp
      obtain ⟨k, hk, h1, h2⟩ := ih (acc ++ [g.withoutCustoms]) p' (fun x hx => hr x (List.mem_cons_of_mem _ hx)) hp'
      refine ⟨k + 1, by simpa using hk, ?_, ?_⟩
      · have := readList_groups false fresh [g] acc p' (by simpa using hr g (by simp))
        simp only [List.flatMap_cons, List.flatMap_nil, List.append_nil, List.map_cons, List.map_nil] at this
        rw [this, h1]; simp
      · intro j hj
        cases j with
        | zero => simp
        | succ j =>
          rw [List.take_succ_cons, List.flatMap_cons, List.prefix_append_right_inj, h2 j (by simpa using hj)]
          omega
    · by_cases he : p = writeGroup g
      · subst he
        obtain ⟨k, hk, h1, h2⟩ := ih (acc ++ [g.withoutCustoms]) [] (fun x hx => hr x (List.mem_cons_of_mem _ hx)) List.nil_prefix
        refine ⟨k + 1, by simpa using hk, ?_, ?_⟩
        · have := readList_groups false fresh [g] acc [] (by simpa using hr g (by simp))
          simp only [List.flatMap_cons, List.flatMap_nil, List.append_nil, List.map_cons, List.map_nil] at this
          rw [this, h1]; simp
        · intro j hj
          cases j with
          | zero => simp
          | succ j =>
            conv => lhs; rhs; rw [← List.append_nil (writeGroup g)]
            rw [List.take_succ_cons, List.flatMap_cons, List.prefix_append_right_inj, h2 j (by simpa using hj)]
            omega
      · refine ⟨0, Nat.zero_le _, ?_, ?_⟩
        · rcases cut_group hc he with rfl | ⟨t, rfl, ht⟩
          · simp [readGroupListLoop]
          · rw [readGroupListLoop, if_neg (by decide), if_pos (by decide), if_pos rfl]
            split
            · simp
            · rename_i hn; rw [cut_readGroup _ _ ht] at hn; cases hn
        · intro j _
          cases j with
          | zero => simp
          | succ j =>
            constructor
            · intro h
              rw [List.take_succ_cons, List.flatMap_cons] at h
              have h3 := (List.prefix_append (writeGroup g) _).trans h
              exact absurd (hc.eq_of_length (Nat.le_antisymm hc.length_le h3.length_le)) he
            · omega

/-! ### the property -/

/-- A file with a list of groups that stops at any point, wherever it was cut and whatever white space is in it: reading it
    reports failure and appends exactly the groups that are completely in the file, in their order - the first `j` groups are all
    in the file just when `j ≤ k` - and nothing of the group that was cut. -/
theorem C118 (fresh : QString) (l gs : List Group) (hgs : ∀ g ∈ gs, ReadableGroup g) (toks : List Xml)
    (hcut : toks <+: writeGroupList gs) (d : XmlDoc) (hd : Carries d toks) (hw : d.wellFormed = false) :
    ∃ k ≤ gs.length, groupsFromXml fresh l d = (false, l ++ (gs.take k).map Group.withoutCustoms) ∧
      ∀ j ≤ gs.length, ((gs.take j).flatMap writeGroup <+: toks.tail ↔ j ≤ k) := by
  unfold groupsFromXml
  rw [readList_strip _ _ _ _ _ _ (Nat.le_refl _), hd, hw]
  cases toks with
  | nil =>
    obtain ⟨k, hk, h1, h2⟩ := cut_list fresh gs l [] hgs List.nil_prefix
    refine ⟨k, hk, ?_, h2⟩
    rw [← h1, readGroupListLoop, readGroupListLoop]
  | cons x t =>
    unfold writeGroupList at hcut
    obtain ⟨rfl, ht⟩ := List.cons_prefix_cons.1 hcut
    rw [readGroupListLoop, if_pos (by decide), if_pos rfl]
    exact cut_list fresh gs l t hgs ht

/-- A file with one group that stops anywhere before its end is rejected, whatever the group. -/
theorem C118_group (g0 g : Group) (toks : List Xml) (hcut : toks <+: writeGroup g) (hne : toks ≠ writeGroup g) (d : XmlDoc)
    (hd : Carries d toks) (hw : d.wellFormed = false) : groupFromXml g0 d = none := by
  unfold groupFromXml
  rw [readGroupDoc_strip, hd, hw]
  rcases cut_group hcut hne with rfl | ⟨t, rfl, ht⟩
  · rfl
  · rw [readGroupDoc, if_pos rfl, cut_readGroup _ _ ht]; rfl

/-- Non-vacuity: a list of two groups cut inside the second one keeps the first; cut before its closing tag but after the second
    group, it keeps both. -/
example :
    let g : Group := { id := q! "1", name := q! "n", refs := [{ uid := q! "u", gid := q! "g" }], data := [{ name := q! "a", email := q! "b" }] }
    let h : Group := { id := q! "2", name := q! "m", groupRefs := [{ uid := q! "v" }] }
    (writeGroupList [g, h]).take 8 <+: writeGroupList [g, h] ∧
    groupsFromXml [] [h] ⟨(writeGroupList [g, h]).take 9, false⟩ = (false, [h, g]) ∧
    groupsFromXml [] [h] ⟨(writeGroupList [g, h]).take 11, false⟩ = (false, [h, g, h]) ∧
    groupFromXml { id := [] } ⟨(writeGroup g).take 5, false⟩ = none := by
  refine ⟨List.take_prefix .., ?_⟩
  decide +kernel

end KC
