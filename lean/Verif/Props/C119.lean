import Verif.Props.C118
/-
  C119: the group given to the reader, after a call that may have failed.
-/
namespace KC

/-! ### helpers -/

theorem left_of_read (t : List Xml) : ∀ (g g' : Group) (r : List Xml), readMembers g t = some (g', r) → leftMembers g t = g' := by
  induction t with
  | nil => intro g g' r h; simp [readMembers] at h
  | cons x t ih =>
    intro g g' r h
    cases x with
    | other => exact ih g g' r h
    | finish n =>
      simp only [readMembers] at h
      simp only [leftMembers]
      split at h
      · rename_i hn; rw [if_pos hn]; cases h; rfl
      · rename_i hn; rw [if_neg hn]; exact ih g g' r h
    | start n a =>
      simp only [readMembers] at h
      simp only [leftMembers]
      split at h
      · rename_i hn; rw [if_pos hn]
        split at h
        · cases h
        · rename_i e; exact ih _ g' r h
      · rename_i hn; rw [if_neg hn]
        split at h
        · rename_i hn; rw [if_pos hn]
          split at h
          · cases h
          · exact ih _ g' r h
        · rename_i hn; rw [if_neg hn]
          split at h
          · rename_i hn; rw [if_pos hn]
            split at h
            · cases h
            · exact ih _ g' r h
          · cases h

/-- One group is another one with members added at the ends of its lists. -/
structure Grown (g g' : Group) : Prop where
  refs : g.refs <+: g'.refs
  groupRefs : g.groupRefs <+: g'.groupRefs
  data : g.data <+: g'.data

theorem Grown.refl (g : Group) : Grown g g := ⟨List.prefix_rfl, List.prefix_rfl, List.prefix_rfl⟩

theorem Grown.trans {a b c : Group} (h : Grown a b) (k : Grown b c) : Grown a c :=
  ⟨h.refs.trans k.refs, h.groupRefs.trans k.groupRefs, h.data.trans k.data⟩

theorem left_grown (t : List Xml) : ∀ g : Group, Grown g (leftMembers g t) ∧ (leftMembers g t).id = g.id ∧ (leftMembers g t).name = g.name := by
  induction t with
  | nil => intro g; exact ⟨Grown.refl g, rfl, rfl⟩
  | cons x t ih =>
    intro g
    cases x with
    | other => exact ih g
    | finish n =>
      simp only [leftMembers]
      split
      · exact ⟨Grown.refl g, rfl, rfl⟩
      · exact ih g
    | start n a =>
      simp only [leftMembers]
      split
      · split
        · exact ⟨Grown.refl g, rfl, rfl⟩
        · refine ⟨Grown.trans ?_ (ih _).1, (ih _).2⟩; exact ⟨List.prefix_rfl, List.prefix_rfl, List.prefix_append ..⟩
      · split
        · split
          · exact ⟨Grown.refl g, rfl, rfl⟩
          · refine ⟨Grown.trans ?_ (ih _).1, (ih _).2⟩; exact ⟨List.prefix_append .., List.prefix_rfl, List.prefix_rfl⟩
        · split
          · split
            · exact ⟨Grown.refl g, rfl, rfl⟩
            · refine ⟨Grown.trans ?_ (ih _).1, (ih _).2⟩; exact ⟨List.prefix_rfl, List.prefix_append .., List.prefix_rfl⟩
          · exact ⟨Grown.refl g, rfl, rfl⟩

/-- The number of opening tags. -/
def openTags (t : List Xml) : Nat := t.countP fun x => match x with | .start _ _ => true | _ => false

theorem left_finish (n : QString) (h : n ≠ q! "contactGroup") (g : Group) (t : List Xml) : leftMembers g (.finish n :: t) = leftMembers g t := by
  simp [leftMembers, h]

/-- A member as it is written, with what reading it does to the group. -/
abbrev MemberItem := QString × List (QString × QString) × (Group → Group)

theorem left_items (rs : List MemberItem) (hn : ∀ x ∈ rs, x.1 ≠ q! "contactGroup")
    (hput : ∀ x ∈ rs, ∀ g t, leftMembers g (.start x.1 x.2.1 :: t) = leftMembers (x.2.2 g) t) :
    ∀ (g : Group) (t : List Xml), t <+: rs.flatMap (fun x => [.start x.1 x.2.1, .finish x.1]) →
      leftMembers g t = (rs.take (openTags t)).foldl (fun g x => x.2.2 g) g := by
  induction rs with
  | nil => intro g t h; have h : t = [] := by simpa using h
           subst h; rfl
  | cons x rs ih =>
    intro g t h
    rw [List.flatMap_cons] at h
    cases t with
    | nil => simp [openTags, leftMembers]
    | cons y t =>
      obtain ⟨rfl, h2⟩ := List.cons_prefix_cons.1 h
      rw [hput x (by simp)]
      cases t with
      | nil => simp [openTags, leftMembers]
      | cons y t =>
        obtain ⟨rfl, h3⟩ := List.cons_prefix_cons.1 h2
        rw [left_finish _ (hn x (by simp)), ih (fun z hz => hn z (List.mem_cons_of_mem _ hz)) (fun z hz => hput z (List.mem_cons_of_mem _ hz)) _ _ h3]
        simp [openTags]

theorem foldl_refs (rs : List ContactRef) : ∀ g : Group, rs.foldl (fun (g : Group) r => { g with refs := g.refs ++ [{ r with customs := [] }] }) g =
    { g with refs := g.refs ++ rs.map fun r => { r with customs := [] } } := by
  induction rs with
  | nil => simp
  | cons r rs ih => intro g; simp [ih]

theorem foldl_groupRefs (rs : List GroupRef) : ∀ g : Group, rs.foldl (fun (g : Group) r => { g with groupRefs := g.groupRefs ++ [{ r with customs := [] }] }) g =
    { g with groupRefs := g.groupRefs ++ rs.map fun r => { r with customs := [] } } := by
  induction rs with
  | nil => simp
  | cons r rs ih => intro g; simp [ih]

theorem foldl_data (rs : List GroupData) : ∀ g : Group, rs.foldl (fun (g : Group) r => { g with data := g.data ++ [{ r with customs := [] }] }) g =
    { g with data := g.data ++ rs.map fun r => { r with customs := [] } } := by
  induction rs with
  | nil => simp
  | cons r rs ih => intro g; simp [ih]

def itemRef (r : ContactRef) : MemberItem := (q! "contactReference", [(q! "uid", r.uid), (q! "gid", r.gid)] ++
      (if !r.preferredEmail.isEmpty then [(q! "preferredEmail", r.preferredEmail)] else []),
    fun g => { g with refs := g.refs ++ [{ r with customs := [] }] })

def itemGroupRef (r : GroupRef) : MemberItem := (q! "contactGroupReference", [(q! "uid", r.uid)],
    fun g => { g with groupRefs := g.groupRefs ++ [{ r with customs := [] }] })

def itemData (d : GroupData) : MemberItem := (q! "contactData", [(q! "name", d.name), (q! "email", d.email)],
    fun g => { g with data := g.data ++ [{ d with customs := [] }] })

/-- The group `g` with only its first `n` members: the references to contacts first, then those to groups, then the data. -/
def Group.firstMembers (g : Group) (n : Nat) : Group :=
  { g with refs := g.refs.take n
           groupRefs := g.groupRefs.take (n - g.refs.length)
           data := g.data.take (n - g.refs.length - g.groupRefs.length) }

theorem left_ref (r : ContactRef) (h : r.uid ≠ [] ∨ r.gid ≠ []) (g : Group) (t : List Xml) :
    leftMembers g (.start (itemRef r).1 (itemRef r).2.1 :: t) = leftMembers ((itemRef r).2.2 g) t := by
  have e : readRef (itemRef r).2.1 = some { r with customs := [] } := by
    obtain ⟨uid, gid, pe, cs⟩ := r
    unfold readRef itemRef
    cases pe <;> simp [attr] <;> simpa [Classical.or_iff_not_imp_left] using h
  show leftMembers g (.start (q! "contactReference") (itemRef r).2.1 :: t) = _
  rw [leftMembers, if_neg (by decide), if_pos rfl, e]
  rfl

theorem left_groupRef (r : GroupRef) (h : r.uid ≠ []) (g : Group) (t : List Xml) :
    leftMembers g (.start (itemGroupRef r).1 (itemGroupRef r).2.1 :: t) = leftMembers ((itemGroupRef r).2.2 g) t := by
  have e : readGroupRef (itemGroupRef r).2.1 = some { r with customs := [] } := by
    simp [readGroupRef, itemGroupRef, attr, h]
  show leftMembers g (.start (q! "contactGroupReference") (itemGroupRef r).2.1 :: t) = _
  rw [leftMembers, if_neg (by decide), if_neg (by decide), if_pos rfl, e]
  rfl

theorem left_data (r : GroupData) (h : r.email ≠ []) (g : Group) (t : List Xml) :
    leftMembers g (.start (itemData r).1 (itemData r).2.1 :: t) = leftMembers ((itemData r).2.2 g) t := by
  have e : readData (itemData r).2.1 = some { r with customs := [] } := by
    simp [readData, itemData, attr, h]
  show leftMembers g (.start (q! "contactData") (itemData r).2.1 :: t) = _
  rw [leftMembers, if_pos rfl, e]
  rfl

theorem left_body (g0 g : Group) (hr : ReadableGroup g) (t : List Xml)
    (ht : t <+: g.refs.flatMap writeRef ++ g.groupRefs.flatMap writeGroupRef ++ g.data.flatMap writeData) :
    leftMembers g0 t = { g0 with
      refs := g0.refs ++ (g.firstMembers (openTags t)).withoutCustoms.refs
      groupRefs := g0.groupRefs ++ (g.firstMembers (openTags t)).withoutCustoms.groupRefs
      data := g0.data ++ (g.firstMembers (openTags t)).withoutCustoms.data } := by
  have e : g.refs.flatMap writeRef ++ g.groupRefs.flatMap writeGroupRef ++ g.data.flatMap writeData =
      (g.refs.map itemRef ++ g.groupRefs.map itemGroupRef ++ g.data.map itemData).flatMap (fun x => [.start x.1 x.2.1, .finish x.1]) := by
    rw [List.flatMap_append, List.flatMap_append, List.flatMap_map, List.flatMap_map, List.flatMap_map]
    rfl
  rw [e] at ht
  rw [left_items _ ?_ ?_ g0 t ht]
  · rw [List.take_append, List.take_append, List.foldl_append, List.foldl_append, ← List.map_take, ← List.map_take, ← List.map_take,
      List.foldl_map, List.foldl_map, List.foldl_map]
    have f1 := foldl_refs
    have f2 := foldl_groupRefs
    have f3 := foldl_data
    simp only [itemRef, itemGroupRef, itemData, List.length_map, List.length_append]
    rw [f1, f2, f3]
    simp [Group.firstMembers, Group.withoutCustoms, Nat.sub_sub]
  · simp only [List.mem_append, List.mem_map]
    rintro x ((⟨_, _, rfl⟩ | ⟨_, _, rfl⟩) | ⟨_, _, rfl⟩)
    · exact (by decide : q! "contactReference" ≠ q! "contactGroup")
    · exact (by decide : q! "contactGroupReference" ≠ q! "contactGroup")
    · exact (by decide : q! "contactData" ≠ q! "contactGroup")
  · simp only [List.mem_append, List.mem_map]
    rintro x ((⟨r, hx, rfl⟩ | ⟨r, hx, rfl⟩) | ⟨r, hx, rfl⟩)
    · exact left_ref r (hr.refs r hx)
    · exact left_groupRef r (hr.groupRefs r hx)
    · exact left_data r (hr.data r hx)

theorem leftDoc_misc (g : Group) (pre : List Xml) (hpre : ∀ x ∈ pre, x = .other) (t : List Xml) : leftDoc g (pre ++ t) = leftDoc g t := by
  induction pre with
  | nil => rfl
  | cons x pre ih => rw [hpre x (by simp)]; exact ih (fun y hy => hpre y (List.mem_cons_of_mem _ hy))

theorem list_append (w : Bool) (fresh : QString) : ∀ (k : Nat) (t : List Xml), t.length ≤ k → ∀ (depth : Int) (l acc : List Group),
    readGroupListLoop w fresh depth (l ++ acc) t = ((readGroupListLoop w fresh depth acc t).1, l ++ (readGroupListLoop w fresh depth acc t).2) := by
  intro k
  induction k with
  | zero =>
    intro t hk depth l acc
    cases t with
    | nil => simp [readGroupListLoop]
    | cons => simp at hk
  | succ k ih =>
    intro t hk depth l acc
    cases t with
    | nil => simp [readGroupListLoop]
    | cons x t =>
      have hl : t.length ≤ k := by simpa using hk
      cases x with
      | other => rw [readGroupListLoop, readGroupListLoop]; exact ih t hl _ _ _
      | finish n => rw [readGroupListLoop, readGroupListLoop]; exact ih t hl _ _ _
      | start n a =>
        rw [readGroupListLoop, readGroupListLoop]
        split
        · split
          · exact ih t hl _ _ _
          · rfl
        · split
          · split
            · split
              · rfl
              · rename_i hn
                have := readGroup_length hn
                rw [List.append_assoc]
                exact ih _ (by omega) _ _ _
            · rfl
          · exact ih t hl _ _ _

/-! ### the property -/

/-- Whatever the document, and whether reading succeeds or fails: the members the group had stay, at the front and in their order.
    Reading only ever adds members. -/
theorem C119 (g : Group) (d : XmlDoc) : g.refs <+: (groupAfterXml g d).refs ∧ g.groupRefs <+: (groupAfterXml g d).groupRefs ∧
    g.data <+: (groupAfterXml g d).data := by
  obtain ⟨toks, w⟩ := d
  unfold groupAfterXml
  suffices Grown g (leftDoc g toks) from ⟨this.refs, this.groupRefs, this.data⟩
  show Grown g (leftDoc g toks)
  induction toks with
  | nil => exact Grown.refl g
  | cons x t ih =>
    cases x with
    | other => exact ih
    | finish n => exact ih
    | start n a =>
      rw [leftDoc]
      split
      · unfold leftGroup
        split
        · exact Grown.refl g
        · split
          · exact Grown.refl g
          · have := (left_grown t { g with id := attr a (q! "uid"), name := attr a (q! "name") }).1
            exact ⟨this.refs, this.groupRefs, this.data⟩
      · exact Grown.refl g

/-- When reading succeeds, the group is the one that was read. -/
theorem C119_accepted (g g' : Group) (d : XmlDoc) (h : groupFromXml g d = some g') : groupAfterXml g d = g' := by
  obtain ⟨toks, w⟩ := d
  unfold groupFromXml at h
  unfold groupAfterXml
  simp only at h ⊢
  induction toks with
  | nil =>
    unfold readGroupDoc at h
    split at h
    · exact Option.some.inj h
    · cases h
  | cons x t ih =>
    cases x with
    | other => exact ih h
    | finish n => exact ih h
    | start n a =>
      rw [readGroupDoc] at h
      rw [leftDoc]
      split at h
      · rename_i hn
        rw [if_pos hn]
        unfold readGroup at h
        unfold leftGroup
        split at h
        · cases h
        · rename_i h1
          rw [if_neg h1]
          split at h
          · cases h
          · rename_i h2
            rw [if_neg h2]
            cases hm : readMembers { g with id := attr a (q! "uid"), name := attr a (q! "name") } t with
            | none => rw [hm] at h; cases h
            | some p =>
              rw [hm] at h
              exact (left_of_read t _ p.1 p.2 hm).trans (Option.some.inj h)
      · cases h

/-- A document whose first element is not a group with an identifier and a name leaves the group as it was. -/
theorem C119_untouched (g : Group) (w : Bool) (pre : List Xml) (hpre : ∀ x ∈ pre, x = .other) (n : QString)
    (a : List (QString × QString)) (t : List Xml)
    (h : n ≠ q! "contactGroup" ∨ attr a (q! "uid") = [] ∨ attr a (q! "name") = []) :
    groupAfterXml g ⟨pre ++ .start n a :: t, w⟩ = g := by
  unfold groupAfterXml
  rw [leftDoc_misc g pre hpre, leftDoc]
  split
  · rename_i hn
    unfold leftGroup
    rcases h with h | h | h
    · exact absurd hn h
    · rw [if_pos (by simp [h])]
    · split
      · rfl
      · rw [if_pos (by simp [h])]
  · rfl

/-- A file with a readable group that was cut after its opening tag and before its closing tag: reading fails, and the group given
    has the identifier and the name from the file, the members it had, and after them those members from the file whose opening
    tags are in it - the first ones, as many as there are opening tags. -/
theorem C119_cut (g0 g : Group) (hr : ReadableGroup g) (pre : List Xml) (hpre : ∀ x ∈ pre, x = .other) (t : List Xml)
    (hcut : .start (q! "contactGroup") [(q! "uid", g.id), (q! "name", g.name)] :: t <+: writeGroup g)
    (hne : .start (q! "contactGroup") [(q! "uid", g.id), (q! "name", g.name)] :: t ≠ writeGroup g) (w : Bool) :
    let d : XmlDoc := ⟨pre ++ .start (q! "contactGroup") [(q! "uid", g.id), (q! "name", g.name)] :: t, w⟩
    let there := (g.firstMembers (openTags t)).withoutCustoms
    groupFromXml g0 d = none ∧
    groupAfterXml g0 d = { id := g.id, name := g.name, refs := g0.refs ++ there.refs, groupRefs := g0.groupRefs ++ there.groupRefs
                           data := g0.data ++ there.data } := by
  intro d there
  have ht : t <+: g.refs.flatMap writeRef ++ g.groupRefs.flatMap writeGroupRef ++ g.data.flatMap writeData := by
    unfold writeGroup at hcut hne
    rcases List.prefix_concat_iff.1 (List.cons_prefix_cons.1 hcut).2 with h | h
    · exact absurd (by rw [h]) hne
    · exact h
  constructor
  · show readGroupDoc w g0 (pre ++ _) = none
    have : readGroupDoc w g0 (pre ++ .start (q! "contactGroup") [(q! "uid", g.id), (q! "name", g.name)] :: t) =
        readGroupDoc w g0 (.start (q! "contactGroup") [(q! "uid", g.id), (q! "name", g.name)] :: t) := by
      clear ht hcut hne
      induction pre with
      | nil => rfl
      | cons x pre ih => rw [hpre x (by simp)]; exact ih (fun y hy => hpre y (List.mem_cons_of_mem _ hy))
    rw [this, readGroupDoc, if_pos rfl, cut_readGroup _ _ (fun m => cut_members g (ht.subset m))]; rfl
  · show leftDoc g0 (pre ++ _) = _
    rw [leftDoc_misc g0 pre hpre, leftDoc, if_pos rfl]
    unfold leftGroup
    have h1 : attr [(q! "uid", g.id), (q! "name", g.name)] (q! "uid") = g.id := by simp [attr]
    have h2 : attr [(q! "uid", g.id), (q! "name", g.name)] (q! "name") = g.name := by simp [attr]
    rw [h1, h2, if_neg (by simpa using hr.id), if_neg (by simpa using hr.name), left_body _ g hr t ht]

/-- Reading a list of groups, whatever the document and whether it succeeds or fails: the groups in the list passed in stay, in front
    and in their order, and what is added and returned does not depend on them. -/
theorem C119_list (fresh : QString) (l : List Group) (d : XmlDoc) :
    groupsFromXml fresh l d = ((groupsFromXml fresh [] d).1, l ++ (groupsFromXml fresh [] d).2) := by
  have := list_append d.wellFormed fresh d.toks.length d.toks (Nat.le_refl _) 0 l []
  rwa [List.append_nil] at this

/-- A failed read does not always leave the group as it was. -/
theorem C119_unchanged_false : ¬ ∀ (g : Group) (d : XmlDoc), groupFromXml g d = none → groupAfterXml g d = g := by
  intro h
  exact absurd (h { id := q! "1", name := q! "n" } ⟨[.start (q! "contactGroup") [(q! "uid", q! "2"), (q! "name", q! "m")]], false⟩ (by decide +kernel))
    (by decide +kernel)

/-- Non-vacuity: a group cut inside its third member, read into a group that has a member. -/
example :
    let g : Group := { id := q! "1", name := q! "n", refs := [{ uid := q! "u" }], groupRefs := [{ uid := q! "v" }], data := [{ email := q! "a" }, { email := q! "b" }] }
    let g0 : Group := { id := q! "0", data := [{ email := q! "z" }] }
    groupAfterXml g0 ⟨.other :: (writeGroup g).take 6, false⟩ =
      { g with data := [{ email := q! "z" }, { email := q! "a" }] } ∧
    groupFromXml g0 ⟨.other :: (writeGroup g).take 6, false⟩ = none ∧
    (writeGroup g).take 6 ≠ writeGroup g ∧
    groupsFromXml [] [g0] ⟨writeGroupList [g, g], true⟩ = (true, [g0, g, g]) := by decide +kernel

end KC
