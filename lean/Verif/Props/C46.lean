import Verif.Model.GroupXml
/-
  C46, C47: contact groups written as XML and read back; malformed documents.
-/
namespace KC

/-- Which groups can be read back: the group and its members have what the reader asks for. -/
structure ReadableGroup (g : Group) : Prop where
  id : g.id ≠ []
  name : g.name ≠ []
  refs : ∀ r ∈ g.refs, r.uid ≠ [] ∨ r.gid ≠ []
  groupRefs : ∀ r ∈ g.groupRefs, r.uid ≠ []
  data : ∀ d ∈ g.data, d.email ≠ []

/-- What is written: everything but the custom fields of the members. -/
def Group.withoutCustoms (g : Group) : Group :=
  { g with refs := g.refs.map fun r => { r with customs := [] }
           groupRefs := g.groupRefs.map fun r => { r with customs := [] }
           data := g.data.map fun r => { r with customs := [] } }

/-- A document carries some tokens if they are all there is, apart from white space, comments and the like. -/
def Carries (d : XmlDoc) (toks : List Xml) : Prop := d.toks.filter (· ≠ .other) = toks

/-! ### white space does not matter -/

theorem readMembers_strip (g : Group) (t : List Xml) :
    (readMembers g t).map (fun p => (p.1, p.2.filter (· ≠ .other))) = readMembers g (t.filter (· ≠ .other)) := by
  induction t generalizing g with
  | nil => rfl
  | cons x t ih =>
    cases x with
    | other => simpa [readMembers] using ih g
    | finish n =>
      simp only [readMembers, ne_eq, reduceCtorEq, not_false_eq_true, decide_true, List.filter_cons_of_pos]
      split
      · rfl
      · exact ih g
    | start n a =>
      simp only [readMembers, ne_eq, reduceCtorEq, not_false_eq_true, decide_true, List.filter_cons_of_pos]
      split
      · split
        · rfl
        · exact ih _
      · split
        · split
          · rfl
          · exact ih _
        · split
          · split
            · rfl
            · exact ih _
          · rfl

theorem readGroup_strip (g : Group) (a) (t : List Xml) :
    (readGroup g a t).map (fun p => (p.1, p.2.filter (· ≠ .other))) = readGroup g a (t.filter (· ≠ .other)) := by
  unfold readGroup
  split
  · rfl
  · split
    · rfl
    · exact readMembers_strip _ t

theorem readGroupDoc_strip (w : Bool) (g : Group) (t : List Xml) : readGroupDoc w g t = readGroupDoc w g (t.filter (· ≠ .other)) := by
  induction t with
  | nil => rfl
  | cons x t ih =>
    cases x with
    | other => simpa [readGroupDoc] using ih
    | finish n => simpa [readGroupDoc] using ih
    | start n a =>
      simp only [readGroupDoc, ne_eq, reduceCtorEq, not_false_eq_true, decide_true, List.filter_cons_of_pos]
      split
      · have := readGroup_strip g a t
        simp only [ne_eq] at this
        rw [← this, Option.map_map]; rfl
      · rfl

theorem readList_strip (w : Bool) (fresh : QString) : ∀ (n : Nat) (depth : Int) (acc : List Group) (t : List Xml), t.length ≤ n →
    readGroupListLoop w fresh depth acc t = readGroupListLoop w fresh depth acc (t.filter (· ≠ .other)) := by
  intro n
  induction n with
  | zero => intro d acc t h; have : t = [] := by cases t with | nil => rfl | cons => simp at h
            subst this; rfl
  | succ n ih =>
    intro d acc t h
    cases t with
    | nil => rfl
    | cons x t =>
      have hl : t.length ≤ n := by simpa using h
      cases x with
      | other => rw [readGroupListLoop]; simpa using ih d acc t hl
      | finish m =>
        rw [List.filter_cons_of_pos (by simp), readGroupListLoop, readGroupListLoop]
        exact ih _ acc t hl
      | start m a =>
        rw [List.filter_cons_of_pos (by simp), readGroupListLoop, readGroupListLoop]
        split
        · split
          · exact ih _ acc t hl
          · rfl
        · split
          · split
            · have hs := readGroup_strip { id := fresh } a t
              split
              · rename_i hn
                rw [hn] at hs
                split
                · rfl
                · rename_i hn'; rw [hn'] at hs; cases hs
              · rename_i g t' hn
                rw [hn] at hs
                split
                · rename_i hn'; rw [hn'] at hs; cases hs
                · rename_i g2 t2 hn'
                  rw [hn'] at hs
                  cases hs
                  have := readGroup_length hn
                  exact ih _ _ _ (by omega)
            · rfl
          · exact ih _ acc t hl

/-! ### reading what was written -/

def readableRef (r : ContactRef) : Bool := !(r.uid.isEmpty && r.gid.isEmpty)

theorem read_refs (rs : List ContactRef) : ∀ (g : Group) (rest : List Xml),
    readMembers g (rs.flatMap writeRef ++ rest) =
      if ∀ r ∈ rs, r.uid ≠ [] ∨ r.gid ≠ [] then
        readMembers { g with refs := g.refs ++ rs.map fun r => { r with customs := [] } } rest
      else none := by
  induction rs with
  | nil => intro g rest; simp
  | cons r t ih =>
    intro g rest
    have hrr : readRef ([(q! "uid", r.uid), (q! "gid", r.gid)] ++
        if !r.preferredEmail.isEmpty then [(q! "preferredEmail", r.preferredEmail)] else []) =
        if r.uid ≠ [] ∨ r.gid ≠ [] then some { r with customs := [] } else none := by
      unfold readRef
      have h1 : ∀ x, attr ([(q! "uid", r.uid), (q! "gid", r.gid)] ++ x) (q! "uid") = r.uid := by intro x; simp [attr]
      have h2 : ∀ x, attr ([(q! "uid", r.uid), (q! "gid", r.gid)] ++ x) (q! "gid") = r.gid := by intro x; simp [attr]
      rw [h1, h2]
      have h3 : attr ([(q! "uid", r.uid), (q! "gid", r.gid)] ++
          if !r.preferredEmail.isEmpty then [(q! "preferredEmail", r.preferredEmail)] else []) (q! "preferredEmail") = r.preferredEmail := by
        cases hp : r.preferredEmail with
        | nil => simp [attr]
        | cons a b => simp [attr]
      rw [h3]
      cases hu : r.uid <;> cases hg : r.gid <;> simp
    simp only [List.flatMap_cons, writeRef, List.cons_append, List.nil_append]
    rw [readMembers, if_neg (by decide), if_pos rfl]
    simp only [List.cons_append, List.nil_append] at hrr
    rw [hrr]
    by_cases h : r.uid ≠ [] ∨ r.gid ≠ []
    · simp only [if_pos h]
      rw [readMembers, if_neg (by decide), ih]
      by_cases h' : ∀ r ∈ t, r.uid ≠ [] ∨ r.gid ≠ []
      · rw [if_pos h', if_pos (by intro x hx; rcases List.mem_cons.1 hx with e | hx; (· rw [e]; exact h); exact h' x hx)]
        simp
      · rw [if_neg h', if_neg (fun hh => h' (fun x hx => hh x (List.mem_cons_of_mem _ hx)))]
    · simp only [if_neg h]
      rw [if_neg (fun hh => h (hh r (by simp)))]

theorem read_groupRefs (rs : List GroupRef) : ∀ (g : Group) (rest : List Xml),
    readMembers g (rs.flatMap writeGroupRef ++ rest) =
      if ∀ r ∈ rs, r.uid ≠ [] then
        readMembers { g with groupRefs := g.groupRefs ++ rs.map fun r => { r with customs := [] } } rest
      else none := by
  induction rs with
  | nil => intro g rest; simp
  | cons r t ih =>
    intro g rest
    have hrr : readGroupRef [(q! "uid", r.uid)] = if r.uid ≠ [] then some { r with customs := [] } else none := by
      unfold readGroupRef; cases hu : r.uid <;> simp [attr]
    simp only [List.flatMap_cons, writeGroupRef, List.cons_append, List.nil_append]
    rw [readMembers, if_neg (by decide), if_neg (by decide), if_pos rfl, hrr]
    by_cases h : r.uid ≠ []
    · simp only [if_pos h]
      rw [readMembers, if_neg (by decide), ih]
      by_cases h' : ∀ r ∈ t, r.uid ≠ []
      · rw [if_pos h', if_pos (by intro x hx; rcases List.mem_cons.1 hx with e | hx; (· rw [e]; exact h); exact h' x hx)]
        simp
      · rw [if_neg h', if_neg (fun hh => h' (fun x hx => hh x (List.mem_cons_of_mem _ hx)))]
    · simp only [if_neg h]
      rw [if_neg (fun hh => h (hh r (by simp)))]

theorem read_data (rs : List GroupData) : ∀ (g : Group) (rest : List Xml),
    readMembers g (rs.flatMap writeData ++ rest) =
      if ∀ r ∈ rs, r.email ≠ [] then
        readMembers { g with data := g.data ++ rs.map fun r => { r with customs := [] } } rest
      else none := by
  induction rs with
  | nil => intro g rest; simp
  | cons r t ih =>
    intro g rest
    have hrr : readData [(q! "name", r.name), (q! "email", r.email)] = if r.email ≠ [] then some { r with customs := [] } else none := by
      unfold readData; cases hu : r.email <;> simp [attr]
    simp only [List.flatMap_cons, writeData, List.cons_append, List.nil_append]
    rw [readMembers, if_pos rfl, hrr]
    by_cases h : r.email ≠ []
    · simp only [if_pos h]
      rw [readMembers, if_neg (by decide), ih]
      by_cases h' : ∀ r ∈ t, r.email ≠ []
      · rw [if_pos h', if_pos (by intro x hx; rcases List.mem_cons.1 hx with e | hx; (· rw [e]; exact h); exact h' x hx)]
        simp
      · rw [if_neg h', if_neg (fun hh => h' (fun x hx => hh x (List.mem_cons_of_mem _ hx)))]
    · simp only [if_neg h]
      rw [if_neg (fun hh => h (hh r (by simp)))]

/-- Reading the written form of a group, followed by anything. -/
theorem readGroup_write (fresh : QString) (g : Group) (rest : List Xml) :
    (ReadableGroup g → readGroup { id := fresh } [(q! "uid", g.id), (q! "name", g.name)]
      (g.refs.flatMap writeRef ++ g.groupRefs.flatMap writeGroupRef ++ g.data.flatMap writeData ++ [.finish (q! "contactGroup")] ++ rest)
        = some (g.withoutCustoms, rest)) ∧
    (¬ ReadableGroup g → readGroup { id := fresh } [(q! "uid", g.id), (q! "name", g.name)]
      (g.refs.flatMap writeRef ++ g.groupRefs.flatMap writeGroupRef ++ g.data.flatMap writeData ++ [.finish (q! "contactGroup")] ++ rest)
        = none) := by
  unfold readGroup
  have h1 : attr [(q! "uid", g.id), (q! "name", g.name)] (q! "uid") = g.id := by simp [attr]
  have h2 : attr [(q! "uid", g.id), (q! "name", g.name)] (q! "name") = g.name := by simp [attr]
  rw [h1, h2]
  simp only [List.append_assoc]
  rw [read_refs]
  constructor
  · intro h
    rw [if_neg (by simpa using h.id), if_neg (by simpa using h.name), if_pos h.refs, read_groupRefs, if_pos h.groupRefs, read_data,
      if_pos h.data]
    simp [readMembers, Group.withoutCustoms]
  · intro h
    by_cases hi : g.id = []
    · simp [hi]
    by_cases hn : g.name = []
    · simp [hn]
    rw [if_neg (by simpa using hi), if_neg (by simpa using hn)]
    by_cases hr : ∀ r ∈ g.refs, r.uid ≠ [] ∨ r.gid ≠ []
    · rw [if_pos hr, read_groupRefs]
      by_cases hg : ∀ r ∈ g.groupRefs, r.uid ≠ []
      · rw [if_pos hg, read_data]
        by_cases hd : ∀ r ∈ g.data, r.email ≠ []
        · exact absurd ⟨hi, hn, hr, hg, hd⟩ h
        · rw [if_neg hd]
      · rw [if_neg hg]
    · rw [if_neg hr]

/-- Exact behaviour of writing and reading a group: it comes back without the custom fields of its members if it is
    readable, and is rejected otherwise. -/
theorem C46_group (fresh : QString) (g : Group) (d : XmlDoc) (hd : Carries d (writeGroup g)) :
    (ReadableGroup g → groupFromXml { id := fresh } d = some g.withoutCustoms) ∧
    (¬ ReadableGroup g → groupFromXml { id := fresh } d = none) := by
  unfold groupFromXml
  rw [readGroupDoc_strip, hd]
  unfold writeGroup
  rw [readGroupDoc, if_pos rfl]
  have := readGroup_write fresh g []
  simp only [List.append_nil] at this
  constructor
  · intro h; rw [this.1 h]; rfl
  · intro h; rw [this.2 h]; rfl

/-- Partial: a readable group without custom fields comes back exactly (including the gids, which comparison ignores). -/
theorem C46_group_partial (fresh : QString) (g : Group) (d : XmlDoc) (hd : Carries d (writeGroup g)) (hr : ReadableGroup g)
    (h1 : ∀ r ∈ g.refs, r.customs = []) (h2 : ∀ r ∈ g.groupRefs, r.customs = []) (h3 : ∀ r ∈ g.data, r.customs = []) :
    groupFromXml { id := fresh } d = some g := by
  rw [(C46_group fresh g d hd).1 hr]
  congr 1
  unfold Group.withoutCustoms
  have e1 : g.refs.map (fun r => { r with customs := [] }) = g.refs := by
    conv => rhs; rw [← List.map_id g.refs]
    apply List.map_congr_left; intro r hr; rw [← h1 r hr]; rfl
  have e2 : g.groupRefs.map (fun r => { r with customs := [] }) = g.groupRefs := by
    conv => rhs; rw [← List.map_id g.groupRefs]
    apply List.map_congr_left; intro r hr; rw [← h2 r hr]; rfl
  have e3 : g.data.map (fun r => { r with customs := [] }) = g.data := by
    conv => rhs; rw [← List.map_id g.data]
    apply List.map_congr_left; intro r hr; rw [← h3 r hr]; rfl
  rw [e1, e2, e3]

theorem readList_groups (w : Bool) (fresh : QString) (gs : List Group) : ∀ (acc : List Group) (rest : List Xml), (∀ g ∈ gs, ReadableGroup g) →
    readGroupListLoop w fresh 1 acc (gs.flatMap writeGroup ++ rest) =
      readGroupListLoop w fresh 1 (acc ++ gs.map Group.withoutCustoms) rest := by
  induction gs with
  | nil => intro acc rest _; simp
  | cons g t ih =>
    intro acc rest h
    have hg := (readGroup_write fresh g (t.flatMap writeGroup ++ rest)).1 (h g (by simp))
    rw [List.flatMap_cons]
    conv => lhs; rw [writeGroup, List.append_assoc, List.cons_append, readGroupListLoop]
    rw [if_neg (by decide), if_pos (by decide), if_pos rfl]
    split
    · rename_i hn; rw [hg] at hn; cases hn
    · rename_i g2 t2 hn
      rw [hg] at hn; cases hn
      rw [ih _ _ (fun x hx => h x (List.mem_cons_of_mem _ hx))]
      simp

/-- A list of readable groups comes back as the same list, without the members' custom fields. -/
theorem C46_list (fresh : QString) (gs : List Group) (d : XmlDoc) (hw : d.wellFormed = true) (hd : Carries d (writeGroupList gs))
    (h : ∀ g ∈ gs, ReadableGroup g) : groupsFromXml fresh [] d = (true, gs.map Group.withoutCustoms) := by
  unfold groupsFromXml
  rw [readList_strip _ _ _ _ _ _ (Nat.le_refl _), hd]
  unfold writeGroupList
  rw [readGroupListLoop, if_pos (by decide), if_pos rfl]
  have : (0 : Int) + 1 = 1 := rfl
  rw [this, readList_groups _ _ _ _ _ h, readGroupListLoop, readGroupListLoop, hw]
  simp

/-- Partial: without custom fields the same list, exactly. -/
theorem C46_list_partial (fresh : QString) (gs : List Group) (d : XmlDoc) (hw : d.wellFormed = true) (hd : Carries d (writeGroupList gs))
    (h : ∀ g ∈ gs, ReadableGroup g) (hc : ∀ g ∈ gs, g.withoutCustoms = g) : groupsFromXml fresh [] d = (true, gs) := by
  rw [C46_list fresh gs d hw hd h]
  congr 1
  conv => rhs; rw [← List.map_id gs]
  exact List.map_congr_left hc

/-- Non-vacuity: a group with all kinds of members is readable and comes back. -/
example : let g : Group := { id := q! "1", name := q! "n", refs := [{ uid := q! "u", gid := q! "g" }, { gid := q! "x", preferredEmail := q! "e" }],
                             groupRefs := [{ uid := q! "v" }], data := [{ name := q! "a", email := q! "b" }] }
    groupFromXml { id := [] } ⟨.other :: writeGroup g, true⟩ = some g ∧
    groupsFromXml [] [] ⟨writeGroupList [g, g], true⟩ = (true, [g, g]) := by decide +kernel

/-- The claim as listed is false: custom fields are not written. -/
theorem C46_customs_false : ¬ ∀ (g : Group), ReadableGroup g → ∃ g', groupFromXml { id := [] } ⟨writeGroup g, true⟩ = some g' ∧ g.eq g' = true := by
  intro h
  obtain ⟨g', h1, h2⟩ := h { id := q! "1", name := q! "n", data := [{ email := q! "e", customs := [(q! "k", q! "v")] }] }
    ⟨by decide, by decide, by simp, by simp, by simp⟩
  rw [show groupFromXml { id := [] } _ = some { id := q! "1", name := q! "n", data := [{ email := q! "e" }] } from by decide +kernel] at h1
  cases h1
  exact absurd h2 (by decide)

/-- ... and a group with a nameless member address, or without a name, is written but rejected on reading. -/
theorem C46_unreadable_false : (∃ g : Group, groupFromXml { id := [] } ⟨writeGroup g, true⟩ = none ∧ g.id ≠ [] ∧ g.data = []) ∧
    (∃ g : Group, groupFromXml { id := [] } ⟨writeGroup g, true⟩ = none ∧ g.name ≠ [] ∧ g.data = [{ name := q! "a" }]) :=
  ⟨⟨{ id := q! "1" }, by decide +kernel⟩, ⟨{ id := q! "1", name := q! "n", data := [{ name := q! "a" }] }, by decide +kernel⟩⟩

/-- One XML element: a start tag, elements inside it, and the end tag of the same name. -/
inductive Element : List Xml → Prop where
  | mk (n : QString) (a : List (QString × QString)) (kids : List (List Xml)) (h : ∀ k ∈ kids, Element k) :
      Element (.start n a :: (kids.flatten ++ [.finish n]))

/-- What is written for a group is one element whose tags are properly nested. -/
theorem C46_nested_group (g : Group) : Element (writeGroup g) := by
  have e : writeGroup g = .start (q! "contactGroup") [(q! "uid", g.id), (q! "name", g.name)] ::
      ((g.refs.map writeRef ++ g.groupRefs.map writeGroupRef ++ g.data.map writeData).flatten ++ [.finish (q! "contactGroup")]) := by
    simp [writeGroup, List.flatMap]
  rw [e]
  refine .mk _ _ _ ?_
  intro k hk
  simp only [List.mem_append, List.mem_map] at hk
  rcases hk with (⟨r, _, rfl⟩ | ⟨r, _, rfl⟩) | ⟨r, _, rfl⟩
  · exact .mk _ _ [] (by simp)
  · exact .mk _ _ [] (by simp)
  · exact .mk _ _ [] (by simp)

/-- ... and so is what is written for a list of groups. -/
theorem C46_nested_list (gs : List Group) : Element (writeGroupList gs) := by
  have e : writeGroupList gs = .start (q! "contactGroupList") [] ::
      ((gs.map writeGroup).flatten ++ [.finish (q! "contactGroupList")]) := by simp [writeGroupList, List.flatMap]
  rw [e]
  refine .mk _ _ _ ?_
  intro k hk
  obtain ⟨g, _, rfl⟩ := List.mem_map.1 hk
  exact C46_nested_group g

/-! ### C47: only complete documents are accepted -/

/-- The members the start tags of a list of tokens describe, or `none` if one of them is not a member or lacks its
    mandatory attribute. -/
inductive Member where
  | ref (r : ContactRef) | groupRef (r : GroupRef) | data (d : GroupData)

/-- A start tag is a complete member. -/
def CompleteMember (n : QString) (a : List (QString × QString)) : Prop :=
  (n = q! "contactData" ∧ attr a (q! "email") ≠ []) ∨
  (n = q! "contactReference" ∧ (attr a (q! "uid") ≠ [] ∨ attr a (q! "gid") ≠ [])) ∨
  (n = q! "contactGroupReference" ∧ attr a (q! "uid") ≠ [])

/-- A complete group: the tokens are members only, up to the closing tag of the group. -/
def CompleteBody (toks : List Xml) : Prop :=
  ∃ body rest, toks = body ++ .finish (q! "contactGroup") :: rest ∧
    (∀ n a, Xml.start n a ∈ body → CompleteMember n a) ∧ Xml.finish (q! "contactGroup") ∉ body

theorem readMembers_complete (t : List Xml) : ∀ g : Group, (readMembers g t).isSome = true ↔ CompleteBody t := by
  induction t with
  | nil => intro g; simp [readMembers, CompleteBody]
  | cons x t ih =>
    intro g
    have step : ∀ (P : Prop), (∀ g', (readMembers g' t).isSome = true ↔ CompleteBody t) →
        (∀ n a, x = .start n a → CompleteMember n a) → x ≠ .finish (q! "contactGroup") → (CompleteBody (x :: t) ↔ CompleteBody t) := by
      intro _ _ hm hne
      constructor
      · rintro ⟨body, rest, e, h1, h2⟩
        cases body with
        | nil => simp only [List.nil_append, List.cons.injEq] at e; exact absurd e.1 hne
        | cons y b =>
          simp only [List.cons_append, List.cons.injEq] at e
          exact ⟨b, rest, e.2, fun n a h => h1 n a (List.mem_cons_of_mem _ h), fun h => h2 (List.mem_cons_of_mem _ h)⟩
      · rintro ⟨body, rest, e, h1, h2⟩
        refine ⟨x :: body, rest, by rw [e]; rfl, ?_, ?_⟩
        · intro n a h
          rcases List.mem_cons.1 h with h | h
          · exact hm n a h.symm
          · exact h1 n a h
        · intro h
          rcases List.mem_cons.1 h with h | h
          · exact hne h.symm
          · exact h2 h
    have bad : ∀ n a, x = .start n a → ¬ CompleteMember n a → ¬ CompleteBody (x :: t) := by
      rintro n a hx hc ⟨body, rest, e, h1, -⟩
      cases body with
      | nil => simp only [List.nil_append, List.cons.injEq, hx] at e; exact absurd e.1 (by simp)
      | cons y b =>
        simp only [List.cons_append, List.cons.injEq] at e
        exact hc (h1 n a (by rw [← hx, e.1]; simp))
    cases x with
    | other => rw [readMembers, ih]; exact (step True ih (by simp) (by simp)).symm
    | finish n =>
      rw [readMembers]
      by_cases hn : n = q! "contactGroup"
      · rw [if_pos hn]
        subst hn
        simp only [Option.isSome_some, true_iff]
        exact ⟨[], t, rfl, by simp, by simp⟩
      · rw [if_neg hn, ih]
        exact (step True ih (by simp) (by simpa using hn)).symm
    | start n a =>
      rw [readMembers]
      by_cases h1 : n = q! "contactData"
      · rw [if_pos h1]
        unfold readData
        by_cases he : attr a (q! "email") = []
        · simp only [he, List.isEmpty_nil, if_true, Option.isSome_none, Bool.false_eq_true, false_iff]
          apply bad n a rfl
          subst h1
          rintro (⟨_, h⟩ | ⟨h, _⟩ | ⟨h, _⟩)
          · exact h he
          · exact absurd h (by decide)
          · exact absurd h (by decide)
        · rw [if_neg (by simpa using he)]
          simp only
          rw [ih]
          exact (step True ih (by intro n' a' e; cases e; left; exact ⟨h1, he⟩) (by simp)).symm
      · rw [if_neg h1]
        by_cases h2 : n = q! "contactReference"
        · rw [if_pos h2]
          unfold readRef
          by_cases he : attr a (q! "uid") = [] ∧ attr a (q! "gid") = []
          · simp only [he.1, he.2, List.isEmpty_nil, Bool.and_self, if_true, Option.isSome_none, Bool.false_eq_true, false_iff]
            apply bad n a rfl
            rintro (⟨h, _⟩ | ⟨_, h⟩ | ⟨h, _⟩)
            · exact h1 h
            · exact h.elim (fun h => h he.1) (fun h => h he.2)
            · subst h2; exact absurd h (by decide)
          · rw [if_neg (by simpa using he)]
            simp only
            rw [ih]
            refine (step True ih ?_ (by simp)).symm
            intro n' a' e; cases e; right; left
            refine ⟨h2, ?_⟩
            by_cases hu : attr a (q! "uid") = []
            · right; exact fun hg => he ⟨hu, hg⟩
            · left; exact hu
        · rw [if_neg h2]
          by_cases h3 : n = q! "contactGroupReference"
          · rw [if_pos h3]
            unfold readGroupRef
            by_cases he : attr a (q! "uid") = []
            · simp only [he, List.isEmpty_nil, if_true, Option.isSome_none, Bool.false_eq_true, false_iff]
              apply bad n a rfl
              rintro (⟨h, _⟩ | ⟨h, _⟩ | ⟨_, h⟩)
              · exact h1 h
              · exact h2 h
              · exact h he
            · rw [if_neg (by simpa using he)]
              simp only
              rw [ih]
              exact (step True ih (by intro n' a' e; cases e; right; right; exact ⟨h3, he⟩) (by simp)).symm
          · rw [if_neg h3]
            simp only [Option.isSome_none, Bool.false_eq_true, false_iff]
            apply bad n a rfl
            rintro (⟨h, _⟩ | ⟨h, _⟩ | ⟨h, _⟩)
            · exact h1 h
            · exact h2 h
            · exact h3 h

/-- A document with a root element is accepted exactly if the root is a group with a uid and a name, and all elements up to its
    end are members having their mandatory attributes. -/
theorem C47_accepted_iff (g : Group) (w : Bool) (pre : List Xml) (hpre : ∀ x ∈ pre, x = .other) (n : QString) (a : List (QString × QString))
    (t : List Xml) :
    (groupFromXml g ⟨pre ++ .start n a :: t, w⟩).isSome = true ↔
      n = q! "contactGroup" ∧ attr a (q! "uid") ≠ [] ∧ attr a (q! "name") ≠ [] ∧ CompleteBody t := by
  unfold groupFromXml
  simp only
  induction pre with
  | cons x r ih =>
    have : x = .other := hpre x (by simp)
    subst this
    rw [List.cons_append, readGroupDoc]
    · exact ih (fun y hy => hpre y (List.mem_cons_of_mem _ hy))
    · simp
  | nil =>
    rw [List.nil_append, readGroupDoc]
    by_cases h1 : n = q! "contactGroup"
    · rw [if_pos h1]
      unfold readGroup
      by_cases h2 : attr a (q! "uid") = []
      · simp [h2]
      · by_cases h3 : attr a (q! "name") = []
        · simp [h3]
        · rw [if_neg (by simpa using h2), if_neg (by simpa using h3), Option.isSome_map, readMembers_complete]
          simp [h1, h2, h3]
    · simp [h1]

/-- Reading a list: a group element that is incomplete makes the whole document rejected, wherever it stands, and every
    group reported before comes from a complete element. -/
theorem C47_list_rejects (w : Bool) (fresh : QString) (acc : List Group) (a : List (QString × QString)) (t : List Xml)
    (h : attr a (q! "uid") = [] ∨ attr a (q! "name") = [] ∨ ¬ CompleteBody t) :
    readGroupListLoop w fresh 1 acc (.start (q! "contactGroup") a :: t) = (false, acc) := by
  rw [readGroupListLoop, if_neg (by decide), if_pos (by decide), if_pos rfl]
  have hn : readGroup { id := fresh } a t = none := by
    unfold readGroup
    rcases h with h | h | h
    · simp [h]
    · by_cases h' : attr a (q! "uid") = [] <;> simp [h, h']
    · split
      · rfl
      · split
        · rfl
        · cases hm : readMembers _ t with
          | none => rfl
          | some p => exact absurd ((readMembers_complete t _).1 (by rw [hm]; rfl)) h
  split
  · rfl
  · rename_i h'; rw [hn] at h'; cases h'

/-- The whole document: a list element, complete groups, then an incomplete one: rejected. -/
theorem C47_list_document (fresh : QString) (gs : List Group) (hgs : ∀ g ∈ gs, ReadableGroup g) (w : Bool) (a0 a : List (QString × QString))
    (t : List Xml) (h : attr a (q! "uid") = [] ∨ attr a (q! "name") = [] ∨ ¬ CompleteBody t) :
    groupsFromXml fresh [] ⟨.start (q! "contactGroupList") a0 :: (gs.flatMap writeGroup ++ .start (q! "contactGroup") a :: t), w⟩ =
      (false, gs.map Group.withoutCustoms) := by
  unfold groupsFromXml
  simp only
  rw [readGroupListLoop, if_pos (by decide), if_pos rfl, show (0 : Int) + 1 = 1 from rfl, readList_groups _ _ _ _ _ hgs]
  rw [C47_list_rejects w fresh _ a t h]
  simp

example : (groupFromXml { id := [] } ⟨[.start (q! "contactGroup") [(q! "uid", q! "1"), (q! "name", q! "n")],
    .start (q! "contactData") [(q! "name", q! "a")], .finish (q! "contactData"), .finish (q! "contactGroup")], true⟩) = none := by decide +kernel

end KC
