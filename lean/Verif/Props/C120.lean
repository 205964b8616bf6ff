import Verif.Props.C47
import Mathlib.Data.List.Forall2
/-
  C120: the order of attributes and of members in a contact group file, and attributes nobody asked for.
-/
namespace KC

/-! ### what is meant -/

/-- The attributes that mean something in a contact group file. -/
def groupAttributes : List QString := [q! "uid", q! "gid", q! "name", q! "email", q! "preferredEmail"]

/-- The same attributes, in any order, and any others. (XML does not allow an attribute twice in a tag.) -/
structure SameAttributes (a b : List (QString × QString)) : Prop where
  once : (a.map (·.1)).Nodup
  once' : (b.map (·.1)).Nodup
  same : (a.filter (·.1 ∈ groupAttributes)).Perm (b.filter (·.1 ∈ groupAttributes))

/-- The same tag but for the order of its attributes and attributes that mean nothing. -/
inductive SameTag : Xml → Xml → Prop
  | start (n : QString) {a b : List (QString × QString)} : SameAttributes a b → SameTag (.start n a) (.start n b)
  | finish (n : QString) : SameTag (.finish n) (.finish n)

/-- The same tags in the same order, with any white space and comments, and a syntax error after both or neither. -/
def SameTags (d e : XmlDoc) : Prop :=
  List.Forall₂ SameTag (d.toks.filter (· ≠ .other)) (e.toks.filter (· ≠ .other)) ∧ d.wellFormed = e.wellFormed

/-! ### helpers -/

theorem attr_filter (a : List (QString × QString)) (n : QString) : attr a n = ((a.filter (·.1 = n)).head?.map (·.2)).getD [] := by
  induction a with
  | nil => rfl
  | cons x a ih =>
    obtain ⟨m, v⟩ := x
    by_cases h : m = n
    · subst h; simp [attr]
    · simp [attr, h, ih]

theorem once_filter (a : List (QString × QString)) (n : QString) (h : (a.map (·.1)).Nodup) : (a.filter (·.1 = n)).length ≤ 1 := by
  induction a with
  | nil => simp
  | cons x a ih =>
    obtain ⟨m, v⟩ := x
    rw [List.map_cons, List.nodup_cons] at h
    by_cases e : m = n
    · subst e
      have : a.filter (·.1 = m) = [] := by
        rw [List.filter_eq_nil_iff]
        intro y hy hym
        exact h.1 (List.mem_map.2 ⟨y, hy, by simpa using hym⟩)
      simp [this]
    · simpa [e] using ih h.2

theorem SameAttributes.attr {a b : List (QString × QString)} (h : SameAttributes a b) {n : QString} (hn : n ∈ groupAttributes) :
    attr a n = KC.attr b n := by
  have hf : ∀ l : List (QString × QString), (l.filter (·.1 ∈ groupAttributes)).filter (·.1 = n) = l.filter (·.1 = n) := by
    intro l
    rw [List.filter_filter]
    apply List.filter_congr
    intro x _
    by_cases e : x.1 = n <;> simp [e, hn]
  have hp : (a.filter (·.1 = n)).Perm (b.filter (·.1 = n)) := by
    have := h.same.filter (·.1 = n)
    rwa [hf, hf] at this
  have e : a.filter (·.1 = n) = b.filter (·.1 = n) := by
    have h1 := once_filter a n h.once
    match ha : a.filter (·.1 = n) with
    | [] => rw [ha] at hp; exact ha.trans (List.nil_perm.1 hp).symm
    | [x] => rw [ha] at hp; exact ha.trans (List.singleton_perm.1 hp)
    | _ :: _ :: _ => rw [ha] at h1; simp at h1
  rw [attr_filter, attr_filter, e]

theorem same_data {a b} (h : SameAttributes a b) : readData a = readData b := by
  unfold readData
  rw [h.attr (n := q! "email") (by decide), h.attr (n := q! "name") (by decide)]

theorem same_ref {a b} (h : SameAttributes a b) : readRef a = readRef b := by
  unfold readRef
  rw [h.attr (n := q! "uid") (by decide), h.attr (n := q! "gid") (by decide), h.attr (n := q! "preferredEmail") (by decide)]

theorem same_groupRef {a b} (h : SameAttributes a b) : readGroupRef a = readGroupRef b := by
  unfold readGroupRef
  rw [h.attr (n := q! "uid") (by decide)]

/-- Both fail, or both give the same group and go on with similar tokens. -/
def SameXmlRead (x y : Option (Group × List Xml)) : Prop :=
  x = none ∧ y = none ∨ ∃ g t u, x = some (g, t) ∧ y = some (g, u) ∧ List.Forall₂ SameTag t u

theorem same_members {t u : List Xml} (h : List.Forall₂ SameTag t u) : ∀ g : Group, SameXmlRead (readMembers g t) (readMembers g u) := by
  induction h with
  | nil => intro g; exact .inl ⟨rfl, rfl⟩
  | @cons x y t u hx ht ih =>
    intro g
    cases hx with
    | finish n =>
      rw [readMembers, readMembers]
      split
      · exact .inr ⟨g, t, u, rfl, rfl, ht⟩
      · exact ih g
    | start n ha =>
      rw [readMembers, readMembers, same_data ha, same_ref ha, same_groupRef ha]
      split
      · split
        · exact .inl ⟨rfl, rfl⟩
        · exact ih _
      · split
        · split
          · exact .inl ⟨rfl, rfl⟩
          · exact ih _
        · split
          · split
            · exact .inl ⟨rfl, rfl⟩
            · exact ih _
          · exact .inl ⟨rfl, rfl⟩

theorem same_group {a b} (ha : SameAttributes a b) {t u : List Xml} (h : List.Forall₂ SameTag t u) (g : Group) :
    SameXmlRead (readGroup g a t) (readGroup g b u) := by
  unfold readGroup
  rw [ha.attr (n := q! "uid") (by decide), ha.attr (n := q! "name") (by decide)]
  split
  · exact .inl ⟨rfl, rfl⟩
  · split
    · exact .inl ⟨rfl, rfl⟩
    · exact same_members h _

theorem same_doc (w : Bool) (g : Group) {t u : List Xml} (h : List.Forall₂ SameTag t u) : readGroupDoc w g t = readGroupDoc w g u := by
  induction h with
  | nil => rfl
  | @cons x y t u hx ht ih =>
    cases hx with
    | finish n => exact ih
    | start n ha =>
      rw [readGroupDoc, readGroupDoc]
      split
      · rcases same_group ha ht g with ⟨h1, h2⟩ | ⟨g', t', u', h1, h2, _⟩
        · rw [h1, h2]
        · rw [h1, h2]; rfl
      · rfl

theorem same_list (w : Bool) (fresh : QString) : ∀ (k : Nat) (t u : List Xml), t.length ≤ k → List.Forall₂ SameTag t u →
    ∀ (depth : Int) (acc : List Group), readGroupListLoop w fresh depth acc t = readGroupListLoop w fresh depth acc u := by
  intro k
  induction k with
  | zero =>
    intro t u hk h depth acc
    cases h with
    | nil => rfl
    | cons => simp at hk
  | succ k ih =>
    intro t u hk h depth acc
    cases h with
    | nil => rfl
    | @cons x y t u hx ht =>
      have hl : t.length ≤ k := by simpa using hk
      cases hx with
      | finish n => rw [readGroupListLoop, readGroupListLoop]; exact ih t u hl ht _ _
      | start n ha =>
        rw [readGroupListLoop, readGroupListLoop]
        split
        · split
          · exact ih t u hl ht _ _
          · rfl
        · split
          · split
            · rcases same_group ha ht { id := fresh } with ⟨h1, h2⟩ | ⟨g, t', u', h1, h2, h3⟩
              · split
                · split
                  · rfl
                  · rename_i hn; rw [h2] at hn; cases hn
                · rename_i hn; rw [h1] at hn; cases hn
              · split
                · rename_i hn; rw [h1] at hn; cases hn
                · rename_i hn
                  have hlen := readGroup_length hn
                  rw [h1] at hn; cases hn
                  split
                  · rename_i hn; rw [h2] at hn; cases hn
                  · rename_i hn; rw [h2] at hn; cases hn
                    exact ih t' u' (by omega) h3 _ _
            · rfl
          · exact ih t u hl ht _ _

theorem leftMembers_strip (t : List Xml) : ∀ g : Group, leftMembers g t = leftMembers g (t.filter (· ≠ .other)) := by
  induction t with
  | nil => intro g; rfl
  | cons x t ih =>
    intro g
    cases x with
    | other => simpa [leftMembers] using ih g
    | finish n =>
      rw [List.filter_cons_of_pos (by simp), leftMembers, leftMembers, ih g]
    | start n a =>
      rw [List.filter_cons_of_pos (by simp), leftMembers, leftMembers]
      split
      · split
        · rfl
        · exact ih _
      · split
        · split
          · rfl
          · exact ih _
        · split
          · split
            · rfl
            · exact ih _
          · rfl

theorem leftDoc_strip (g : Group) (t : List Xml) : leftDoc g t = leftDoc g (t.filter (· ≠ .other)) := by
  induction t with
  | nil => rfl
  | cons x t ih =>
    cases x with
    | other => simpa [leftDoc] using ih
    | finish n => rw [List.filter_cons_of_pos (by simp)]; exact ih
    | start n a =>
      rw [List.filter_cons_of_pos (by simp), leftDoc, leftDoc]
      unfold leftGroup
      rw [← leftMembers_strip]

theorem same_left {t u : List Xml} (h : List.Forall₂ SameTag t u) : ∀ g : Group, leftMembers g t = leftMembers g u := by
  induction h with
  | nil => intro g; rfl
  | @cons x y t u hx ht ih =>
    intro g
    cases hx with
    | finish n => rw [leftMembers, leftMembers, ih g]
    | start n ha =>
      rw [leftMembers, leftMembers, same_data ha, same_ref ha, same_groupRef ha]
      split
      · split
        · rfl
        · exact ih _
      · split
        · split
          · rfl
          · exact ih _
        · split
          · split
            · rfl
            · exact ih _
          · rfl

theorem same_leftDoc (g : Group) {t u : List Xml} (h : List.Forall₂ SameTag t u) : leftDoc g t = leftDoc g u := by
  induction h with
  | nil => rfl
  | @cons x y t u hx ht ih =>
    cases hx with
    | finish n => exact ih
    | start n ha =>
      rw [leftDoc, leftDoc]
      unfold leftGroup
      rw [ha.attr (n := q! "uid") (by decide), ha.attr (n := q! "name") (by decide), same_left ht]

/-- A member element, written as an opening and a closing tag. -/
def memberTags (m : QString × List (QString × QString)) : List Xml := [.start m.1 m.2, .finish m.1]

/-- The elements a group may have. -/
def memberKinds : List QString := [q! "contactReference", q! "contactGroupReference", q! "contactData"]

theorem kinds_ne {n : QString} (h : n ∈ memberKinds) : n ≠ q! "contactGroup" := by rintro rfl; exact absurd h (by decide)

theorem read_memberTags (ms : List (QString × List (QString × QString))) (hk : ∀ m ∈ ms, m.1 ∈ memberKinds) : ∀ (g : Group) (rest : List Xml),
    ((∀ m ∈ ms, CompleteMember m.1 m.2) → readMembers g (ms.flatMap memberTags ++ rest) = readMembers (ms.foldl (fun g m => addMember g m.1 m.2) g) rest) ∧
    (¬ (∀ m ∈ ms, CompleteMember m.1 m.2) → readMembers g (ms.flatMap memberTags ++ rest) = none) := by
  induction ms with
  | nil => intro g rest; exact ⟨fun _ => rfl, fun h => absurd (by simp) h⟩
  | cons m ms ih =>
    intro g rest
    have ih := ih (fun x hx => hk x (List.mem_cons_of_mem _ hx))
    have hn := kinds_ne (hk m (by simp))
    rw [List.flatMap_cons]
    by_cases hm : CompleteMember m.1 m.2
    · have e : readMembers g (memberTags m ++ ms.flatMap memberTags ++ rest) = readMembers (addMember g m.1 m.2) (ms.flatMap memberTags ++ rest) := by
        show readMembers g (.start m.1 m.2 :: .finish m.1 :: (ms.flatMap memberTags ++ rest)) = _
        rw [(readMembers_start g m.1 m.2 _).1 hm, readMembers, if_neg hn]
      rw [e]
      constructor
      · intro h
        exact (ih (addMember g m.1 m.2) rest).1 (fun x hx => h x (List.mem_cons_of_mem _ hx))
      · intro h
        exact (ih (addMember g m.1 m.2) rest).2 (fun h' => h (by simpa using ⟨hm, fun x y hxy => h' (x, y) hxy⟩))
    · constructor
      · intro h; exact absurd (h m (by simp)) hm
      · intro _; exact (readMembers_start g m.1 m.2 _).2 hm

theorem fold_memberKinds (ms : List (QString × List (QString × QString))) (hk : ∀ m ∈ ms, m.1 ∈ memberKinds) : ∀ g : Group,
    ms.foldl (fun g m => addMember g m.1 m.2) g =
      { g with
        refs := g.refs ++ (ms.filter (·.1 = q! "contactReference")).map fun m =>
          { uid := attr m.2 (q! "uid"), gid := attr m.2 (q! "gid"), preferredEmail := attr m.2 (q! "preferredEmail") }
        groupRefs := g.groupRefs ++ (ms.filter (·.1 = q! "contactGroupReference")).map fun m => { uid := attr m.2 (q! "uid") }
        data := g.data ++ (ms.filter (·.1 = q! "contactData")).map fun m => { name := attr m.2 (q! "name"), email := attr m.2 (q! "email") } } := by
  induction ms with
  | nil => intro g; simp
  | cons m ms ih =>
    intro g
    obtain ⟨n, a⟩ := m
    rw [List.foldl_cons, ih (fun x hx => hk x (List.mem_cons_of_mem _ hx))]
    have h := hk (n, a) (by simp)
    simp only [memberKinds, List.mem_cons, List.not_mem_nil, or_false] at h
    rcases h with rfl | rfl | rfl <;> simp [addMember]

/-! ### the property -/

/-- Two documents with the same tags but for the order of the attributes, attributes that mean nothing, white space and comments: the same
    group is read from both, or both are rejected; the same list of groups is read from both, with the same return value. -/
theorem C120 (g : Group) (fresh : QString) (l : List Group) (d e : XmlDoc) (h : SameTags d e) :
    groupFromXml g d = groupFromXml g e ∧ groupsFromXml fresh l d = groupsFromXml fresh l e := by
  obtain ⟨h, hw⟩ := h
  constructor
  · unfold groupFromXml
    rw [readGroupDoc_strip, readGroupDoc_strip _ _ e.toks, hw, same_doc _ _ h]
  · unfold groupsFromXml
    rw [readList_strip _ _ _ _ _ _ (Nat.le_refl _), readList_strip _ _ _ _ _ e.toks (Nat.le_refl _), hw, same_list _ _ _ _ _ (Nat.le_refl _) h]

/-- ... and the group passed in is the same afterwards, also if both are rejected. -/
theorem C120_after (g : Group) (d e : XmlDoc) (h : SameTags d e) : groupAfterXml g d = groupAfterXml g e := by
  unfold groupAfterXml
  rw [leftDoc_strip, leftDoc_strip _ e.toks, same_leftDoc g h.1]

/-- The members of different kinds may stand in any order: if two groups have the same references to contacts, the same references to
    groups and the same data, each in the same order among themselves, the same group is read, or both are rejected. -/
theorem C120_members (g : Group) (a : List (QString × QString)) (ms ns : List (QString × List (QString × QString))) (hm : ∀ m ∈ ms, m.1 ∈ memberKinds)
    (hn : ∀ m ∈ ns, m.1 ∈ memberKinds) (h : ∀ k ∈ memberKinds, ms.filter (·.1 = k) = ns.filter (·.1 = k)) (rest : List Xml) (w : Bool) :
    groupFromXml g ⟨.start (q! "contactGroup") a :: (ms.flatMap memberTags ++ .finish (q! "contactGroup") :: rest), w⟩ =
    groupFromXml g ⟨.start (q! "contactGroup") a :: (ns.flatMap memberTags ++ .finish (q! "contactGroup") :: rest), w⟩ := by
  unfold groupFromXml
  rw [readGroupDoc, readGroupDoc, if_pos rfl, if_pos rfl]
  unfold readGroup
  split
  · rfl
  · split
    · rfl
    · generalize ({ g with id := attr a (q! "uid"), name := attr a (q! "name") } : Group) = g'
      have hmem : ∀ x, x ∈ ms ↔ x ∈ ns := by
        intro x
        constructor
        · intro hx
          have : x ∈ ns.filter (·.1 = x.1) := by rw [← h _ (hm x hx)]; exact List.mem_filter.2 ⟨hx, by simp⟩
          exact (List.mem_filter.1 this).1
        · intro hx
          have : x ∈ ms.filter (·.1 = x.1) := by rw [h _ (hn x hx)]; exact List.mem_filter.2 ⟨hx, by simp⟩
          exact (List.mem_filter.1 this).1
      by_cases hc : ∀ m ∈ ms, CompleteMember m.1 m.2
      · have hc' : ∀ m ∈ ns, CompleteMember m.1 m.2 := fun m x => hc m ((hmem m).2 x)
        rw [(read_memberTags ms hm g' _).1 hc, (read_memberTags ns hn g' _).1 hc', fold_memberKinds ms hm, fold_memberKinds ns hn,
          h (q! "contactReference") (by decide), h (q! "contactGroupReference") (by decide), h (q! "contactData") (by decide)]
      · have hc' : ¬ ∀ m ∈ ns, CompleteMember m.1 m.2 := fun h' => hc fun m x => h' m ((hmem m).1 x)
        rw [(read_memberTags ms hm g' _).2 hc, (read_memberTags ns hn g' _).2 hc']

/-- The order of members of the same kind does matter. -/
theorem C120_same_kind_false : ¬ ∀ (ms ns : List (QString × List (QString × QString))), ms.Perm ns → (∀ m ∈ ms, m.1 ∈ memberKinds) →
    groupFromXml { id := [] } ⟨.start (q! "contactGroup") [(q! "uid", q! "1"), (q! "name", q! "n")] :: (ms.flatMap memberTags ++ [.finish (q! "contactGroup")]), true⟩ =
    groupFromXml { id := [] } ⟨.start (q! "contactGroup") [(q! "uid", q! "1"), (q! "name", q! "n")] :: (ns.flatMap memberTags ++ [.finish (q! "contactGroup")]), true⟩ := by
  intro h
  exact absurd (h [(q! "contactData", [(q! "email", q! "a")]), (q! "contactData", [(q! "email", q! "b")])]
    [(q! "contactData", [(q! "email", q! "b")]), (q! "contactData", [(q! "email", q! "a")])] (List.Perm.swap ..) (by decide)) (by decide +kernel)

/-- Non-vacuity: attributes in another order, one that means nothing, a comment; the group is read from both. -/
example :
    let d : XmlDoc := ⟨[.start (q! "contactGroup") [(q! "uid", q! "1"), (q! "name", q! "n")], .start (q! "contactData") [(q! "name", q! "a"), (q! "email", q! "b")],
      .finish (q! "contactData"), .finish (q! "contactGroup")], true⟩
    let e : XmlDoc := ⟨[.start (q! "contactGroup") [(q! "x", q! "y"), (q! "name", q! "n"), (q! "uid", q! "1")], .other,
      .start (q! "contactData") [(q! "email", q! "b"), (q! "name", q! "a")], .finish (q! "contactData"), .finish (q! "contactGroup")], true⟩
    SameTags d e ∧ groupFromXml { id := [] } e = some { id := q! "1", name := q! "n", data := [{ name := q! "a", email := q! "b" }] } := by
  refine ⟨⟨.cons (.start _ ⟨by decide, by decide, by decide⟩) (.cons (.start _ ⟨by decide, by decide, by decide⟩) (.cons (.finish _) (.cons (.finish _) .nil))), rfl⟩, ?_⟩
  decide +kernel

end KC
