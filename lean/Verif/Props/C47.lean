import Verif.Props.C46
/-
  C47 on element trees: which documents describing groups are accepted.
-/
namespace KC

/-- The content of an element: elements and other nodes (white space, comments) in document order. -/
inductive Forest where
  | nil
  | misc (rest : Forest)
  | elem (name : QString) (attrs : List (QString × QString)) (inside rest : Forest)

/-- The tokens of a content. -/
def Forest.toks : Forest → List Xml
  | .nil => []
  | .misc r => .other :: r.toks
  | .elem n a i r => .start n a :: (i.toks ++ .finish n :: r.toks)

/-- The tags of all elements, at any depth. -/
def Forest.tags : Forest → List (QString × List (QString × QString))
  | .nil => []
  | .misc r => r.tags
  | .elem n a i r => (n, a) :: (i.tags ++ r.tags)

/-- The elements at the outermost level with their contents. -/
def Forest.children : Forest → List (QString × List (QString × QString) × Forest)
  | .nil => []
  | .misc r => r.children
  | .elem n a i r => (n, a, i) :: r.children

/-- An element describing a group completely: it is named contactGroup, has an id and a name, and the elements in it are members
    with their mandatory attributes. -/
structure CompleteGroup (n : QString) (a : List (QString × QString)) (inside : Forest) : Prop where
  tag : n = q! "contactGroup"
  uid : attr a (q! "uid") ≠ []
  name : attr a (q! "name") ≠ []
  members : ∀ t ∈ inside.tags, CompleteMember t.1 t.2

/-- Adding the member a complete tag describes. -/
def addMember (g : Group) (n : QString) (a : List (QString × QString)) : Group :=
  if n = q! "contactData" then { g with data := g.data ++ [{ name := attr a (q! "name"), email := attr a (q! "email") }] }
  else if n = q! "contactReference" then
    { g with refs := g.refs ++ [{ uid := attr a (q! "uid"), gid := attr a (q! "gid"), preferredEmail := attr a (q! "preferredEmail") }] }
  else { g with groupRefs := g.groupRefs ++ [{ uid := attr a (q! "uid") }] }

theorem readMembers_start (g : Group) (n : QString) (a : List (QString × QString)) (t : List Xml) :
    (CompleteMember n a → readMembers g (.start n a :: t) = readMembers (addMember g n a) t) ∧
    (¬ CompleteMember n a → readMembers g (.start n a :: t) = none) := by
  rw [readMembers]
  unfold CompleteMember addMember readData readRef readGroupRef
  by_cases h1 : n = q! "contactData"
  · subst h1
    by_cases he : attr a (q! "email") = [] <;> simp [he]
  · by_cases h2 : n = q! "contactReference"
    · subst h2
      by_cases he : attr a (q! "uid") = [] <;> by_cases hg : attr a (q! "gid") = [] <;> simp [he, hg]
    · by_cases h3 : n = q! "contactGroupReference"
      · subst h3
        by_cases he : attr a (q! "uid") = [] <;> simp [he]
      · simp [h1, h2, h3]

theorem member_tag_ne {n : QString} {a} (h : CompleteMember n a) : n ≠ q! "contactGroup" := by
  rintro rfl
  rcases h with ⟨h, _⟩ | ⟨h, _⟩ | ⟨h, _⟩ <;> exact absurd h (by decide)

theorem readMembers_forest (f : Forest) : ∀ (g : Group) (rest : List Xml),
    ((∀ t ∈ f.tags, CompleteMember t.1 t.2) →
      readMembers g (f.toks ++ rest) = readMembers (f.tags.foldl (fun g t => addMember g t.1 t.2) g) rest) ∧
    (¬ (∀ t ∈ f.tags, CompleteMember t.1 t.2) → readMembers g (f.toks ++ rest) = none) := by
  induction f with
  | nil => intro g rest; simp [Forest.toks, Forest.tags]
  | misc r ih => intro g rest; simpa only [Forest.toks, Forest.tags, List.cons_append, readMembers] using ih g rest
  | elem n a i r ihi ihr =>
    intro g rest
    simp only [Forest.toks, Forest.tags, List.cons_append, List.append_assoc]
    by_cases hc : CompleteMember n a
    · rw [(readMembers_start g n a _).1 hc]
      by_cases hi : ∀ t ∈ i.tags, CompleteMember t.1 t.2
      · rw [(ihi _ _).1 hi, readMembers, if_neg (member_tag_ne hc)]
        by_cases hr : ∀ t ∈ r.tags, CompleteMember t.1 t.2
        · constructor
          · intro _
            rw [(ihr _ _).1 hr]
            simp [List.foldl_append]
          · intro h
            refine absurd ?_ h
            intro t ht
            rcases List.mem_cons.1 ht with e | ht
            · rw [e]; exact hc
            · rcases List.mem_append.1 ht with ht | ht
              · exact hi t ht
              · exact hr t ht
        · constructor
          · intro h
            exact absurd (fun t ht => h t (List.mem_cons_of_mem _ (List.mem_append_right _ ht))) hr
          · intro _
            exact (ihr _ _).2 hr
      · constructor
        · intro h
          exact absurd (fun t ht => h t (List.mem_cons_of_mem _ (List.mem_append_left _ ht))) hi
        · intro _
          exact (ihi _ _).2 hi
    · constructor
      · intro h; exact absurd (h (n, a) (by simp)) hc
      · intro _; exact (readMembers_start g n a _).2 hc

/-- The group a complete element describes. -/
def described (g0 : Group) (a : List (QString × QString)) (inside : Forest) : Group :=
  inside.tags.foldl (fun g t => addMember g t.1 t.2) { g0 with id := attr a (q! "uid"), name := attr a (q! "name") }

theorem readGroup_element (g0 : Group) (a : List (QString × QString)) (i : Forest) (rest : List Xml) :
    (CompleteGroup (q! "contactGroup") a i →
      readGroup g0 a (i.toks ++ .finish (q! "contactGroup") :: rest) = some (described g0 a i, rest)) ∧
    (¬ CompleteGroup (q! "contactGroup") a i → readGroup g0 a (i.toks ++ .finish (q! "contactGroup") :: rest) = none) := by
  unfold readGroup
  constructor
  · intro h
    rw [if_neg (by simpa using h.uid), if_neg (by simpa using h.name), (readMembers_forest i _ _).1 h.members, readMembers, if_pos rfl]
    rfl
  · intro h
    by_cases hu : attr a (q! "uid") = []
    · simp [hu]
    by_cases hn : attr a (q! "name") = []
    · simp [hn]
    rw [if_neg (by simpa using hu), if_neg (by simpa using hn)]
    by_cases hm : ∀ t ∈ i.tags, CompleteMember t.1 t.2
    · exact absurd ⟨rfl, hu, hn, hm⟩ h
    · exact (readMembers_forest i _ _).2 hm

/-- A document with one root element, possibly with other nodes before it, describes a group that is accepted exactly if it
    is complete. What follows the root element does not matter. -/
theorem C47_document_iff (g0 : Group) (w : Bool) (pre : List Xml) (hpre : ∀ x ∈ pre, x = .other) (n : QString)
    (a : List (QString × QString)) (inside : Forest) (after : List Xml) :
    (groupFromXml g0 ⟨pre ++ (Forest.elem n a inside .nil).toks ++ after, w⟩).isSome = true ↔ CompleteGroup n a inside := by
  unfold groupFromXml
  simp only
  induction pre with
  | cons x r ih =>
    have : x = .other := hpre x (by simp)
    subst this
    rw [List.append_assoc, List.cons_append, readGroupDoc]
    · rw [← List.append_assoc]; exact ih (fun y hy => hpre y (List.mem_cons_of_mem _ hy))
    · simp
  | nil =>
    simp only [Forest.toks, List.nil_append, List.cons_append, List.append_assoc]
    rw [readGroupDoc]
    by_cases hn : n = q! "contactGroup"
    · rw [if_pos hn]
      subst hn
      by_cases hc : CompleteGroup (q! "contactGroup") a inside
      · rw [(readGroup_element g0 a inside _).1 hc]; simpa using hc
      · rw [(readGroup_element g0 a inside _).2 hc]; simpa using hc
    · rw [if_neg hn]
      simp only [Option.isSome_none, Bool.false_eq_true, false_iff]
      exact fun h => hn h.tag

theorem readList_forest (w : Bool) (fresh : QString) (f : Forest) : ∀ (acc : List Group) (rest : List Xml),
    ((∀ e ∈ f.children, CompleteGroup e.1 e.2.1 e.2.2) →
      readGroupListLoop w fresh 1 acc (f.toks ++ rest) =
        readGroupListLoop w fresh 1 (acc ++ f.children.map fun e => described { id := fresh } e.2.1 e.2.2) rest) ∧
    (¬ (∀ e ∈ f.children, CompleteGroup e.1 e.2.1 e.2.2) →
      (readGroupListLoop w fresh 1 acc (f.toks ++ rest)).1 = false) := by
  induction f with
  | nil => intro acc rest; simp [Forest.toks, Forest.children]
  | misc r ih =>
    intro acc rest
    simp only [Forest.toks, Forest.children, List.cons_append]
    rw [readGroupListLoop]
    exact ih acc rest
  | elem n a i r _ ihr =>
    intro acc rest
    simp only [Forest.toks, Forest.children, List.cons_append, List.append_assoc]
    rw [readGroupListLoop, if_neg (by decide), if_pos (by decide)]
    by_cases hn : n = q! "contactGroup"
    · subst hn
      rw [if_pos rfl]
      by_cases hc : CompleteGroup (q! "contactGroup") a i
      · have hg := (readGroup_element { id := fresh } a i (r.toks ++ rest)).1 hc
        split
        · rename_i h; rw [hg] at h; cases h
        · rename_i g2 t2 h
          rw [hg] at h; cases h
          constructor
          · intro h
            rw [(ihr _ _).1 (fun e he => h e (List.mem_cons_of_mem _ he))]
            simp
          · intro h
            apply (ihr _ _).2
            intro h'
            exact h (by intro e he; rcases List.mem_cons.1 he with e' | he; (· rw [e']; exact hc); exact h' e he)
      · have hg := (readGroup_element { id := fresh } a i (r.toks ++ rest)).2 hc
        split
        · constructor
          · intro h; exact absurd (h _ (List.mem_cons_self ..)) hc
          · intro _; rfl
        · rename_i h; rw [hg] at h; cases h
    · rw [if_neg hn]
      constructor
      · intro h; exact absurd (h (n, a, i) (by simp)).tag hn
      · intro _; rfl

theorem readList_misc (w : Bool) (fresh : QString) (d : Int) (acc : List Group) (l : List Xml) (h : ∀ x ∈ l, x = .other) (t : List Xml) :
    readGroupListLoop w fresh d acc (l ++ t) = readGroupListLoop w fresh d acc t := by
  induction l with
  | nil => rfl
  | cons x r ih =>
    rw [h x (by simp), List.cons_append, readGroupListLoop]
    exact ih (fun y hy => h y (List.mem_cons_of_mem _ hy))

/-- A document with one root element is accepted as a list of groups exactly if the root is a list of complete groups. -/
theorem C47_list_document_iff (fresh : QString) (l : List Group) (pre post : List Xml) (hpre : ∀ x ∈ pre, x = .other)
    (hpost : ∀ x ∈ post, x = .other) (n : QString) (a : List (QString × QString)) (inside : Forest) :
    (groupsFromXml fresh l ⟨pre ++ (Forest.elem n a inside .nil).toks ++ post, true⟩).1 = true ↔
      n = q! "contactGroupList" ∧ ∀ e ∈ inside.children, CompleteGroup e.1 e.2.1 e.2.2 := by
  unfold groupsFromXml
  simp only
  rw [List.append_assoc, readList_misc _ _ _ _ _ hpre]
  simp only [Forest.toks, List.nil_append, List.cons_append, List.append_assoc]
  rw [readGroupListLoop, if_pos (by decide)]
  by_cases hn : n = q! "contactGroupList"
  · rw [if_pos hn, show (0 : Int) + 1 = 1 from rfl]
    by_cases hc : ∀ e ∈ inside.children, CompleteGroup e.1 e.2.1 e.2.2
    · rw [(readList_forest true fresh inside _ _).1 hc, readGroupListLoop]
      have := readList_misc true fresh (1 - 1) (l ++ inside.children.map fun e => described { id := fresh } e.2.1 e.2.2) post hpost []
      rw [List.append_nil] at this
      rw [this, readGroupListLoop]
      simp [hn]; exact fun a b c h => hc _ h
    · rw [(readList_forest true fresh inside _ _).2 hc]
      simp only [Bool.false_eq_true, hn, true_and, false_iff]
      exact hc
  · simp [hn]

/-- A document with a syntax error anywhere is rejected as a list, whatever it contains. -/
theorem C47_list_syntax (fresh : QString) (l : List Group) (toks : List Xml) : (groupsFromXml fresh l ⟨toks, false⟩).1 = false := by
  unfold groupsFromXml
  simp only
  suffices h : ∀ (n : Nat) (t : List Xml) (d : Int) (acc : List Group), t.length ≤ n → (readGroupListLoop false fresh d acc t).1 = false from
    h _ toks 0 l (Nat.le_refl _)
  intro n
  induction n with
  | zero =>
    intro t d acc h
    cases t with
    | nil => rw [readGroupListLoop]
    | cons => simp at h
  | succ n ih =>
    intro t d acc h
    cases t with
    | nil => rw [readGroupListLoop]
    | cons x t =>
      have hl : t.length ≤ n := by simpa using h
      cases x with
      | other => rw [readGroupListLoop]; exact ih _ _ _ hl
      | finish m => rw [readGroupListLoop]; exact ih _ _ _ hl
      | start m a =>
        rw [readGroupListLoop]
        split
        · split
          · exact ih _ _ _ hl
          · rfl
        · split
          · split
            · split
              · rfl
              · rename_i hr
                have := readGroup_length hr
                exact ih _ _ _ (by omega)
            · rfl
          · exact ih _ _ _ hl

/-- The claim as listed is false: when a list is rejected, the groups before the incomplete one have been reported. -/
theorem C47_reported_false : ¬ ∀ (d : XmlDoc), (groupsFromXml [] [] d).1 = false → (groupsFromXml [] [] d).2 = [] := by
  intro h
  exact absurd (h ⟨.start (q! "contactGroupList") [] :: (writeGroup { id := q! "1", name := q! "n" } ++ writeGroup { id := [], name := q! "m" }), true⟩
    (by decide +kernel)) (by decide +kernel)

/-- ... and a document holding a single group is not checked after the end of the group: what is no document at all is accepted. -/
theorem C47_syntax_false : ¬ ∀ (d : XmlDoc), d.wellFormed = false → groupFromXml { id := [] } d = none := by
  intro h
  exact absurd (h ⟨writeGroup { id := q! "1", name := q! "n" }, false⟩ rfl) (by decide +kernel)

/-- Non-vacuity: a complete group and an incomplete one. -/
example : CompleteGroup (q! "contactGroup") [(q! "uid", q! "1"), (q! "name", q! "n")]
    (.misc (.elem (q! "contactReference") [(q! "gid", q! "1")] .nil .nil)) ∧
    ¬ CompleteGroup (q! "contactGroup") [(q! "uid", q! "1"), (q! "name", q! "n")]
    (.misc (.elem (q! "contactReference") [(q! "gid", [])] .nil .nil)) := by
  refine ⟨⟨rfl, by decide, by decide, ?_⟩, fun h => ?_⟩
  · intro t ht
    simp only [Forest.tags, List.append_nil, List.mem_singleton] at ht
    subst ht
    right; left; exact ⟨rfl, Or.inr (by decide)⟩
  · have := h.members (q! "contactReference", [(q! "gid", [])]) (by simp [Forest.tags])
    rcases this with ⟨h, _⟩ | ⟨_, h⟩ | ⟨h, _⟩
    · exact absurd h (by decide)
    · exact absurd h (by decide)
    · exact absurd h (by decide)

end KC
