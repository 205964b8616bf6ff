import Verif.Model.Setters
import Verif.Lemmas.Keyed
import Mathlib.Data.List.Induction
/-
  C72: languages behave like a map from language to parameters, and members and relationships like ordered sets, over every
  history of calls.
-/
namespace KC

/-! ### languages -/

inductive LangOp where
  | insert (t : ParamText)
  | remove (s : QString)
  | set (l : List ParamText)

def LangOp.apply (c : Contact) : LangOp → Contact
  | .insert t => c.insertLang t
  | .remove s => c.removeLang s
  | .set l => c.setLangs l

/-- A new contact after a history of calls. -/
def langHistory (u : QString) (ops : List LangOp) : Contact := ops.foldl LangOp.apply (Contact.new u)

namespace Spec

/-- What the calls, the last one first, say about the language `s`: its parameters, or that it is absent. A language of white
    space is not added. -/
def langAfter (s : QString) : List LangOp → Option ParameterMap
  | [] => none
  | .insert t :: r => if t.text = s ∧ simplified s ≠ [] then some t.params else langAfter s r
  | .remove x :: r => if x = s then none else langAfter s r
  | .set l :: _ => (l.find? (fun t => t.text = s)).map (·.params)

/-- The first entry of a list for the language `s`. -/
def entryOf (s : QString) (l : List ParamText) : Option ParamText := l.find? (fun t => t.text = s)

end Spec

open Spec

theorem entryOf_eq (s : QString) (l : List ParamText) : entryOf s l = findFirst ParamText.text s l := by
  unfold entryOf
  induction l with
  | nil => rfl
  | cons a t ih =>
    by_cases h : a.text = s
    · simp [findFirst, h]
    · rw [List.find?_cons_of_neg (by simpa using h), ih]; simp [findFirst, h]

theorem langHistory_snoc (u : QString) (ops : List LangOp) (o : LangOp) :
    langHistory u (ops ++ [o]) = o.apply (langHistory u ops) := by simp [langHistory]

/-- What `insertLang` does to the list: a known language gets the new parameters and keeps its place, a new one goes to the end,
    a blank one is ignored; no other entry and no other field changes. -/
theorem C72_insert (c : Contact) (t : ParamText) :
    ((c.insertLang t).langs.map (·.text) =
      if simplified t.text = [] ∨ t.text ∈ c.langs.map (·.text) then c.langs.map (·.text) else c.langs.map (·.text) ++ [t.text]) ∧
    (∀ s, entryOf s (c.insertLang t).langs = if t.text = s ∧ simplified s ≠ [] then some t else entryOf s c.langs) ∧
    { c.insertLang t with langs := c.langs, empty := c.empty } = c := by
  unfold Contact.insertLang
  by_cases hb : simplified t.text = []
  · rw [if_pos (by simp [hb]), if_pos (Or.inl hb)]
    refine ⟨rfl, ?_, rfl⟩
    intro s
    rw [if_neg]
    rintro ⟨rfl, h⟩; exact h hb
  · rw [if_neg (by simpa using hb)]
    cases hf : findFirst ParamText.text t.text c.langs with
    | some x =>
      have hm := findFirst_some hf
      have hx := (findFirst_key hf).1
      have et : ({ x with params := t.params } : ParamText) = t := by cases t; cases x; simp_all
      simp only [et]
      rw [if_pos (Or.inr hm)]
      refine ⟨map_replaceFirst rfl, ?_, trivial⟩
      intro s
      rw [entryOf_eq, entryOf_eq, findFirst_replaceFirst rfl hm]
      by_cases e : t.text = s
      · subst e; simp [hb]
      · rw [if_neg (Ne.symm e), if_neg (fun h => e h.1)]
    | none =>
      have hm := (findFirst_none).1 hf
      simp only
      rw [if_neg (by rintro (h | h); exact hb h; exact hm h)]
      refine ⟨by simp, ?_, trivial⟩
      intro s
      rw [entryOf_eq, entryOf_eq, findFirst_append_single hm]
      by_cases e : t.text = s
      · subst e; simp [hb]
      · rw [if_neg (Ne.symm e), if_neg (fun h => e h.1)]

/-- What `removeLang` does: the entries of other languages and their order stay, and the language is still listed afterwards
    exactly when it stood twice in a row. -/
theorem C72_remove_iff (c : Contact) (s : QString) :
    (c.removeLang s).langs.filter (fun t => t.text ≠ s) = c.langs.filter (fun t => t.text ≠ s) ∧
    (s ∈ (c.removeLang s).langs.map (·.text) ↔
      ∃ pre a b post, c.langs = pre ++ a :: b :: post ∧ a.text = s ∧ b.text = s) ∧
    { c.removeLang s with langs := c.langs } = c :=
  ⟨removeSkipping_filter _, mem_removeSkipping _, rfl⟩

/-- The property as stated fails: a language given twice by `setLangs` is still there after it was removed. -/
theorem C72_false : ¬ ∀ (u : QString) (ops : List LangOp) (s : QString),
    (entryOf s (langHistory u ops).langs).map (·.params) = langAfter s ops.reverse := by
  intro h
  have := h [] [.set [{ text := q! "de" }, { text := q! "de" }], .remove (q! "de")] (q! "de")
  exact absurd this (by decide)

/-- Over every history whose `setLangs` lists name no language twice: no language is listed twice, and each language is listed
    with the parameters the last call about it gave, or not at all if that call removed it or there was none. -/
theorem C72_langs_partial (u : QString) (ops : List LangOp)
    (hd : ∀ l, LangOp.set l ∈ ops → (l.map (·.text)).Nodup) :
    ((langHistory u ops).langs.map (·.text)).Nodup ∧
    ∀ s, (entryOf s (langHistory u ops).langs).map (·.params) = langAfter s ops.reverse := by
  induction ops using List.reverseRecOn with
  | nil => exact ⟨by simp [langHistory, Contact.new], fun s => rfl⟩
  | append_singleton l o ih =>
    obtain ⟨hn, hs⟩ := ih (fun x hx => hd x (List.mem_append_left _ hx))
    rw [langHistory_snoc]
    simp only [List.reverse_append, List.reverse_cons, List.reverse_nil, List.nil_append, List.singleton_append]
    cases o with
    | insert t =>
      obtain ⟨h1, h2, _⟩ := C72_insert (langHistory u l) t
      simp only [LangOp.apply, langAfter]
      refine ⟨?_, ?_⟩
      · rw [h1]; split
        · exact hn
        · rename_i h
          rw [List.nodup_append]
          refine ⟨hn, by simp, ?_⟩
          intro a ha b hb e
          simp only [List.mem_singleton] at hb
          subst hb; subst e
          exact h (Or.inr ha)
      · intro s; rw [h2, ← hs s]; split <;> rfl
    | remove x =>
      have e : (langHistory u l).removeLang x =
          { langHistory u l with langs := (langHistory u l).langs.filter (fun y => y.text ≠ x) } := by
        unfold Contact.removeLang; rw [removeSkipping_eq_filter hn]
      simp only [LangOp.apply, langAfter, e]
      refine ⟨nodup_filter_map hn, ?_⟩
      intro s
      rw [← hs s, entryOf_eq, entryOf_eq, findFirst_filter]
      by_cases h : x = s
      · subst h; simp
      · rw [if_neg (Ne.symm h), if_neg h]
    | set m =>
      simp only [LangOp.apply, langAfter, Contact.setLangs]
      exact ⟨hd m (by simp), fun s => rfl⟩

/-- Non-vacuity: languages added, changed, removed and set again. -/
example : let ops : List LangOp := [.insert { text := q! "de" }, .set [{ text := q! "fr" }, { text := q! "en" }], .insert { text := q! " " },
      .insert { text := q! "it" }, .insert { text := q! "en", params := [(q! "pref", [q! "1"])] }, .remove (q! "fr")]
    (∀ l, LangOp.set l ∈ ops → (l.map (·.text)).Nodup) ∧
    (langHistory [] ops).langs = [{ text := q! "en", params := [(q! "pref", [q! "1"])] }, { text := q! "it" }] ∧
    langAfter (q! "en") ops.reverse = some [(q! "pref", [q! "1"])] ∧ langAfter (q! "de") ops.reverse = none := by
  refine ⟨?_, by decide, by decide, by decide⟩
  intro l hl
  simp only [List.mem_cons, LangOp.set.injEq, List.not_mem_nil, or_false, reduceCtorEq, false_or] at hl
  subst hl; decide

/-! ### members and relationships -/

theorem addNew_spec {α : Type} {f : List α → α → List α} (hi : ∀ m x, x ∈ m → f m x = m) (ho : ∀ m x, x ∉ m → f m x = m ++ [x])
    (xs : List α) (l : List α) :
    ∃ new, xs.foldl f l = l ++ new ∧
      (∀ x, x ∈ new ↔ x ∈ xs ∧ x ∉ l) ∧ new.Nodup ∧ new.Sublist xs := by
  induction xs using List.reverseRecOn with
  | nil => exact ⟨[], by simp⟩
  | append_singleton ys y ih =>
    obtain ⟨new, h1, h2, h3, h4⟩ := ih
    rw [List.foldl_append, h1]
    simp only [List.foldl_cons, List.foldl_nil]
    by_cases hy : y ∈ l ++ new
    · refine ⟨new, hi _ _ hy, ?_, h3, h4.trans (List.sublist_append_left _ _)⟩
      intro x
      rw [h2]
      constructor
      · rintro ⟨a, b⟩; exact ⟨List.mem_append_left _ a, b⟩
      · rintro ⟨a, b⟩
        refine ⟨?_, b⟩
        rcases List.mem_append.1 a with a | a
        · exact a
        · rw [List.mem_singleton] at a; subst a
          rcases List.mem_append.1 hy with hy | hy
          · exact absurd hy b
          · exact ((h2 x).1 hy).1
    · refine ⟨new ++ [y], by rw [ho _ _ hy, List.append_assoc], ?_, ?_, h4.append (List.Sublist.refl _)⟩
      · intro x
        simp only [List.mem_append, List.mem_singleton, h2]
        constructor
        · rintro (⟨a, b⟩ | a)
          · exact ⟨Or.inl a, b⟩
          · subst a; exact ⟨Or.inr rfl, fun h => hy (List.mem_append_left _ h)⟩
        · rintro ⟨a | a, b⟩
          · exact Or.inl ⟨a, b⟩
          · exact Or.inr a
      · rw [List.nodup_append]
        refine ⟨h3, by simp, ?_⟩
        intro a ha b hb e
        simp only [List.mem_singleton] at hb
        subst hb; subst e
        exact hy (List.mem_append_right _ ha)

/-- Members: after `setMembers l` and any number of `insertMember` calls the list is `l` followed by the new ones among the added
    members, each once, in the order of their first addition. -/
theorem C72_members (c : Contact) (l xs : List QString) :
    ∃ new, (xs.foldl Contact.insertMember (c.setMembers l)).members = l ++ new ∧
      (∀ x, x ∈ new ↔ x ∈ xs ∧ x ∉ l) ∧ new.Nodup ∧ new.Sublist xs := by
  have e : ∀ (xs : List QString) (d : Contact), (xs.foldl Contact.insertMember d).members =
      xs.foldl (fun m x => if x ∈ m then m else m ++ [x]) d.members := by
    intro xs
    induction xs with
    | nil => intro d; rfl
    | cons y t ih => intro d; rw [List.foldl_cons, ih]; rfl
  rw [e]
  exact addNew_spec (fun m x h => if_pos h) (fun m x h => if_neg h) xs l

/-- Relationships likewise. Two relationships are the same when text and parameters are. -/
theorem C72_relationships (c : Contact) (l xs : List ParamText) :
    ∃ new, (xs.foldl Contact.insertRelationship (c.setRelationships l)).relationships = l ++ new ∧
      (∀ x, x ∈ new ↔ x ∈ xs ∧ x ∉ l) ∧ new.Nodup ∧ new.Sublist xs := by
  have e : ∀ (xs : List ParamText) (d : Contact), (xs.foldl Contact.insertRelationship d).relationships =
      xs.foldl (fun m x => if x ∈ m then m else m ++ [x]) d.relationships := by
    intro xs
    induction xs with
    | nil => intro d; rfl
    | cons y t ih => intro d; rw [List.foldl_cons, ih]; rfl
  rw [e]
  exact addNew_spec (fun m x h => if_pos h) (fun m x h => if_neg h) xs l

example : ([q! "a", q! "b", q! "a", q! "c"].foldl Contact.insertMember ((Contact.new []).setMembers [q! "b"])).members =
    [q! "b", q! "a", q! "c"] := by decide

end KC
