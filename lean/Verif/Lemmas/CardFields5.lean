import Verif.Lemmas.CardFields4
import Verif.Lemmas.Content
/-
  The fields of a contact read from the lines of one card: e-mail addresses and languages.
-/
namespace KC
open KC.Spec

theorem last_snoc {α : Type} (p : α → Bool) (l : List α) (x : α) : ((l ++ [x]).filter p).getLast? = if p x = true then some x else (l.filter p).getLast? := by
  rw [List.filter_append]
  by_cases h : p x = true <;> simp [h]

/-- a list with distinct keys is given by its keys and what is found under them -/
theorem list_of_keys {α : Type} (key : α → QString) (l : List α) (hn : (l.map key).Nodup) : (l.map key).filterMap (fun k => findFirst key k l) = l := by
  induction l with
  | nil => rfl
  | cons a l ih =>
    rw [List.map_cons, List.nodup_cons] at hn
    rw [List.map_cons, List.filterMap_cons_some (by rw [findFirst, if_pos rfl])]
    congr 1
    refine Eq.trans (List.filterMap_congr fun k hk => ?_) (ih hn.2)
    rw [findFirst, if_neg]
    intro e
    exact hn.1 (by rw [e]; exact hk)

/-! ### order of e-mail addresses -/

theorem distinct_cons_filter {α : Type} [DecidableEq α] (a : α) (l : List α) : distinct (a :: l) = a :: (distinct l).filter fun x => decide (x ≠ a) := by
  induction l using List.reverseRecOn with
  | nil => rfl
  | append_singleton l x ih =>
    rw [← List.cons_append, distinct_snoc, distinct_snoc, ih]
    by_cases hx : x = a
    · subst hx
      rw [if_pos (by simp)]
      split
      · rfl
      · rw [List.filter_append]; simp
    · by_cases hm : x ∈ distinct l
      · rw [if_pos hm, if_pos]
        rw [List.mem_cons, List.mem_filter]
        exact Or.inr ⟨hm, by simpa using hx⟩
      · rw [if_neg hm, if_neg, List.filter_append]
        · simp [hx]
        · rw [List.mem_cons, List.mem_filter]
          rintro (h | h)
          · exact hx h
          · exact hm h.1

theorem mem_mailOrder (l : List Email) (m : QString) : m ∈ mailOrder l ↔ m ∈ l.map (·.mail) := by
  unfold mailOrder
  simp only [List.mem_append, mem_distinct, List.mem_filter, List.mem_reverse, decide_eq_true_eq]
  constructor
  · rintro (h | h)
    · obtain ⟨e, he, rfl⟩ := List.mem_map.1 h
      exact List.mem_map_of_mem (List.mem_filter.1 he).1
    · exact h.1
  · intro h
    by_cases h' : m ∈ (l.filter (·.isPreferred)).map (·.mail)
    · exact Or.inl h'
    · exact Or.inr ⟨h, h'⟩

theorem mailOrder_preferred (l : List Email) (e : Email) (h : e.isPreferred = true) : mailOrder (l ++ [e]) = e.mail :: (mailOrder l).filter fun m => decide (m ≠ e.mail) := by
  unfold mailOrder
  have hf : ((l ++ [e]).filter (·.isPreferred)).map (·.mail) = (l.filter (·.isPreferred)).map (·.mail) ++ [e.mail] := by
    rw [List.filter_append, List.map_append]; simp [h]
  simp only [hf, List.reverse_append, List.reverse_cons, List.reverse_nil, List.nil_append, List.singleton_append]
  rw [distinct_cons_filter, List.cons_append, List.filter_append, List.map_append]
  congr 2
  rw [List.filter_filter, List.map_singleton, distinct_snoc]
  have : ∀ x : QString, decide (x ∉ e.mail :: ((l.filter (·.isPreferred)).map (·.mail)).reverse) =
      (decide (x ≠ e.mail) && decide (x ∉ ((l.filter (·.isPreferred)).map (·.mail)).reverse)) := by
    intro x
    simp only [List.mem_cons, not_or, Bool.decide_and]
  simp only [this]
  split
  · rfl
  · rw [List.filter_append]; simp

theorem mailOrder_plain (l : List Email) (e : Email) (h : e.isPreferred = false) :
    mailOrder (l ++ [e]) = if e.mail ∈ l.map (·.mail) then mailOrder l else mailOrder l ++ [e.mail] := by
  unfold mailOrder
  have hf : ((l ++ [e]).filter (·.isPreferred)).map (·.mail) = (l.filter (·.isPreferred)).map (·.mail) := by
    rw [List.filter_append, List.map_append]; simp [h]
  simp only [hf]
  rw [List.map_append, List.map_singleton, distinct_snoc]
  by_cases hm : e.mail ∈ l.map (·.mail)
  · rw [if_pos hm, if_pos ((mem_distinct _ _).2 hm)]
  · rw [if_neg hm, if_neg (fun h => hm ((mem_distinct _ _).1 h)), List.filter_append, List.append_assoc]
    congr 2
    rw [List.filter_cons_of_pos, List.filter_nil]
    simp only [decide_eq_true_eq, List.mem_reverse]
    intro h'
    obtain ⟨x, hx, e'⟩ := List.mem_map.1 h'
    exact hm (by rw [← e']; exact List.mem_map_of_mem (List.mem_filter.1 hx).1)

/-- adding an e-mail address -/
def mailStep (x : List Email) (e : Email) : List Email :=
  match findFirst Email.mail e.mail x with
  | some _ => if e.isPreferred then rotateToFront Email.mail e.mail (replaceFirst Email.mail e.mail e x) else replaceFirst Email.mail e.mail e x
  | none => if e.isPreferred then e :: x else x ++ [e]

theorem fold_mails (l : List Email) :
    (l.foldl mailStep []).map (·.mail) = mailOrder l ∧ ((l.foldl mailStep []).map (·.mail)).Nodup ∧
    ∀ k, findFirst Email.mail k (l.foldl mailStep []) = (l.filter fun x => decide (x.mail = k)).getLast? := by
  induction l using List.reverseRecOn with
  | nil => exact ⟨rfl, List.nodup_nil, fun _ => rfl⟩
  | append_singleton l e ih =>
    rw [List.foldl_append, List.foldl_cons, List.foldl_nil]
    generalize hx : l.foldl mailStep [] = x at ih
    obtain ⟨h1, h2, h3⟩ := ih
    have hmem : e.mail ∈ x.map Email.mail ↔ e.mail ∈ l.map (·.mail) := by
      rw [← mem_mailOrder l, ← h1]
    have hfil : (x.filter fun y => decide (y.mail ≠ e.mail)).map (·.mail) = (x.map (·.mail)).filter fun m => decide (m ≠ e.mail) := by
      rw [List.filter_map]; rfl
    have hcons : ((e :: x.filter fun y => decide (y.mail ≠ e.mail)).map (·.mail) = e.mail :: (mailOrder l).filter fun m => decide (m ≠ e.mail)) ∧
        ((e :: x.filter fun y => decide (y.mail ≠ e.mail)).map (·.mail)).Nodup ∧
        ∀ k, findFirst Email.mail k (e :: x.filter fun y => decide (y.mail ≠ e.mail)) = ((l ++ [e]).filter fun x => decide (x.mail = k)).getLast? := by
      refine ⟨by rw [List.map_cons, hfil, h1], ?_, ?_⟩
      · rw [List.map_cons, hfil, List.nodup_cons]
        refine ⟨by simp, h2.filter _⟩
      · intro k
        rw [last_snoc, findFirst, findFirst_filter (key := Email.mail), h3]
        by_cases hk : e.mail = k
        · simp [hk]
        · rw [if_neg hk, if_neg (fun h => hk h.symm), if_neg (by simpa using hk)]
    unfold mailStep
    cases hf : findFirst Email.mail e.mail x with
    | some y =>
      have hm := findFirst_some (key := Email.mail) hf
      cases hp : e.isPreferred with
      | true =>
        simp only [if_true]
        rw [rotate_replace (key := Email.mail) rfl hm h2, mailOrder_preferred l e hp]
        exact hcons
      | false =>
        simp only [Bool.false_eq_true, if_false]
        have hk : (replaceFirst Email.mail e.mail e x).map (·.mail) = x.map (·.mail) := map_replaceFirst (key := Email.mail) rfl
        rw [hk, mailOrder_plain l e hp, if_pos (hmem.1 hm)]
        refine ⟨h1, h2, ?_⟩
        intro k
        rw [findFirst_replaceFirst (key := Email.mail) rfl hm, h3, last_snoc]
        by_cases hk : e.mail = k
        · simp [hk]
        · rw [if_neg (fun h => hk h.symm), if_neg (by simpa using hk)]
    | none =>
      have hm := (findFirst_none (key := Email.mail)).1 hf
      cases hp : e.isPreferred with
      | true =>
        simp only [if_true]
        rw [mailOrder_preferred l e hp]
        have : (x.filter fun y => decide (y.mail ≠ e.mail)) = x := filter_eq_self_of_not_mem (key := Email.mail) hm
        rw [this] at hcons
        exact hcons
      | false =>
        simp only [Bool.false_eq_true, if_false]
        rw [mailOrder_plain l e hp, if_neg (fun h => hm (hmem.2 h))]
        refine ⟨by rw [List.map_append, h1]; rfl, nodup_append_single (key := Email.mail) h2 hm, ?_⟩
        intro k
        rw [findFirst_append_single (key := Email.mail) hm, h3, last_snoc]
        by_cases hk : e.mail = k
        · simp [hk]
        · rw [if_neg (fun h => hk h.symm), if_neg (by simpa using hk)]

theorem mails_eq (l : List Email) : l.foldl mailStep [] = lastOfEach (·.mail) l (mailOrder l) := by
  obtain ⟨h1, h2, h3⟩ := fold_mails l
  have := list_of_keys Email.mail _ h2
  rw [← this]
  unfold lastOfEach
  rw [← h1]
  exact List.filterMap_congr fun k _ => h3 k

/-! ### languages -/

/-- adding a language -/
def langStep (x : List ParamText) (t : ParamText) : List ParamText :=
  match findFirst ParamText.text t.text x with
  | some y => replaceFirst ParamText.text t.text { y with params := t.params } x
  | none => x ++ [t]

theorem fold_langs (l : List ParamText) :
    (l.foldl langStep []).map (·.text) = distinct (l.map (·.text)) ∧
    ∀ k, findFirst ParamText.text k (l.foldl langStep []) = (l.filter fun x => decide (x.text = k)).getLast? := by
  induction l using List.reverseRecOn with
  | nil => exact ⟨rfl, fun _ => rfl⟩
  | append_singleton l e ih =>
    rw [List.foldl_append, List.foldl_cons, List.foldl_nil]
    generalize hx : l.foldl langStep [] = x at ih
    obtain ⟨h1, h3⟩ := ih
    rw [List.map_append, List.map_singleton, distinct_snoc, ← h1]
    unfold langStep
    cases hf : findFirst ParamText.text e.text x with
    | some y =>
      have hm := findFirst_some (key := ParamText.text) hf
      have hy := (findFirst_key (key := ParamText.text) hf).1
      have he : ({ y with params := e.params } : ParamText) = e := by
        cases y; cases e; simp_all
      simp only [he]
      have hk : (replaceFirst ParamText.text e.text e x).map (·.text) = x.map (·.text) := map_replaceFirst (key := ParamText.text) rfl
      rw [hk, if_pos hm]
      refine ⟨rfl, ?_⟩
      intro k
      rw [findFirst_replaceFirst (key := ParamText.text) rfl hm, h3, last_snoc]
      by_cases hk : e.text = k
      · simp [hk]
      · rw [if_neg (fun h => hk h.symm), if_neg (by simpa using hk)]
    | none =>
      have hm := (findFirst_none (key := ParamText.text)).1 hf
      rw [if_neg hm]
      refine ⟨by rw [List.map_append]; rfl, ?_⟩
      intro k
      rw [findFirst_append_single (key := ParamText.text) hm, h3, last_snoc]
      by_cases hk : e.text = k
      · simp [hk]
      · rw [if_neg (fun h => hk h.symm), if_neg (by simpa using hk)]

theorem langs_eq (l : List ParamText) : l.foldl langStep [] = lastOfEach (·.text) l (distinct (l.map (·.text))) := by
  obtain ⟨h1, h3⟩ := fold_langs l
  have := list_of_keys ParamText.text (l.foldl langStep []) (by rw [h1]; exact nodup_distinct _)
  rw [← this]
  unfold lastOfEach
  rw [← h1]
  exact List.filterMap_congr fun k _ => h3 k

section
variable (E : ToolEnv) (ids : IdKind → Nat → QString) (s0 : RState) (L : List VCardLine)

theorem part_emails (h0 : s0.c.emails = []) :
    (L.foldl (readLine E ids) s0).c.emails = (let l := (named L [q! "email"]).map fun l => ({ params := l.params, mail := valueText l } : Email)
      lastOfEach (·.mail) l (mailOrder l)) := by
  have := read_part E ids (fun s => s.c.emails) [.email] (fun x l => mailStep x { params := l.params, mail := valueText l })
    (by other_lines (fun s : RState => s.c.emails))
    (by
      intro s l ht
      replace ht : tagOf l = .email := by simpa using ht
      simp only [readLine, ht, Contact.addEmail, mailStep, valueText]
      cases findFirst Email.mail l.value.toString s.c.emails <;> rfl) L s0
  rw [this, show named L [q! "email"] = _ from named_eq_tags L [(q! "email", .email)] (by decide +kernel), h0]
  simp only
  rw [← mails_eq, List.foldl_map]
  rfl

theorem part_langs (h0 : s0.c.langs = []) :
    (L.foldl (readLine E ids) s0).c.langs = (let l := ((named L [q! "lang"]).map paramText).filter fun t => decide (simplified t.text ≠ [])
      lastOfEach (·.text) l (distinct (l.map (·.text)))) := by
  have := read_part E ids (fun s => s.c.langs) [.lang] (fun x l => if decide (simplified (paramText l).text ≠ []) = true then langStep x (paramText l) else x)
    (by other_lines (fun s : RState => s.c.langs))
    (by
      intro s l ht
      replace ht : tagOf l = .lang := by simpa using ht
      simp only [readLine, ht, Contact.insertLang, langStep, paramText, valueText]
      by_cases hs : simplified l.value.toString = []
      · simp [hs]
      · simp only [List.isEmpty_iff, hs, if_false, ne_eq, not_false_eq_true, decide_true, if_true]
        cases findFirst ParamText.text l.value.toString s.c.langs <;> rfl) L s0
  rw [this, show named L [q! "lang"] = _ from named_eq_tags L [(q! "lang", .lang)] (by decide +kernel), h0]
  simp only
  rw [← langs_eq]
  generalize hT : L.filter (fun l => decide (tagOf l ∈ [Tag.lang])) = T
  rw [show L.filter (fun l => decide (tagOf l ∈ [(q! "lang", Tag.lang)].map (·.2))) = T from hT, List.foldl_filter, List.foldl_map]

end
end KC
