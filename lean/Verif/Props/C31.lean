import Verif.Model.Contact
import Verif.Lemmas.Reader
import Verif.Props.C12
/-
  C31: custom fields behave like a map.
-/
namespace KC
open Spec

inductive CustomOp where
  | insert (app name value : QString)
  | remove (app name : QString)
deriving DecidableEq

def CustomOp.apply (c : Contact) : CustomOp → Contact
  | .insert a n v => c.insertCustom a n v
  | .remove a n => c.removeCustom a n

/-- A new contact after a history of custom field operations. -/
def customHistory (u : QString) (ops : List CustomOp) : Contact := ops.foldl CustomOp.apply (Contact.new u)

/-- The operation changes the field of `app` and `name`: insertions with an empty part are refused by the API. -/
def CustomOp.changes (app name : QString) : CustomOp → Bool
  | .insert a n v => decide (a = app ∧ n = name ∧ a ≠ [] ∧ n ≠ [] ∧ v ≠ [])
  | .remove a n => decide (a = app ∧ n = name)

/-- The value of the last operation on that field: the inserted text, or no text. -/
def lastValue (ops : List CustomOp) (changes : CustomOp → Bool) : QString :=
  match ops.reverse.find? changes with
  | some (.insert _ _ v) => v
  | _ => []

/-- The application part of an operation. -/
def CustomOp.app : CustomOp → QString
  | .insert a _ _ => a
  | .remove a _ => a

/-- Same as `changes`, comparing only the joined name `app-name`. -/
def CustomOp.changesQ (q : QString) : CustomOp → Bool
  | .insert a n v => decide (qualifiedName a n = q ∧ a ≠ [] ∧ n ≠ [] ∧ v ≠ [])
  | .remove a n => decide (qualifiedName a n = q)

theorem find_eraseFirst {m : SMap QString} {k k' : QString} (hs : Sorted m) :
    (m.eraseFirst k).find k' = if k = k' then none else m.find k' := by
  induction m with
  | nil => simp [SMap.eraseFirst, SMap.find]
  | cons p t ih =>
    obtain ⟨a, v⟩ := p
    have ht : Sorted t := List.Pairwise.of_cons hs
    simp only [SMap.eraseFirst]
    by_cases e : a = k
    · subst e
      rw [if_pos rfl]
      simp only [SMap.find]
      by_cases e' : a = k'
      · subst e'
        simp only [if_true]
        rw [SMap.find_eq_none]
        intro p hp e''
        have := List.rel_of_pairwise_cons hs hp
        simp only [e'', qlt_irrefl] at this
        cases this
      · simp [e']
    · rw [if_neg e]
      simp only [SMap.find]
      rw [ih ht]
      by_cases e' : a = k'
      · have : k ≠ k' := by rw [← e']; exact fun h => e h.symm
        simp [e', this]
      · simp [e']

theorem eraseFirst_sublist {m : SMap QString} {k : QString} : (m.eraseFirst k).Sublist m := by
  induction m with
  | nil => exact .slnil
  | cons p t ih =>
    obtain ⟨a, v⟩ := p
    simp only [SMap.eraseFirst]
    split
    · exact List.sublist_cons_self _ _
    · exact ih.cons_cons _

theorem customStep_sorted (c : Contact) (o : CustomOp) (h : Sorted c.customs) : Sorted (o.apply c).customs := by
  cases o with
  | remove a n => exact h.sublist eraseFirst_sublist
  | insert a n v =>
    simp only [CustomOp.apply, Contact.insertCustom]
    split
    · exact h
    · cases hf : c.customs.find (qualifiedName a n) with
      | some x => exact SMap.sorted_modify h
      | none => exact SMap.sorted_insert h hf

theorem customHistory_snoc (u : QString) (ops : List CustomOp) (o : CustomOp) :
    customHistory u (ops ++ [o]) = o.apply (customHistory u ops) := by simp [customHistory]

theorem customHistory_sorted (u : QString) (ops : List CustomOp) : Sorted (customHistory u ops).customs := by
  induction ops using rev_induction with
  | h0 => exact List.Pairwise.nil
  | hs l o ih => rw [customHistory_snoc]; exact customStep_sorted _ o ih

/-- The fields are stored under the joined name: reading gives the value of the last operation with that joined name. -/
theorem C31_read_joined_name (u : QString) (ops : List CustomOp) (app name : QString) :
    (customHistory u ops).custom app name = lastValue ops (CustomOp.changesQ (qualifiedName app name)) := by
  have hs := customHistory_sorted u
  induction ops using rev_induction with
  | h0 => rfl
  | hs l o ih =>
    rw [customHistory_snoc]
    simp only [lastValue, List.reverse_append, List.reverse_cons, List.reverse_nil, List.nil_append, List.singleton_append,
      List.find?_cons]
    simp only [lastValue] at ih
    cases o with
    | remove a n =>
      simp only [CustomOp.apply, Contact.removeCustom, Contact.custom, CustomOp.changesQ, find_eraseFirst (hs l)]
      by_cases e : qualifiedName a n = qualifiedName app name
      · simp [e]
      · simp only [e, if_false, decide_false]; exact ih
    | insert a n v =>
      simp only [CustomOp.apply, Contact.insertCustom]
      by_cases hv : (v.isEmpty || n.isEmpty || a.isEmpty) = true
      · rw [if_pos hv]
        have : CustomOp.changesQ (qualifiedName app name) (.insert a n v) = false := by
          simp only [Bool.or_eq_true, List.isEmpty_iff] at hv
          simp only [CustomOp.changesQ, decide_eq_false_iff_not]
          rintro ⟨-, h1, h2, h3⟩
          rcases hv with (h | h) | h
          · exact h3 h
          · exact h2 h
          · exact h1 h
        rw [this]; exact ih
      · rw [if_neg hv]
        simp only [Bool.or_eq_true, List.isEmpty_iff, not_or] at hv
        have hc : CustomOp.changesQ (qualifiedName app name) (.insert a n v) = decide (qualifiedName a n = qualifiedName app name) := by
          simp [CustomOp.changesQ, hv.1.1, hv.1.2, hv.2]
        rw [hc]
        cases hf : (customHistory u l).customs.find (qualifiedName a n) with
        | some x =>
          simp only [Contact.custom, SMap.find_modify]
          by_cases e : qualifiedName a n = qualifiedName app name
          · simp only [← e, hf, if_true, Option.map_some, Option.getD_some, decide_true]
          · simp only [e, if_false, decide_false]; exact ih
        | none =>
          simp only [Contact.custom, SMap.find_insertSorted hf]
          by_cases e : qualifiedName a n = qualifiedName app name
          · simp [e]
          · simp only [e, if_false, decide_false]; exact ih

theorem qualifiedName_inj {a a' n n' : QString} (h : qc! '-' ∉ a) (h' : qc! '-' ∉ a') (e : qualifiedName a n = qualifiedName a' n') :
    a = a' ∧ n = n' := by
  unfold qualifiedName at e
  have h1 := indexOf?_append (qc! '-') a n h
  rw [e, indexOf?_append _ _ _ h'] at h1
  have hl : a'.length = a.length := by simpa using h1
  have := List.append_inj e hl.symm
  exact ⟨this.1, by simpa using this.2⟩

/-- Partial: reading a custom field gives the value of the last insertion for that application and name, and operations on
    other fields do not matter - when no application name contains a '-'. (False without that: below.) -/
theorem C31_read_last_partial (u : QString) (ops : List CustomOp) (app name : QString)
    (hops : ∀ o ∈ ops, qc! '-' ∉ o.app) (happ : qc! '-' ∉ app) :
    (customHistory u ops).custom app name = lastValue ops (CustomOp.changes app name) := by
  rw [C31_read_joined_name, lastValue, lastValue]
  have : ops.reverse.find? (CustomOp.changesQ (qualifiedName app name)) = ops.reverse.find? (CustomOp.changes app name) := by
    have hops' : ∀ o ∈ ops.reverse, qc! '-' ∉ o.app := fun o ho => hops o (List.mem_reverse.1 ho)
    revert hops'
    generalize ops.reverse = l
    intro hl
    induction l with
    | nil => rfl
    | cons o t ih =>
      have ho := hl o (by simp)
      have heq : CustomOp.changesQ (qualifiedName app name) o = CustomOp.changes app name o := by
        cases o with
        | insert a n v =>
          simp only [CustomOp.changesQ, CustomOp.changes]
          apply decide_eq_decide.2
          constructor
          · rintro ⟨e, h⟩; have := qualifiedName_inj ho happ e; exact ⟨this.1, this.2, h⟩
          · rintro ⟨rfl, rfl, h⟩; exact ⟨rfl, h⟩
        | remove a n =>
          simp only [CustomOp.changesQ, CustomOp.changes]
          apply decide_eq_decide.2
          constructor
          · intro e; exact qualifiedName_inj ho happ e
          · rintro ⟨rfl, rfl⟩; rfl
      simp only [List.find?_cons, heq, ih (fun o h => hl o (List.mem_cons_of_mem _ h))]
  rw [this]

example :
    let ops : List CustomOp := [.insert (q! "KADDRESSBOOK") (q! "X-Office") (q! "12"), .insert (q! "app") (q! "X-Office") (q! "9"),
      .insert (q! "KADDRESSBOOK") (q! "X-Office") (q! "13"), .insert (q! "KADDRESSBOOK") (q! "X-Office") []]
    (∀ o ∈ ops, qc! '-' ∉ o.app) ∧ lastValue ops (CustomOp.changes (q! "KADDRESSBOOK") (q! "X-Office")) = q! "13" := by decide

/-- The claim as listed is false: the field "c" of application "a-b" and the field "b-c" of application "a" are the same field. -/
theorem C31_false : ¬ ∀ (ops : List CustomOp) (app name : QString),
    (customHistory [] ops).custom app name = lastValue ops (CustomOp.changes app name) := by
  intro h
  exact absurd (h [.insert (q! "a-b") (q! "c") (q! "1"), .insert (q! "a") (q! "b-c") (q! "2")] (q! "a-b") (q! "c")) (by decide)

/-- The fields are listed by ascending name, without duplicates. -/
theorem C31_listing_sorted (u : QString) (ops : List CustomOp) : Ascending ((customHistory u ops).customs.map (·.1)) := by
  have := SMap.sorted_iff_keys.1 (customHistory_sorted u ops)
  exact this.imp (fun {a b} h => (qlt_iff_less a b).1 h)

/-! ### listing and restoring -/

theorem indexOf?_take {α : Type} [DecidableEq α] {c : α} {s : List α} {i : Nat} (h : indexOf? c s = some i) : c ∉ s.take i := by
  induction s generalizing i with
  | nil => simp [indexOf?] at h
  | cons x t ih =>
    simp only [indexOf?] at h
    split at h
    · cases h; simp
    · rename_i e
      cases hi : indexOf? c t with
      | none => simp [hi] at h
      | some j =>
        simp only [hi, Option.map_some, Option.some.injEq] at h
        subst h
        simp only [List.take_succ_cons, List.mem_cons, not_or]
        exact ⟨fun e' => e e'.symm, ih hi⟩

theorem setCustomsLoop_colonFree (l : List QString) (acc : SMap QString) (h : ∀ p ∈ acc, qc! ':' ∉ p.1) :
    ∀ p ∈ setCustomsLoop acc l, qc! ':' ∉ p.1 := by
  induction l generalizing acc with
  | nil => exact h
  | cons s t ih =>
    simp only [setCustomsLoop]
    split
    · exact ih acc h
    · rename_i i hi
      split
      · exact ih acc h
      · apply ih
        intro p hp
        rcases List.mem_append.1 hp with hp | hp
        · exact h p hp
        · simp only [List.mem_singleton] at hp; subst hp; exact indexOf?_take hi

theorem setCustomsLoop_nodup (l : List QString) (acc : SMap QString) (h : (acc.map (·.1)).Nodup) :
    ((setCustomsLoop acc l).map (·.1)).Nodup := by
  induction l generalizing acc with
  | nil => exact h
  | cons s t ih =>
    simp only [setCustomsLoop]
    split
    · exact ih acc h
    · rename_i i hi
      split
      · exact ih acc h
      · rename_i hn
        apply ih
        rw [List.map_append, List.nodup_append]
        refine ⟨h, by simp, ?_⟩
        intro a ha b hb e
        simp only [List.map_cons, List.map_nil, List.mem_singleton] at hb
        subst hb; subst e
        obtain ⟨p, hp, e⟩ := List.mem_map.1 ha
        exact hn (List.any_eq_true.2 ⟨p, hp, by simpa using e⟩)

theorem sortByName_spec (m : SMap QString) (hn : (m.map (·.1)).Nodup) :
    Sorted (sortByName m) ∧ ∀ k, (sortByName m).find k = m.find k := by
  have key : ∀ (m acc : SMap QString), Sorted acc → (m.map (·.1)).Nodup → (∀ p ∈ m, acc.find p.1 = none) →
      Sorted (m.foldl (fun acc p => acc.insertSorted p.1 p.2) acc) ∧
        ∀ k, (m.foldl (fun acc p => acc.insertSorted p.1 p.2) acc).find k = (acc.find k).or (m.find k) := by
    intro m
    induction m with
    | nil => intro acc hs _ _; exact ⟨hs, fun k => by simp [SMap.find]⟩
    | cons p t ih =>
      intro acc hs hn hd
      obtain ⟨a, v⟩ := p
      simp only [List.map_cons, List.nodup_cons] at hn
      have ha : acc.find a = none := hd (a, v) (by simp)
      simp only [List.foldl_cons]
      have := ih (acc.insertSorted a v) (SMap.sorted_insert hs ha) hn.2 (by
        intro p hp
        rw [SMap.find_insertSorted ha, if_neg]
        · exact hd p (List.mem_cons_of_mem _ hp)
        · intro e; exact hn.1 (by rw [e]; exact List.mem_map_of_mem hp))
      refine ⟨this.1, ?_⟩
      intro k
      rw [this.2, SMap.find_insertSorted ha]
      simp only [SMap.find]
      by_cases e : a = k
      · subst e; simp [ha]
      · simp [e]
  have := key m [] List.Pairwise.nil hn (fun _ _ => rfl)
  exact ⟨this.1, fun k => by rw [sortByName, this.2]; simp [SMap.find]⟩

theorem setCustomsLoop_listing (m acc : SMap QString) (hc : ∀ p ∈ m, qc! ':' ∉ p.1) (hn : ((acc ++ m).map (·.1)).Nodup) :
    setCustomsLoop acc (m.map fun p => p.1 ++ qc! ':' :: p.2) = acc ++ m := by
  induction m generalizing acc with
  | nil => simp [setCustomsLoop]
  | cons p t ih =>
    obtain ⟨a, v⟩ := p
    have ha := hc (a, v) (by simp)
    simp only [List.map_cons, setCustomsLoop, indexOf?_append _ _ _ ha]
    rw [if_neg]
    · rw [ih (acc ++ _)]
      · simp
      · exact fun p hp => hc p (List.mem_cons_of_mem _ hp)
      · simpa using hn
    · intro h
      obtain ⟨p, hp, e⟩ := List.any_eq_true.1 h
      simp only [List.take_left', decide_eq_true_eq] at e
      rw [List.map_append, List.nodup_append] at hn
      exact hn.2.2 p.1 (List.mem_map_of_mem hp) a (by simp) e

theorem nodup_of_sorted {m : SMap QString} (h : Sorted m) : (m.map (·.1)).Nodup := by
  rw [SMap.sorted_iff_keys] at h
  exact h.imp (fun {a b} hab e => by subst e; rw [qlt_irrefl] at hab; cases hab)

/-- Restoring the listed fields gives the same fields exactly if no application or name contains a ':'. -/
theorem C31_restore_iff (u : QString) (ops : List CustomOp) (c : Contact) :
    (c.setCustoms (customHistory u ops).customsList).customs = (customHistory u ops).customs ↔
      ∀ q v, (customHistory u ops).customs.find q = some v → qc! ':' ∉ q := by
  have hs := customHistory_sorted u ops
  generalize (customHistory u ops) = h at *
  have hn := nodup_of_sorted hs
  simp only [Contact.setCustoms, Contact.customsList]
  constructor
  · intro e q v hf
    have hm : q ∈ (sortByName (setCustomsLoop [] (h.customs.map fun p => p.1 ++ qc! ':' :: p.2))).map (·.1) := by
      rw [e]; exact SMap.find_isSome_iff.1 (by rw [hf]; rfl)
    have hspec := sortByName_spec _ (setCustomsLoop_nodup (h.customs.map fun p => p.1 ++ qc! ':' :: p.2) [] (by simp))
    have hm' := SMap.find_isSome_iff.2 hm
    rw [hspec.2, SMap.find_isSome_iff] at hm'
    obtain ⟨p, hp, rfl⟩ := List.mem_map.1 hm'
    exact setCustomsLoop_colonFree _ [] (by simp) p hp
  · intro hc
    rw [setCustomsLoop_listing _ [] _ (by simpa using hn)]
    · have hspec := sortByName_spec _ hn
      exact SMap.ext_find hspec.1 hs hspec.2
    · intro p hp
      obtain ⟨v, hv⟩ := Option.isSome_iff_exists.1 (SMap.find_isSome_iff.2 (List.mem_map_of_mem (f := (·.1)) hp))
      exact hc _ _ hv

/-- Listing and restoring is not the identity on all contacts: a field name with a ':' is cut. -/
theorem C31_restore_false : ¬ ∀ (ops : List CustomOp) (c : Contact),
    (c.setCustoms (customHistory [] ops).customsList).customs = (customHistory [] ops).customs := by
  intro h
  exact absurd (h [.insert (q! "a") (q! "b:c") (q! "1")] (Contact.new [])) (by decide)

example :
    let c := customHistory [] [.insert (q! "b") (q! "n") (q! "1:2"), .insert (q! "a") (q! "n") (q! "3")]
    c.customsList = [q! "a-n:3", q! "b-n:1:2"] ∧ ((Contact.new []).setCustoms c.customsList).customs = c.customs := by decide

end KC
