import Verif.Lemmas.Carried
/- Helper lemmas: which components come back. -/
namespace KC
open Spec

theorem merged_length (sep : UInt16) (cs : List QString) : (merged sep cs).length ≤ cs.length := by
  induction cs with
  | nil => simp [merged]
  | cons a t ih =>
    cases t with
    | nil => simp [merged]
    | cons b t =>
      rw [merged]
      split
      · split
        · simp
        · rename_i e; rw [e] at ih; simp only [List.length_cons] at *; omega
      · simp only [List.length_cons] at *; omega

theorem merged_count (sep : UInt16) (hs : sep ≠ 92) (cs : List QString) :
    (merged sep cs).flatten.count 92 ≤ cs.flatten.count 92 ∧
    ((∃ s ∈ cs.dropLast, s.getLast? = some 92) → (merged sep cs).flatten.count 92 < cs.flatten.count 92) := by
  induction cs with
  | nil => simp [merged]
  | cons a t ih =>
    cases t with
    | nil => simp [merged]
    | cons b t =>
      rw [merged, List.dropLast_cons₂]
      by_cases h : a.getLast? = some 92
      · rw [if_pos h]
        obtain ⟨x, hx⟩ : ∃ x, a = x ++ [92] := by
          obtain ⟨x, hx⟩ := List.getLast?_eq_some_iff.1 h; exact ⟨x, hx⟩
        cases hm : merged sep (b :: t) with
        | nil => exact absurd hm (merged_ne (by simp))
        | cons y r =>
          rw [hm] at ih
          have h1 := ih.1
          rw [hx]
          simp only [List.dropLast_concat, List.flatten_cons, List.count_append, List.count_cons, List.count_nil, beq_self_eq_true, if_true,
            show (sep == 92) = false by simpa using hs, Bool.false_eq_true, if_false] at *
          exact ⟨by omega, fun _ => by omega⟩
      · rw [if_neg h]
        rw [List.flatten_cons, List.flatten_cons, List.count_append, List.count_append]
        refine ⟨by have := ih.1; omega, ?_⟩
        rintro ⟨s, hs', h2⟩
        rcases List.mem_cons.1 hs' with rfl | hs'
        · exact absurd h2 h
        · have := ih.2 ⟨s, hs', h2⟩; omega

theorem carried_count (s : QString) : (carried s).count 92 = s.count 92 := by
  suffices ∀ p, (carriedFrom p s).count 92 = s.count 92 from this false
  induction s using units_induct with
  | nil => intro p; rfl
  | one u t h ih =>
    intro p
    rw [carriedFrom_one h, List.count_cons, List.count_cons, ih]
    congr 1
    have : (carriedUnit p u == 92) = (u == 92) := by
      rw [Bool.eq_iff_iff, beq_iff_eq, beq_iff_eq]
      unfold carriedUnit
      constructor
      · intro e
        split at e
        · exact absurd e (by decide)
        · split at e
          · exact absurd e (by decide)
          · split at e
            · exact absurd e (by decide)
            · exact e
      · rintro rfl; cases p <;> rfl
    rw [this]
  | two u v t h ih =>
    intro p
    rw [carriedFrom_two h, List.count_cons, List.count_cons, List.count_cons, List.count_cons, ih]

theorem carried_count_list (l : List QString) : (l.map carried).flatten.count 92 = l.flatten.count 92 := by
  induction l with
  | nil => rfl
  | cons a l ih => rw [List.map_cons, List.flatten_cons, List.flatten_cons, List.count_append, List.count_append, ih, carried_count]

theorem filled_flatten (n : Nat) (l : List QString) (h : l.length ≤ n) : (inPlaces n l).flatten = l.flatten := by
  induction l generalizing n with
  | nil =>
    unfold inPlaces
    induction n with
    | zero => rfl
    | succ n ih => rw [List.range_succ, List.map_append, List.flatten_append, ih (by simp)]; simp
  | cons a l ih =>
    cases n with
    | zero => simp at h
    | succ n =>
      have := ih n (by simpa using h)
      unfold inPlaces at *
      rw [List.range_succ_eq_map, List.map_cons, List.map_map, List.flatten_cons, List.flatten_cons, ← this]
      rfl

theorem filled_self (l : List QString) : inPlaces l.length l = l := by
  unfold inPlaces
  apply List.ext_getElem
  · simp
  · intro i h1 h2
    simp only [List.getElem_map, List.getElem_range]
    rw [List.getD_eq_getElem?_getD, List.getElem?_eq_getElem h2]; rfl

/-- components that come back, with any texts -/
theorem filled_carried_iff (sep : UInt16) (hs : sep ≠ 92) (n : Nat) (P : List QString) (hn : P.length = n) :
    inPlaces n (merged sep (P.map carried)) = P ↔ (∀ s ∈ P.dropLast, s.getLast? ≠ some 92) ∧ ∀ s ∈ P, carried s = s := by
  have fix : (∀ s ∈ P, carried s = s) → P.map carried = P := fun h => by
    conv => rhs; rw [← List.map_id P]
    exact List.map_congr_left h
  constructor
  · intro h
    have hno : ∀ s ∈ (P.map carried).dropLast, s.getLast? ≠ some 92 := by
      intro s hs' e
      have h1 := (merged_count sep hs (P.map carried)).2 ⟨s, hs', e⟩
      have h2 := filled_flatten n (merged sep (P.map carried)) (by have := merged_length sep (P.map carried); rw [List.length_map] at this; omega)
      rw [h] at h2
      rw [← h2, carried_count_list] at h1
      omega
    rw [merged_self hno] at h
    have e : P.map carried = P := by
      have := filled_self (P.map carried)
      rw [List.length_map, hn, h] at this
      exact this.symm
    rw [e] at hno
    refine ⟨hno, fun s hs' => ?_⟩
    obtain ⟨i, hi, rfl⟩ := List.getElem_of_mem hs'
    have := List.getElem_of_eq e (by simpa using hi : i < (P.map carried).length)
    simpa using this
  · rintro ⟨h1, h2⟩
    rw [fix h2, merged_self h1, ← hn, filled_self]

/-- components that come back, with texts that can be carried -/
theorem filled_iff (sep : UInt16) (hs : sep ≠ 92) (n : Nat) (P : List QString) (hn : P.length = n) :
    inPlaces n (merged sep P) = P ↔ ∀ s ∈ P.dropLast, s.getLast? ≠ some 92 := by
  constructor
  · intro h s hs' e
    have h1 := (merged_count sep hs P).2 ⟨s, hs', e⟩
    have h2 := filled_flatten n (merged sep P) (by have := merged_length sep P; omega)
    rw [h] at h2
    rw [← h2] at h1
    omega
  · intro h
    rw [merged_self h, ← hn, filled_self]

theorem carriedFrom_last (p : Bool) (s : QString) : (carriedFrom p s).getLast? = some 92 ↔ s.getLast? = some 92 := by
  have unit : ∀ p u, carriedUnit p u = 92 ↔ u = 92 := carriedUnit_eq_sep (by decide) (by decide) (by decide)
  induction s using units_induct generalizing p with
  | nil => rfl
  | one u t h ih =>
    rw [carriedFrom_one h]
    by_cases ht : t = []
    · subst ht; simp [carriedFrom, unit]
    · have hc : carriedFrom (u == qc! '\\') t ≠ [] := by
        intro e; have := carriedFrom_length (u == qc! '\\') t; rw [e] at this; exact ht (List.length_eq_zero_iff.1 this.symm)
      rw [List.getLast?_cons_of_ne_nil hc, List.getLast?_cons_of_ne_nil ht]; exact ih _
  | two u v t h ih =>
    rw [carriedFrom_two h]
    by_cases ht : t = []
    · subst ht; simp [carriedFrom]
    · have hc : carriedFrom false t ≠ [] := by
        intro e; have := carriedFrom_length false t; rw [e] at this; exact ht (List.length_eq_zero_iff.1 this.symm)
      rw [List.getLast?_cons_of_ne_nil (by simp), List.getLast?_cons_of_ne_nil hc, List.getLast?_cons_of_ne_nil (by simp), List.getLast?_cons_of_ne_nil ht]; exact ih _

theorem carried_last (s : QString) : (carried s).getLast? = some 92 ↔ s.getLast? = some 92 := carriedFrom_last false s

/-- the addresses that are written and can be carried are those with a component -/
theorem address_filter {E : ToolEnv} {v : Version} {c : Contact} (hR : Carriable E v (c.written v)) :
    (c.written v).addresses = c.addresses.filter fun a => a.parts.any (· ≠ []) := by
  refine List.filter_congr fun a ha => ?_
  by_cases h : a.parts.any (· ≠ []) = true
  · rw [h]; rfl
  · by_cases h2 : (v ≠ .v4_0 && a.label ≠ []) = true
    · have hm : a ∈ (c.written v).addresses := List.mem_filter.2 ⟨ha, by rw [h2, Bool.or_true]⟩
      obtain ⟨s, hs, hne⟩ := (hR.addresses a hm).some
      exact absurd (List.any_eq_true.2 ⟨s, hs, by simpa using hne⟩) h
    · rw [Bool.not_eq_true] at h h2; rw [h, h2]; rfl

theorem carried_filter (v : Version) (c : Contact) : ((c.carried v).addresses.filter fun a => a.parts.any (· ≠ [])).map (Address.parts ∘ Address.merged) =
    (c.addresses.filter fun a => a.parts.any (· ≠ [])).map fun a => inPlaces 7 (merged (qc! ';') (a.parts.map carried)) := by
  show ((c.addresses.map (Address.carried v)).filter _).map _ = _
  rw [List.filter_map, List.map_map]
  have : ((fun a : Address => a.parts.any (· ≠ [])) ∘ Address.carried v) = fun a => a.parts.any (· ≠ []) := by
    funext a
    simp only [Function.comp, Address.parts, Address.carried, List.any_cons, List.any_nil, carried_eq_nil, ne_eq]
  rw [this]
  rfl

end KC
