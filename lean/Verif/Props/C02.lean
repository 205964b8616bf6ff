import Verif.Model.SplitString
import Verif.Spec.Merge
/-
  C02: splitting a joined structured value gives its components back.
-/
namespace KC

private theorem splitGo_escaped (sep : UInt16) (hs : sep ≠ 92) (x : QString) (cur rest : QString) :
    splitGo sep cur (escapeSep sep x ++ rest) = splitGo sep (cur ++ x) rest := by
  induction x generalizing cur with
  | nil => simp [escapeSep, replaceChar]
  | cons c t ih =>
    have ih' : ∀ cur, splitGo sep cur ((t.flatMap fun x => if x = sep then [92, sep] else [x]) ++ rest)
        = splitGo sep (cur ++ t) rest := ih
    by_cases h : c = sep
    · subst h
      have hs' : ¬ (92 : UInt16) = c := fun e => hs e.symm
      simp [escapeSep, replaceChar, splitGo, ih', hs']
    · simp [escapeSep, replaceChar, splitGo, ih', h]

private theorem splitGo_join (sep : UInt16) (hs : sep ≠ 92) (cs : List QString) (cur : QString) (c : QString)
    (hcur : cur = []) :
    splitGo sep cur (joinEscaped sep (c :: cs)) =
      match cs with
      | [] => [c]
      | d :: ds => if c.getLast? = some 92 then splitGo sep (c.dropLast ++ [sep]) (joinEscaped sep (d :: ds))
                   else c :: splitGo sep [] (joinEscaped sep (d :: ds)) := by
  subst hcur
  cases cs with
  | nil =>
    have := splitGo_escaped sep hs c [] []
    simpa [joinEscaped, join, splitGo] using this
  | cons d ds =>
    have e : joinEscaped sep (c :: d :: ds) = escapeSep sep c ++ sep :: joinEscaped sep (d :: ds) := by
      simp [joinEscaped, join]
    rw [e, splitGo_escaped sep hs]
    simp [splitGo]

/-- Part of C02 that holds of the code: for every separator other than the backslash and every non-empty list of components of which none,
    except possibly the last, ends in a backslash, splitting the joined value gives the components back.
    Missing: components ending in a backslash (claim false there, see `C02_split_join_false`). -/
theorem C02_split_join_partial (sep : UInt16) (hs : sep ≠ 92) (cs : List QString) (hne : cs ≠ [])
    (h : ∀ c ∈ cs.dropLast, c.getLast? ≠ some 92) :
    splitString sep (joinEscaped sep cs) = cs := by
  unfold splitString
  induction cs with
  | nil => exact absurd rfl hne
  | cons c cs ih =>
    rw [splitGo_join sep hs cs [] c rfl]
    cases cs with
    | nil => rfl
    | cons d ds =>
      have hc : ¬ c.getLast? = some 92 := h c (by simp [List.dropLast])
      simp only [hc, if_false]
      rw [ih (by simp) (fun e he => h e (by simp [List.dropLast] at he ⊢; right; exact he))]

private theorem splitGo_length_le (sep : UInt16) (hs : sep ≠ 92) (cs : List QString) (hne : cs ≠ []) (cur : QString) :
    (splitGo sep cur (joinEscaped sep cs)).length ≤ cs.length := by
  induction cs generalizing cur with
  | nil => exact absurd rfl hne
  | cons c cs ih =>
    cases cs with
    | nil =>
      have := splitGo_escaped sep hs c cur []
      simp only [List.append_nil] at this
      simp [joinEscaped, join, this, splitGo]
    | cons d ds =>
      have e : joinEscaped sep (c :: d :: ds) = escapeSep sep c ++ sep :: joinEscaped sep (d :: ds) := by
        simp [joinEscaped, join]
      rw [e, splitGo_escaped sep hs]
      simp only [splitGo, if_true]
      split
      · have := ih (by simp) ((cur ++ c).dropLast ++ [sep]); simp only [List.length_cons] at *; omega
      · have := ih (by simp) []; simp only [List.length_cons] at *; omega

private theorem splitGo_merged (sep : UInt16) (hs : sep ≠ 92) (cs : List QString) (hne : cs ≠ []) (cur : QString)
    (hcur : cur = [] ∨ cur.getLast? = some sep) :
    splitGo sep cur (joinEscaped sep cs) = match merged sep cs with
      | [] => []
      | x :: r => (cur ++ x) :: r := by
  induction cs generalizing cur with
  | nil => exact absurd rfl hne
  | cons c cs ih =>
    cases cs with
    | nil =>
      have := splitGo_escaped sep hs c cur []
      simp only [List.append_nil] at this
      simp [joinEscaped, join, this, splitGo, merged]
    | cons d ds =>
      have e : joinEscaped sep (c :: d :: ds) = escapeSep sep c ++ sep :: joinEscaped sep (d :: ds) := by
        simp [joinEscaped, join]
      have hl : (cur ++ c).getLast? = some 92 ↔ c.getLast? = some 92 := by
        cases hc : c.getLast? with
        | none =>
          rw [List.getLast?_eq_none_iff] at hc
          subst hc
          rcases hcur with h | h
          · simp [h]
          · simp [h, hs]
        | some x => rw [List.getLast?_append, hc]; simp
      have hd : c.getLast? = some 92 → (cur ++ c).dropLast = cur ++ c.dropLast := by
        intro h
        exact List.dropLast_append_of_ne_nil (by rintro rfl; simp at h)
      rw [e, splitGo_escaped sep hs]
      simp only [splitGo, if_true, merged]
      by_cases h : c.getLast? = some 92
      · rw [if_pos (hl.2 h), if_pos h, ih (by simp) _ (.inr (by simp)), hd h]
        cases merged sep (d :: ds) with
        | nil => rfl
        | cons x r => simp
      · rw [if_neg (fun x => h (hl.1 x)), if_neg h, ih (by simp) _ (.inl rfl)]
        cases merged sep (d :: ds) <;> simp

/-- C02 for every list of components: splitting the joined value gives exactly the components after merging those that end in a backslash
    with their successors. -/
theorem C02_split_join_exact (sep : UInt16) (hs : sep ≠ 92) (cs : List QString) (hne : cs ≠ []) :
    splitString sep (joinEscaped sep cs) = merged sep cs := by
  have := splitGo_merged sep hs cs hne [] (.inl rfl)
  unfold splitString
  rw [this]
  cases merged sep cs <;> simp

/-- Non-vacuity: of four components the second is merged with the third. -/
example : splitString (qc! ';') (joinEscaped (qc! ';') [q! "a", q! "b\\", q! "c;d", q! "e\\"]) = [q! "a", q! "b;c;d", q! "e\\"] := by decide

/-- C02, exact form: the components survive if and only if none of them, except possibly the last, ends in a
    backslash. In the failing cases there are fewer fields: a component is merged with its successor. -/
theorem C02_split_join_iff (sep : UInt16) (hs : sep ≠ 92) (cs : List QString) (hne : cs ≠ []) :
    splitString sep (joinEscaped sep cs) = cs ↔ ∀ c ∈ cs.dropLast, c.getLast? ≠ some 92 := by
  refine ⟨fun h => ?_, C02_split_join_partial sep hs cs hne⟩
  unfold splitString at h
  induction cs with
  | nil => exact absurd rfl hne
  | cons c cs ih =>
    rw [splitGo_join sep hs cs [] c rfl] at h
    cases cs with
    | nil => simp
    | cons d ds =>
      simp only at h
      split at h
      · have := splitGo_length_le sep hs (d :: ds) (by simp) (c.dropLast ++ [sep])
        rw [h] at this
        simp only [List.length_cons] at this
        omega
      · rename_i hc
        simp only [List.cons.injEq, true_and] at h
        have := ih (by simp) h
        intro e he
        simp only [List.dropLast, List.mem_cons] at he
        rcases he with rfl | he
        · exact hc
        · exact this e he

/-- C02 as stated is false of the code: two name components, the first ending in a backslash, come back as one. -/
theorem C02_split_join_false :
    ¬ ∀ cs : List QString, cs ≠ [] → splitString (qc! ';') (joinEscaped (qc! ';') cs) = cs := by
  intro h
  have := h [q! "a\\", q! "b"] (by simp)
  revert this; decide

/-- Splitting any text gives at least one field (the code then indexes field 0). -/
theorem C02_split_nonempty (sep : UInt16) (s : QString) : splitString sep s ≠ [] := by
  unfold splitString
  suffices ∀ cur, splitGo sep cur s ≠ [] from this []
  induction s with
  | nil => intro cur; simp [splitGo]
  | cons c t ih => intro cur; simp only [splitGo]; (repeat' split) <;> simp [ih]

/-- A value without any backslash is split exactly at its separators: the fields joined by the separator are the value. -/
theorem C02_join_split_no_backslash (sep : UInt16) (s : QString) (h : (92 : UInt16) ∉ s) :
    join [sep] (splitString sep s) = s := by
  unfold splitString
  suffices ∀ cur : QString, (92 : UInt16) ∉ cur → join [sep] (splitGo sep cur s) = cur ++ s by
    simpa using this [] (by simp)
  induction s with
  | nil => intro cur _; simp [splitGo, join]
  | cons c t ih =>
    intro cur hcur
    have ht : (92 : UInt16) ∉ t := fun e => h (by simp [e])
    have hc : c ≠ 92 := fun e => h (by simp [e])
    simp only [splitGo]
    have hl : cur.getLast? ≠ some 92 := fun e => hcur (List.mem_of_getLast? e)
    split
    · rename_i hcs
      have := ih ht [] (by simp)
      cases hsp : splitGo sep [] t with
      | nil => exact absurd hsp (C02_split_nonempty sep t)
      | cons f fs =>
        rw [hsp] at this
        simp only [join, this, hcs]
        simp
    · rw [ih ht (cur ++ [c]) (by simp [hcur, Ne.symm hc])]
      simp

-- non-vacuity: seven address components with separators, commas and inner backslashes; the last one ends in a backslash
example : splitString (qc! ';') (joinEscaped (qc! ';') [q! "", q! "a;b", q! "c\\d;", q! ",", q! "\\;", q! "x", q! "y\\"])
    = [q! "", q! "a;b", q! "c\\d;", q! ",", q! "\\;", q! "x", q! "y\\"] := by decide
example : ∀ c ∈ [q! "", q! "a;b", q! "c\\d;", q! ",", q! "\\;", q! "x", q! "y\\"].dropLast, c.getLast? ≠ some 92 := by decide

end KC
