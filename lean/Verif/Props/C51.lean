import Verif.Lemmas.SMap
import Verif.Model.Values
import Verif.Props.C31
import Verif.Props.C32
/-
  C51: setting the type or preference of an email address or URL and reading it gives what was set.
-/
namespace KC

/-- What is used of the tables of type names: distinct names, distinct one-bit flags, names unchanged by the case folding. -/
structure GoodNames (names : List (QString × Nat)) (fold : QString → QString) (bits : List Nat) : Prop where
  nodup : (names.map (·.1)).Nodup
  flags : names.map (·.2) = bits.map (2 ^ ·)
  bnodup : bits.Nodup
  fixed : ∀ n ∈ names, fold n.1 = n.1

theorem emailNames_good : GoodNames emailTypeNames toUpperQ [0, 1, 2] :=
  ⟨by decide, by decide, by decide, by decide⟩

theorem urlNames_good : GoodNames urlTypeNames id [0, 1, 6, 2, 3, 4, 5] :=
  ⟨by decide, by decide, by decide, by decide⟩

section
variable {names : List (QString × Nat)} {fold : QString → QString} {bits : List Nat}

theorem Nat.pow_right_injective' {a b : Nat} (e : 2 ^ a = 2 ^ b) : a = b := Nat.pow_right_inj (by omega) |>.1 e

/-- The bit of a name in the table. -/
theorem GoodNames.bit (g : GoodNames names fold bits) {n : QString × Nat} (hn : n ∈ names) : ∃ b ∈ bits, n.2 = 2 ^ b := by
  have : n.2 ∈ names.map (·.2) := List.mem_map_of_mem hn
  rw [g.flags] at this
  obtain ⟨b, hb, e⟩ := List.mem_map.1 this
  exact ⟨b, hb, e.symm⟩

theorem GoodNames.ofBit (g : GoodNames names fold bits) {b : Nat} (hb : b ∈ bits) : ∃ n ∈ names, n.2 = 2 ^ b := by
  have : 2 ^ b ∈ names.map (·.2) := by rw [g.flags]; exact List.mem_map_of_mem hb
  obtain ⟨n, hn, e⟩ := List.mem_map.1 this
  exact ⟨n, hn, e⟩

theorem GoodNames.inj (g : GoodNames names fold bits) {n m : QString × Nat} (hn : n ∈ names) (hm : m ∈ names) (e : n.2 = m.2) :
    n = m := by
  have hf : (names.map (·.2)).Nodup := by
    rw [g.flags]
    rw [List.nodup_iff_pairwise_ne, List.pairwise_map]
    exact g.bnodup.imp (fun {a b} h e => h (Nat.pow_right_injective' e))
  clear g
  induction names with
  | nil => simp at hn
  | cons x t ih =>
    simp only [List.map_cons, List.nodup_cons] at hf
    rcases List.mem_cons.1 hn with h1 | h1 <;> rcases List.mem_cons.1 hm with h2 | h2
    · rw [h1, h2]
    · exact absurd (by rw [← h1, e]; exact List.mem_map_of_mem h2) hf.1
    · exact absurd (by rw [← h2, ← e]; exact List.mem_map_of_mem h1) hf.1
    · exact ih h1 h2 hf.2

theorem find_name (g : GoodNames names fold bits) {n : QString × Nat} (hn : n ∈ names) (s : QString) (e : n.1 = s) :
    names.find? (fun n => n.1 = s) = some n := by
  have hnd := g.nodup
  clear g
  induction names with
  | nil => simp at hn
  | cons x t ih =>
    simp only [List.map_cons, List.nodup_cons] at hnd
    rcases List.mem_cons.1 hn with rfl | hn
    · simp [e]
    · have : x.1 ≠ s := by intro e'; apply hnd.1; rw [e', ← e]; exact List.mem_map_of_mem hn
      simp [this, ih hn hnd.2]

/-- Reading the type: a flag is reported iff some value is (up to case folding) its name. -/
theorem paramType_bit (g : GoodNames names fold bits) (m : ParameterMap) (b : Nat) :
    (paramType names fold m).testBit b = true ↔
      ∃ n ∈ names, n.2 = 2 ^ b ∧ ∃ v ∈ (m.find (q! "type")).getD [], fold v = n.1 := by
  unfold paramType
  cases m.find (q! "type") with
  | none => simp
  | some vs =>
    simp only [Option.getD_some]
    have key : ∀ (vs : List QString) (t : Nat),
        (vs.foldl (fun t s => match names.find? (fun n => n.1 = fold s) with | some n => t ||| n.2 | none => t) t).testBit b = true ↔
          t.testBit b = true ∨ ∃ n ∈ names, n.2 = 2 ^ b ∧ ∃ v ∈ vs, fold v = n.1 := by
      intro vs
      induction vs with
      | nil => intro t; simp
      | cons v r ih =>
        intro t
        rw [List.foldl_cons, ih]
        cases hf : names.find? (fun n => n.1 = fold v) with
        | none =>
          simp only
          have hno : ∀ n ∈ names, n.1 ≠ fold v := by
            intro n hn e
            rw [find_name g hn _ e] at hf; cases hf
          constructor
          · rintro (h | ⟨n, hn, hb, w, hw, e⟩)
            · left; exact h
            · right; exact ⟨n, hn, hb, w, List.mem_cons_of_mem _ hw, e⟩
          · rintro (h | ⟨n, hn, hb, w, hw, e⟩)
            · left; exact h
            · rcases List.mem_cons.1 hw with rfl | hw
              · exact absurd e.symm (hno n hn)
              · right; exact ⟨n, hn, hb, w, hw, e⟩
        | some n =>
          simp only
          have hn := List.mem_of_find?_eq_some hf
          have hnv : n.1 = fold v := by simpa using List.find?_some hf
          obtain ⟨b', -, hb'⟩ := g.bit hn
          rw [Nat.testBit_or, hb', Nat.testBit_two_pow]
          constructor
          · rintro (h | ⟨n', hn', hb, w, hw, e⟩)
            · rw [Bool.or_eq_true] at h
              rcases h with h | h
              · left; exact h
              · right
                have : b' = b := by simpa using h
                exact ⟨n, hn, by rw [hb', this], v, by simp, hnv.symm⟩
            · right; exact ⟨n', hn', hb, w, List.mem_cons_of_mem _ hw, e⟩
          · rintro (h | ⟨n', hn', hb, w, hw, e⟩)
            · left; rw [h]; rfl
            · rcases List.mem_cons.1 hw with rfl | hw
              · left
                have := find_name g hn' _ e.symm
                rw [hf] at this
                cases this
                have : b' = b := Nat.pow_right_injective' (hb'.symm.trans hb)
                simp [this]
              · right; exact ⟨n', hn', hb, w, hw, e⟩
    refine (key vs 0).trans ?_; simp

/-- The values after the loop of `setType`. -/
theorem setType_mem (type old : Nat) (names : List (QString × Nat)) (hn : (names.map (·.1)).Nodup) (vs : List QString) (v : QString) :
    v ∈ names.foldl (fun vs n =>
      if (type ^^^ old) &&& n.2 = 0 then vs
      else if type &&& n.2 ≠ 0 then vs ++ [n.1]
      else vs.filter (· ≠ n.1)) vs ↔
    (v ∈ vs ∧ ∀ n ∈ names, v = n.1 → (type ^^^ old) &&& n.2 = 0 ∨ type &&& n.2 ≠ 0) ∨
      ∃ n ∈ names, v = n.1 ∧ (type ^^^ old) &&& n.2 ≠ 0 ∧ type &&& n.2 ≠ 0 := by
  induction names generalizing vs with
  | nil => simp
  | cons n t ih =>
    simp only [List.map_cons, List.nodup_cons] at hn
    rw [List.foldl_cons, ih hn.2]
    have hne : v = n.1 → ∀ m ∈ t, v ≠ m.1 := by
      intro e m hm e'; exact hn.1 (by rw [← e, e']; exact List.mem_map_of_mem hm)
    constructor
    · rintro (⟨h1, h2⟩ | ⟨m, hm, e, h⟩)
      · by_cases hc : (type ^^^ old) &&& n.2 = 0
        · rw [if_pos hc] at h1
          left; refine ⟨h1, ?_⟩
          intro m hm e
          rcases List.mem_cons.1 hm with rfl | hm
          · left; exact hc
          · exact h2 m hm e
        · rw [if_neg hc] at h1
          by_cases ht : type &&& n.2 ≠ 0
          · rw [if_pos ht] at h1
            rcases List.mem_append.1 h1 with h1 | h1
            · left; refine ⟨h1, ?_⟩
              intro m hm e
              rcases List.mem_cons.1 hm with rfl | hm
              · right; exact ht
              · exact h2 m hm e
            · right; exact ⟨n, by simp, by simpa using h1, hc, ht⟩
          · rw [if_neg ht] at h1
            have h1' := List.mem_filter.1 h1
            left; refine ⟨h1'.1, ?_⟩
            intro m hm e
            rcases List.mem_cons.1 hm with rfl | hm
            · exact absurd e (by simpa using h1'.2)
            · exact h2 m hm e
      · right; exact ⟨m, List.mem_cons_of_mem _ hm, e, h⟩
    · rintro (⟨h1, h2⟩ | ⟨m, hm, e, hc, ht⟩)
      · left
        refine ⟨?_, fun m hm e => h2 m (List.mem_cons_of_mem _ hm) e⟩
        by_cases hc : (type ^^^ old) &&& n.2 = 0
        · rw [if_pos hc]; exact h1
        · rw [if_neg hc]
          by_cases ht : type &&& n.2 ≠ 0
          · rw [if_pos ht]; exact List.mem_append_left _ h1
          · rw [if_neg ht, List.mem_filter]
            refine ⟨h1, ?_⟩
            simp only [decide_eq_true_eq]
            intro e
            rcases h2 n (by simp) e with h | h
            · exact hc h
            · exact ht h
      · rcases List.mem_cons.1 hm with rfl | hm
        · left
          rw [if_neg hc, if_pos ht]
          refine ⟨by simp [e], ?_⟩
          intro k hk e'; exact absurd e' (hne e k hk)
        · right; exact ⟨m, hm, e, hc, ht⟩

/-- The "type" values after `setType`. -/
theorem setType_values (m : ParameterMap) (t : Nat) :
    ∃ vs, (paramSetType names fold m t).find (q! "type") = some vs ∧
      vs = names.foldl (fun vs n =>
        if (t ^^^ paramType names fold m) &&& n.2 = 0 then vs
        else if t &&& n.2 ≠ 0 then vs ++ [n.1]
        else vs.filter (· ≠ n.1)) ((m.find (q! "type")).getD []) := by
  unfold paramSetType
  refine ⟨_, ?_, rfl⟩
  rw [SMap.find_modify, if_pos rfl]
  cases h : m.find (q! "type") with
  | some vs => simp [h]
  | none => simp [SMap.find_insertSorted h]

/-- Exactly when `setType` works: every value that counts as a type to be dropped is spelled in upper case. -/
theorem setType_read_iff (g : GoodNames names fold bits) (m : ParameterMap) (t : Nat) (ht : ∀ b, t.testBit b = true → b ∈ bits) :
    paramType names fold (paramSetType names fold m t) = t ↔
      ∀ v ∈ (m.find (q! "type")).getD [], ∀ n ∈ names, fold v = n.1 → t &&& n.2 = 0 → v = n.1 := by
  obtain ⟨vs, hvs, hdef⟩ := setType_values (names := names) (fold := fold) m t
  have hmem := setType_mem t (paramType names fold m) names g.nodup ((m.find (q! "type")).getD [])
  rw [← hdef] at hmem
  have hbit := paramType_bit g (paramSetType names fold m t)
  rw [hvs, Option.getD_some] at hbit
  have hold := paramType_bit g m
  have hchg : ∀ b, ((t ^^^ paramType names fold m) &&& 2 ^ b ≠ 0) ↔ t.testBit b ≠ (paramType names fold m).testBit b := by
    intro b; rw [and_pow_ne_zero, Nat.testBit_xor]; cases t.testBit b <;> cases (paramType names fold m).testBit b <;> simp
  constructor
  · intro heq v hv n hn hfold ht0
    obtain ⟨b, hb, hnb⟩ := g.bit hn
    have htb : t.testBit b = false := by
      cases h : t.testBit b with
      | false => rfl
      | true => exact absurd ht0 (by rw [hnb, ← ne_eq, and_pow_ne_zero]; exact h)
    apply Classical.byContradiction
    intro hne
    have hkeep : v ∈ vs := by
      rw [hmem]; left
      refine ⟨hv, ?_⟩
      intro n' hn' e
      exfalso
      have : n' = n := by
        have h1 := find_name g hn' v e.symm
        have hf : fold v = n'.1 := by rw [e]; exact g.fixed n' hn'
        have h2 := find_name g hn (fold v) hfold.symm
        have h3 := find_name g hn' (fold v) hf.symm
        rw [h2] at h3; exact (Option.some.inj h3).symm
      exact hne (by rw [e, this])
    have := (hbit b).2 ⟨n, hn, hnb, v, hkeep, hfold⟩
    rw [heq, htb] at this; cases this
  · intro hcond
    apply Nat.eq_of_testBit_eq
    intro b
    rw [Bool.eq_iff_iff, hbit]
    constructor
    · rintro ⟨n, hn, hnb, v, hv, hfold⟩
      rw [hmem] at hv
      rcases hv with ⟨hv, hrem⟩ | ⟨n', hn', e, -, ht'⟩
      · cases htb : t.testBit b with
        | true => rfl
        | false =>
          exfalso
          have ht0 : t &&& n.2 = 0 := by
            apply Classical.byContradiction; intro h
            rw [hnb, ← ne_eq, and_pow_ne_zero, htb] at h; cases h
          have hvn := hcond v hv n hn hfold ht0
          rcases hrem n hn hvn with h | h
          · have h1 : (paramType names fold m).testBit b = true := (hold b).2 ⟨n, hn, hnb, v, hv, hfold⟩
            have : (t ^^^ paramType names fold m) &&& 2 ^ b ≠ 0 := by rw [hchg, htb, h1]; simp
            rw [hnb] at h; exact this h
          · exact h ht0
      · have : n' = n := by
          have h2 := find_name g hn (fold v) hfold.symm
          have h3 := find_name g hn' (fold v) (by rw [e]; exact (g.fixed n' hn').symm)
          rw [h2] at h3; exact (Option.some.inj h3).symm
        subst this
        rw [hnb, and_pow_ne_zero] at ht'; exact ht'
    · intro htb
      obtain ⟨n, hn, hnb⟩ := g.ofBit (ht b htb)
      have htn : t &&& n.2 ≠ 0 := by rw [hnb, and_pow_ne_zero]; exact htb
      cases ho : (paramType names fold m).testBit b with
      | true =>
        obtain ⟨n', hn', hnb', v, hv, hfold⟩ := (hold b).1 ho
        have : n' = n := g.inj hn' hn (by rw [hnb, hnb'])
        subst this
        refine ⟨n', hn', hnb, v, ?_, hfold⟩
        rw [hmem]; left
        refine ⟨hv, ?_⟩
        intro n2 hn2 e
        right
        have : n2 = n' := by
          have h2 := find_name g hn' (fold v) hfold.symm
          have h3 := find_name g hn2 (fold v) (by rw [e]; exact (g.fixed n2 hn2).symm)
          rw [h2] at h3; exact (Option.some.inj h3).symm
        rw [this]; exact htn
      | false =>
        refine ⟨n, hn, hnb, n.1, ?_, g.fixed n hn⟩
        rw [hmem]; right
        refine ⟨n, hn, rfl, ?_, htn⟩
        rw [hnb, hchg, htb, ho]; simp

end

/-- The flags of an email type: any combination of Home 1, Work 2, Other 4. -/
theorem email_bits {t : Nat} (ht : t < 8) : ∀ b, t.testBit b = true → b ∈ [0, 1, 2] := by
  intro b hb
  have : 2 ^ b ≤ t := Nat.ge_two_pow_of_testBit hb
  have : b < 3 := by
    apply Classical.byContradiction; intro h
    have : 2 ^ 3 ≤ 2 ^ b := Nat.pow_le_pow_right (by omega) (by omega)
    omega
  have : b = 0 ∨ b = 1 ∨ b = 2 := by omega
  simpa using this

theorem url_bits {t : Nat} (ht : t < 128) : ∀ b, t.testBit b = true → b ∈ [0, 1, 6, 2, 3, 4, 5] := by
  intro b hb
  have : 2 ^ b ≤ t := Nat.ge_two_pow_of_testBit hb
  have : b < 7 := by
    apply Classical.byContradiction; intro h
    have : 2 ^ 7 ≤ 2 ^ b := Nat.pow_le_pow_right (by omega) (by omega)
    omega
  have : b = 0 ∨ b = 1 ∨ b = 6 ∨ b = 2 ∨ b = 3 ∨ b = 4 ∨ b = 5 := by omega
  simpa using this

/-- Email: the type read back is the type set, exactly if the values naming a dropped type are spelled in upper case. -/
theorem C51_email_type_iff (e : Email) (t : Nat) (ht : t < 8) :
    (e.setType t).type = t ↔
      ∀ v ∈ (e.params.find (q! "type")).getD [], ∀ n ∈ emailTypeNames, toUpperQ v = n.1 → t &&& n.2 = 0 → v = n.1 :=
  setType_read_iff emailNames_good e.params t (email_bits ht)

/-- Partial: with type values in upper case, `setType` followed by `type` gives what was set. -/
theorem C51_email_type_partial (e : Email) (t : Nat) (ht : t < 8)
    (hup : ∀ v ∈ (e.params.find (q! "type")).getD [], toUpperQ v = v) : (e.setType t).type = t := by
  rw [C51_email_type_iff e t ht]
  intro v hv n _ h _; rw [← h, hup v hv]

example : (({ mail := q! "a", params := [(q! "type", [q! "HOME", q! "PREF"])] } : Email).setType 6).type = 6 := by decide

/-- The claim as listed is false: an address read from a card with `TYPE=home` cannot be turned into one without a type. -/
theorem C51_email_type_false : ¬ ∀ (e : Email) (t : Nat), t < 8 → (e.setType t).type = t := by
  intro h
  exact absurd (h { params := [(q! "type", [q! "home"])] } 0 (by decide)) (by decide)

/-- URLs: the type read back is the type set, for every parameter content. -/
theorem C51_url_type (u : ParamUrl) (t : Nat) (ht : t < 128) : (u.setType t).type = t := by
  have := setType_read_iff urlNames_good u.params t (url_bits ht)
  exact this.2 (fun v _ n _ h _ => h)

/-- Setting the type changes no other parameter, and keeps the values of "type" that are not type names, in order. -/
theorem C51_type_keeps_rest (names : List (QString × Nat)) (fold : QString → QString) (m : ParameterMap) (t : Nat) :
    (∀ k, k ≠ q! "type" → (paramSetType names fold m t).find k = m.find k) ∧
    ((paramSetType names fold m t).find (q! "type")).map (·.filter (fun v => v ∉ names.map (·.1))) =
      some (((m.find (q! "type")).getD []).filter (fun v => v ∉ names.map (·.1))) := by
  constructor
  · intro k hk
    unfold paramSetType
    rw [SMap.find_modify, if_neg (Ne.symm hk)]
    cases h : m.find (q! "type") with
    | some vs => rfl
    | none => simp only; rw [SMap.find_insertSorted h, if_neg (Ne.symm hk)]
  · obtain ⟨vs, hvs, hdef⟩ := setType_values (names := names) (fold := fold) m t
    rw [hvs, Option.map_some, hdef]
    congr 1
    generalize (m.find (q! "type")).getD [] = v0
    generalize paramType names fold m = old
    have key : ∀ (ns : List (QString × Nat)), (∀ n ∈ ns, n ∈ names) → ∀ v0 : List QString,
        (ns.foldl (fun vs n =>
          if (t ^^^ old) &&& n.2 = 0 then vs
          else if t &&& n.2 ≠ 0 then vs ++ [n.1]
          else vs.filter (· ≠ n.1)) v0).filter (fun v => v ∉ names.map (·.1)) = v0.filter (fun v => v ∉ names.map (·.1)) := by
      intro ns
      induction ns with
      | nil => intro _ v0; rfl
      | cons n r ih =>
        intro hsub v0
        have hn : n.1 ∈ names.map (·.1) := List.mem_map_of_mem (hsub n (by simp))
        rw [List.foldl_cons, ih (fun m hm => hsub m (List.mem_cons_of_mem _ hm))]
        split
        · rfl
        · split
          · rw [List.filter_append]
            have : List.filter (fun v => decide (v ∉ names.map (·.1))) [n.1] = [] := by
              rw [List.filter_eq_nil_iff]; intro a ha; simp only [List.mem_singleton] at ha; subst ha; simpa using hn
            rw [this, List.append_nil]
          · rw [List.filter_filter]
            apply List.filter_congr
            intro a _
            by_cases h : a ∈ names.map (·.1)
            · simp [h]
            · have : a ≠ n.1 := fun e => h (e ▸ hn)
              simp [this]
    exact key names (fun _ h => h) v0

/-! ### preference -/

theorem find_modify_const {m : ParameterMap} {k k' : QString} {x : List QString} :
    (m.modify k fun _ => x).find k' = if k = k' then (m.find k').map (fun _ => x) else m.find k' := SMap.find_modify

theorem find_eraseFirst' {m : ParameterMap} {k k' : QString} (hs : Sorted m) :
    (m.eraseFirst k).find k' = if k = k' then none else m.find k' := by
  induction m with
  | nil => simp [SMap.eraseFirst, SMap.find]
  | cons p t ih =>
    obtain ⟨a, v⟩ := p
    have ht : Sorted t := List.Pairwise.of_cons hs
    simp only [SMap.eraseFirst]
    by_cases e : a = k
    · subst e
      rw [if_pos rfl]
      simp only [SMap.find]
      by_cases e' : a = k'
      · subst e'
        simp only [if_true]
        rw [SMap.find_eq_none]
        intro p hp e''
        have := List.rel_of_pairwise_cons hs hp
        simp only [e'', qlt_irrefl] at this
        cases this
      · simp [e']
    · rw [if_neg e]
      simp only [SMap.find]
      rw [ih ht]
      by_cases e' : a = k'
      · have : k ≠ k' := by rw [← e']; exact fun h => e h.symm
        simp [e', this]
      · simp [e']

/-- Parameters after `setPreferred` with a changed preference. -/
theorem setPreferred_find (m : ParameterMap) (hs : Sorted m) (p : Bool) (hp : p ≠ paramIsPreferred m) (k : QString) :
    (paramSetPreferred m p).find k =
      if k = q! "type" then
        some (if p then (m.find (q! "type")).getD [] ++ [q! "PREF"] else ((m.find (q! "type")).getD []).filter (· ≠ q! "PREF"))
      else if k = q! "pref" then (if p then m.find k else none)
      else m.find k := by
  have htp : (q! "pref" : QString) ≠ q! "type" := by decide
  unfold paramSetPreferred
  rw [if_neg hp]
  cases p with
  | true =>
    simp only [Bool.not_true, Bool.false_eq_true, if_false, if_true]
    cases h : m.find (q! "type") with
    | some vs =>
      simp only [find_modify_const, Option.getD_some]
      by_cases e : k = q! "type"
      · subst e; simp [h]
      · rw [if_neg (Ne.symm e), if_neg e]; split <;> rfl
    | none =>
      simp only [SMap.find_insertSorted h, Option.getD_none]
      by_cases e : k = q! "type"
      · subst e; simp
      · rw [if_neg (Ne.symm e), if_neg e]; split <;> rfl
  | false =>
    simp only [Bool.not_false, if_true, Bool.false_eq_true, if_false]
    have he : (m.eraseFirst (q! "pref")).find (q! "type") = m.find (q! "type") := by
      rw [find_eraseFirst' hs, if_neg htp]
    rw [he]
    cases h : m.find (q! "type") with
    | some vs =>
      simp only [find_modify_const, Option.getD_some]
      by_cases e : k = q! "type"
      · subst e; simp [he, h]
      · rw [if_neg (Ne.symm e), if_neg e, find_eraseFirst' hs]
        by_cases e' : k = q! "pref"
        · simp [e']
        · rw [if_neg (Ne.symm e'), if_neg e']
    | none =>
      have h' : (m.eraseFirst (q! "pref")).find (q! "type") = none := by rw [he, h]
      simp only [SMap.find_insertSorted h', Option.getD_none]
      by_cases e : k = q! "type"
      · subst e; simp
      · rw [if_neg (Ne.symm e), if_neg e, find_eraseFirst' hs]
        by_cases e' : k = q! "pref"
        · simp [e']
        · rw [if_neg (Ne.symm e'), if_neg e']

/-- Exactly when making an address or URL preferred works: it was preferred already or has no "pref" parameter. -/
theorem C51_prefer_iff (m : ParameterMap) (hs : Sorted m) :
    paramIsPreferred (paramSetPreferred m true) = true ↔ paramIsPreferred m = true ∨ m.find (q! "pref") = none := by
  cases hp : paramIsPreferred m with
  | true => simp [paramSetPreferred, hp]
  | false =>
    have hf := setPreferred_find m hs true (by rw [hp]; simp)
    have h1 := hf (q! "pref")
    have h2 := hf (q! "type")
    simp only [if_true] at h1 h2
    rw [if_neg (by decide)] at h1
    simp only [Bool.false_eq_true, false_or]
    conv => lhs; unfold paramIsPreferred
    rw [h1, h2]
    cases hq : m.find (q! "pref") with
    | none =>
      simp only [iff_true]
      have : toUpperQ (q! "PREF") = q! "PREF" := by decide
      simp [containsPref, this]
    | some vs =>
      have : paramIsPreferred m = false := hp
      unfold paramIsPreferred at this
      rw [hq] at this
      simp only [reduceCtorEq, iff_false]
      simp only at this
      rw [this]; simp

/-- Exactly when taking the preference away works: it was not preferred, or no value of "type" is a PREF in another spelling. -/
theorem C51_unprefer_iff (m : ParameterMap) (hs : Sorted m) :
    paramIsPreferred (paramSetPreferred m false) = false ↔
      paramIsPreferred m = false ∨ ∀ v ∈ (m.find (q! "type")).getD [], toUpperQ v = q! "PREF" → v = q! "PREF" := by
  cases hp : paramIsPreferred m with
  | false => simp [paramSetPreferred, hp]
  | true =>
    have hf := setPreferred_find m hs false (by rw [hp]; simp)
    have h1 := hf (q! "pref")
    have h2 := hf (q! "type")
    simp only [if_true] at h1 h2
    rw [if_neg (by decide)] at h1
    simp only [Bool.true_eq_false, false_or]
    conv => lhs; unfold paramIsPreferred
    rw [h1, h2]
    simp only [Bool.false_eq_true, if_false, containsPref, List.any_eq_false, decide_eq_true_eq, List.mem_filter, ne_eq, and_imp]
    constructor
    · intro h v hv hup
      apply Classical.byContradiction; intro hne
      exact h v hv hne hup
    · intro h v hv hne hup
      exact hne (h v hv hup)

/-- Partial: both work, for email addresses and URLs, when there is no "pref" parameter and type values are in upper case. -/
theorem C51_preferred_partial (m : ParameterMap) (hs : Sorted m) (p : Bool) (hpref : m.find (q! "pref") = none)
    (hup : ∀ v ∈ (m.find (q! "type")).getD [], toUpperQ v = v) : paramIsPreferred (paramSetPreferred m p) = p := by
  cases p with
  | true => rw [C51_prefer_iff m hs]; right; exact hpref
  | false =>
    rw [C51_unprefer_iff m hs]; right
    intro v hv h; rw [← h, hup v hv]

example :
    let m : ParameterMap := [(q! "type", [q! "HOME"])]
    paramIsPreferred m = false ∧ paramIsPreferred (paramSetPreferred m true) = true ∧
      paramIsPreferred (paramSetPreferred (paramSetPreferred m true) false) = false := by decide

/-- The claims as listed are false: an address with `PREF=2` cannot be made preferred, one with `TYPE=pref` not unpreferred. -/
theorem C51_preferred_false :
    (¬ ∀ m : ParameterMap, Sorted m → paramIsPreferred (paramSetPreferred m true) = true) ∧
    (¬ ∀ m : ParameterMap, Sorted m → paramIsPreferred (paramSetPreferred m false) = false) := by
  constructor
  · intro h; exact absurd (h [(q! "pref", [q! "2"])] (by simp [Sorted])) (by decide)
  · intro h; exact absurd (h [(q! "type", [q! "pref"])] (by simp [Sorted])) (by decide)

/-- Setting the preference keeps all other parameters and, for email addresses and URLs, the type. -/
theorem C51_preferred_keeps_rest (m : ParameterMap) (hs : Sorted m) (p : Bool) :
    (∀ k, k ≠ q! "type" → k ≠ q! "pref" → (paramSetPreferred m p).find k = m.find k) ∧
    paramType emailTypeNames toUpperQ (paramSetPreferred m p) = paramType emailTypeNames toUpperQ m ∧
    paramType urlTypeNames id (paramSetPreferred m p) = paramType urlTypeNames id m := by
  by_cases hp : p = paramIsPreferred m
  · have : paramSetPreferred m p = m := by unfold paramSetPreferred; rw [if_pos hp]
    rw [this]; exact ⟨fun _ _ _ => rfl, rfl, rfl⟩
  · have hf := setPreferred_find m hs p hp
    have htype : ∀ (names : List (QString × Nat)) (fold : QString → QString) (bits : List Nat), GoodNames names fold bits →
        (∀ n ∈ names, n.1 ≠ fold (q! "PREF")) → paramType names fold (paramSetPreferred m p) = paramType names fold m := by
      intro names fold bits g hno
      apply Nat.eq_of_testBit_eq
      intro b
      rw [Bool.eq_iff_iff, paramType_bit g, paramType_bit g, hf, if_pos rfl, Option.getD_some]
      constructor
      · rintro ⟨n, hn, hb, v, hv, e⟩
        refine ⟨n, hn, hb, v, ?_, e⟩
        cases p with
        | true =>
          rcases List.mem_append.1 hv with hv | hv
          · exact hv
          · simp only [List.mem_singleton] at hv; subst hv; exact absurd e.symm (hno n hn)
        | false => exact (List.mem_filter.1 hv).1
      · rintro ⟨n, hn, hb, v, hv, e⟩
        refine ⟨n, hn, hb, v, ?_, e⟩
        cases p with
        | true => exact List.mem_append_left _ hv
        | false =>
          refine List.mem_filter.2 ⟨hv, ?_⟩
          simp only [decide_eq_true_eq]; intro e'; subst e'; exact hno n hn e.symm
    refine ⟨?_, htype _ _ _ emailNames_good (by decide), htype _ _ _ urlNames_good (by decide)⟩
    intro k h1 h2; rw [hf, if_neg h1, if_neg h2]

/-- Setting the type keeps the preference. -/
theorem C51_type_keeps_preference (m : ParameterMap) (t : Nat) :
    paramIsPreferred (paramSetType emailTypeNames toUpperQ m t) = paramIsPreferred m ∧
    paramIsPreferred (paramSetType urlTypeNames id m t) = paramIsPreferred m := by
  have main : ∀ (names : List (QString × Nat)) (fold : QString → QString), (names.map (·.1)).Nodup →
      (∀ n ∈ names, toUpperQ n.1 ≠ q! "PREF") → paramIsPreferred (paramSetType names fold m t) = paramIsPreferred m := by
    intro names fold hnd hno
    have h1 := (C51_type_keeps_rest names fold m t).1 (q! "pref") (by decide)
    obtain ⟨vs, hvs, hdef⟩ := setType_values (names := names) (fold := fold) m t
    have hmem := setType_mem t (paramType names fold m) names hnd ((m.find (q! "type")).getD [])
    rw [← hdef] at hmem
    unfold paramIsPreferred
    rw [h1, hvs]
    cases m.find (q! "pref") with
    | some x => rfl
    | none =>
      simp only
      have hc : containsPref vs = containsPref ((m.find (q! "type")).getD []) := by
        rw [Bool.eq_iff_iff]
        simp only [containsPref, List.any_eq_true, decide_eq_true_eq]
        constructor
        · rintro ⟨v, hv, e⟩
          refine ⟨v, ?_, e⟩
          rw [hmem] at hv
          rcases hv with ⟨hv, -⟩ | ⟨n, hn, e', -⟩
          · exact hv
          · subst e'; exact absurd e (hno n hn)
        · rintro ⟨v, hv, e⟩
          refine ⟨v, ?_, e⟩
          rw [hmem]; left
          refine ⟨hv, ?_⟩
          intro n hn e'; subst e'; exact absurd e (hno n hn)
      rw [hc]
      cases m.find (q! "type") <;> simp [containsPref]
  exact ⟨main _ _ (by decide) (by decide), main _ _ (by decide) (by decide)⟩

/-- Instant messaging addresses: the preference set is the preference read, and no other parameter changes. -/
theorem C51_impp_preferred (m : ParameterMap) (hs : Sorted m) (p : Bool) :
    imppIsPreferred (imppSetPreferred m p) = p ∧ ∀ k, k ≠ q! "pref" → (imppSetPreferred m p).find k = m.find k := by
  unfold imppSetPreferred imppIsPreferred
  cases p with
  | false =>
    simp only [Bool.not_false, if_true, find_eraseFirst' hs]
    exact ⟨trivial, fun k hk => by rw [if_neg (Ne.symm hk)]⟩
  | true =>
    simp only [Bool.not_true, Bool.false_eq_true, if_false]
    cases h : m.find (q! "pref") with
    | some vs =>
      simp only [find_modify_const]
      exact ⟨by simp [h], fun k hk => by rw [if_neg (Ne.symm hk)]⟩
    | none =>
      simp only [SMap.find_insertSorted h]
      exact ⟨by simp, fun k hk => by rw [if_neg (Ne.symm hk)]⟩

/-- An instant messaging address is the preferred one exactly if the first value of its "pref" parameter is 1. -/
theorem C51_impp_is_preferred (m : ParameterMap) : imppIsPreferred m = true ↔ ∃ more, m.find (q! "pref") = some ([qc! '1'] :: more) := by
  unfold imppIsPreferred
  match h : m.find (q! "pref") with
  | none => simp
  | some [] => simp
  | some (x :: t) => simp

/-- Non-vacuity: PREF=1,2 and PREF=2. -/
example : imppIsPreferred [(q! "pref", [q! "1", q! "2"])] = true ∧ imppIsPreferred [(q! "pref", [q! "2"])] = false := by decide

/-! ### Email addresses and URLs themselves -/

/-- Which words of the "type" parameter stand for which type: for an email address in any letter case, for a URL exactly as written. -/
theorem C51_words (e : Email) (u : ParamUrl) (b : Nat) :
    (e.type.testBit b = true ↔ ∃ word, (word, b) ∈ [(q! "HOME", 0), (q! "WORK", 1), (q! "OTHER", 2)] ∧
      ∃ v ∈ (e.params.find (q! "type")).getD [], toUpperQ v = word) ∧
    (u.type.testBit b = true ↔ ∃ word, (word, b) ∈ [(q! "HOME", 0), (q! "WORK", 1), (q! "PROFILE", 2), (q! "FTP", 3), (q! "RESERVATION", 4),
      (q! "APPINSTALLPAGE", 5), (q! "OTHER", 6)] ∧ word ∈ (u.params.find (q! "type")).getD []) := by
  have pw : ∀ k n : Nat, n = 2 ^ k → (n = 2 ^ b ↔ b = k) := by
    intro k n hn; subst hn
    exact ⟨fun h => (Nat.pow_right_injective' h).symm, fun h => by rw [h]⟩
  constructor
  · unfold Email.type
    rw [paramType_bit emailNames_good]
    simp only [emailTypeNames, List.mem_cons, List.not_mem_nil, or_false, exists_eq_or_imp, exists_eq_left, Prod.mk.injEq, or_and_right, exists_or,
      and_assoc, pw 0 1 rfl, pw 1 2 rfl, pw 2 4 rfl]
  · unfold ParamUrl.type
    rw [paramType_bit urlNames_good]
    simp only [urlTypeNames, List.mem_cons, List.not_mem_nil, or_false, exists_eq_or_imp, exists_eq_left, Prod.mk.injEq, or_and_right, exists_or,
      and_assoc, pw 0 1 rfl, pw 1 2 rfl, pw 2 4 rfl, pw 3 8 rfl, pw 4 16 rfl, pw 5 32 rfl, pw 6 64 rfl, id, exists_eq_right]
    constructor
    · rintro (h | h | h | h | h | h | h) <;> simp [h]
    · rintro (h | h | h | h | h | h | h) <;> simp [h]

/-- An email address with a "pref" parameter is preferred exactly if its first value is 1, and one without it exactly if a type word is
    "pref" in any letter case; the same holds for a URL. -/
theorem C51_is_preferred (e : Email) (u : ParamUrl) :
    (e.isPreferred = true ↔ (∃ r, e.params.find (q! "pref") = some (q! "1" :: r)) ∨
      e.params.find (q! "pref") = none ∧ ∃ v ∈ (e.params.find (q! "type")).getD [], toUpperQ v = q! "PREF") ∧
    (u.isPreferred = true ↔ (∃ r, u.params.find (q! "pref") = some (q! "1" :: r)) ∨
      u.params.find (q! "pref") = none ∧ ∃ v ∈ (u.params.find (q! "type")).getD [], toUpperQ v = q! "PREF") := by
  have main : ∀ m : ParameterMap, paramIsPreferred m = true ↔ (∃ r, m.find (q! "pref") = some (q! "1" :: r)) ∨
      m.find (q! "pref") = none ∧ ∃ v ∈ (m.find (q! "type")).getD [], toUpperQ v = q! "PREF" := by
    intro m
    unfold paramIsPreferred
    cases m.find (q! "pref") with
    | some vs => cases vs <;> simp
    | none => cases m.find (q! "type") <;> simp [containsPref]
  exact ⟨main _, main _⟩

/-- Making an email address or URL preferred works exactly if it was preferred already or has no "pref" parameter, and taking the
    preference away exactly if there was none or no type word is a PREF in another spelling. The address itself stays. -/
theorem C51_prefer_object (e : Email) (u : ParamUrl) (he : Sorted e.params) (hu : Sorted u.params) :
    ((e.setPreferred true).isPreferred = true ↔ e.isPreferred = true ∨ e.params.find (q! "pref") = none) ∧
    ((e.setPreferred false).isPreferred = false ↔
      e.isPreferred = false ∨ ∀ v ∈ (e.params.find (q! "type")).getD [], toUpperQ v = q! "PREF" → v = q! "PREF") ∧
    (∀ p, (e.setPreferred p).mail = e.mail ∧ (e.setPreferred p).type = e.type) ∧
    ((u.setPreferred true).isPreferred = true ↔ u.isPreferred = true ∨ u.params.find (q! "pref") = none) ∧
    ((u.setPreferred false).isPreferred = false ↔
      u.isPreferred = false ∨ ∀ v ∈ (u.params.find (q! "type")).getD [], toUpperQ v = q! "PREF" → v = q! "PREF") ∧
    (∀ p, (u.setPreferred p).url = u.url ∧ (u.setPreferred p).type = u.type) :=
  ⟨C51_prefer_iff _ he, C51_unprefer_iff _ he, fun p => ⟨rfl, (C51_preferred_keeps_rest _ he p).2.1⟩,
    C51_prefer_iff _ hu, C51_unprefer_iff _ hu, fun p => ⟨rfl, (C51_preferred_keeps_rest _ hu p).2.2⟩⟩

example : ({ mail := q! "a@b.c", params := [(q! "type", [q! "Work", q! "x"])] } : Email).type = 2 ∧
    ({ url := q! "http://a.b", params := [(q! "type", [q! "Work", q! "FTP"])] } : ParamUrl).type = 8 := by decide

end KC
