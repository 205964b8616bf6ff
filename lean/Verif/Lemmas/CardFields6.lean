import Verif.Lemmas.CardFields5
/-
  The fields of a contact read from the lines of one card: messaging addresses and custom fields.
-/
namespace KC
open KC.Spec

/-! ### names of extensions -/

theorem find_names (t : List (QString × List QString)) (x : QString) :
    ((t.flatMap fun p => p.2.map fun n => (n, p.1)).find? fun q => decide (q.1 = x)).map (·.2) = (t.find? fun p => decide (x ∈ p.2)).map (·.1) := by
  induction t with
  | nil => rfl
  | cons p t ih =>
    rw [List.flatMap_cons, List.find?_append]
    have hp : ((p.2.map fun n => (n, p.1)).find? fun q => decide (q.1 = x)) = if x ∈ p.2 then some (x, p.1) else none := by
      induction p.2 with
      | nil => rfl
      | cons n l ih' =>
        by_cases h : n = x
        · subst h
          simp
        · rw [List.map_cons, List.find?_cons_of_neg (by simpa using h), ih']
          have hx : ¬ x = n := fun e => h e.symm
          simp [hx]
    rw [hp]
    by_cases h : x ∈ p.2
    · rw [if_pos h, List.find?_cons_of_pos (by simpa using h)]
      rfl
    · rw [if_neg h, List.find?_cons_of_neg (by simpa using h), Option.none_or, ih]

theorem table_same (t1 t2 : List (QString × QString)) (h1 : ∀ p ∈ t1, t2.find? (fun q => decide (q.1 = p.1)) = some p) (h2 : ∀ p ∈ t2, p.1 ∈ t1.map (·.1)) (x : QString) :
    t1.find? (fun q => decide (q.1 = x)) = t2.find? fun q => decide (q.1 = x) := by
  cases h : t1.find? (fun q => decide (q.1 = x)) with
  | some p =>
    have e : p.1 = x := by simpa using List.find?_some h
    rw [← h1 p (List.mem_of_find?_eq_some h), e]
  | none =>
    symm
    rw [List.find?_eq_none] at h ⊢
    intro q hq e
    obtain ⟨p, hp, e'⟩ := List.mem_map.1 (h2 q hq)
    have e : q.1 = x := by simpa using e
    exact h p hp (by simp [e', e])

theorem customKey_eq (l : VCardLine) : customKey l = extensionName l := by
  unfold customKey extensionName renamed
  rw [← find_names, ← table_same (importNames.map fun p => (p.1, p.2.drop 2)) (foreignNames.flatMap fun p => p.2.map fun n => (n, p.1)) (by decide +kernel) (by decide +kernel),
    List.find?_map]
  have e : List.find? ((fun q => decide (q.1 = nameOf l)) ∘ fun p : QString × QString => (p.1, p.2.drop 2)) importNames =
    importNames.find? fun p => decide (p.1 = toLowerQ l.identifier) := rfl
  rw [e]
  cases importNames.find? fun p => decide (p.1 = toLowerQ l.identifier) <;> rfl

theorem serviceScheme_eq (s : QString) : normalizeImppServiceType s = serviceScheme s := by
  unfold normalizeImppServiceType serviceScheme
  by_cases h1 : s = q! "jabber"
  · subst h1; decide +kernel
  · by_cases h2 : s = q! "yahoo"
    · subst h2; decide +kernel
    · by_cases h3 : s = q! "gadugadu"
      · subst h3; decide +kernel
      · rw [if_neg h1, if_neg h2, if_neg h3]
        rw [List.find?_cons_of_neg (by simpa using fun e => h1 (Eq.symm e)), List.find?_cons_of_neg (by simpa using fun e => h2 (Eq.symm e)),
          List.find?_cons_of_neg (by simpa using fun e => h3 (Eq.symm e))]
        rfl

theorem takeWhile_upTo (c : UInt16) (a b : QString) (h : c ∉ a) : (a ++ c :: b).takeWhile (fun x => decide (x ≠ c)) = a := by
  rw [List.takeWhile_append_of_pos, List.takeWhile_cons_of_neg (by simp), List.append_nil]
  intro x hx
  simp only [ne_eq, decide_eq_true_eq]
  exact fun e => h (e ▸ hx)

theorem dropWhile_upTo (c : UInt16) (a b : QString) (h : c ∉ a) : (a ++ c :: b).dropWhile (fun x => decide (x ≠ c)) = c :: b := by
  rw [List.dropWhile_append_of_pos, List.dropWhile_cons_of_neg (by simp)]
  intro x hx
  simp only [ne_eq, decide_eq_true_eq]
  exact fun e => h (e ▸ hx)

theorem takeWhile_all (c : UInt16) (a : QString) (h : c ∉ a) : a.takeWhile (fun x => decide (x ≠ c)) = a := by
  have := List.takeWhile_append_of_pos (p := fun x => decide (x ≠ c)) (l₁ := a) (l₂ := []) (by
    intro x hx
    simp only [ne_eq, decide_eq_true_eq]
    exact fun e => h (e ▸ hx))
  simpa using this

theorem first_split (c : UInt16) (s : QString) (h : c ∈ s) : ∃ a b, s = a ++ c :: b ∧ c ∉ a := by
  induction s with
  | nil => cases h
  | cons x s ih =>
    by_cases e : x = c
    · exact ⟨[], s, by rw [e]; rfl, by simp⟩
    · rw [List.mem_cons] at h
      rcases h with h | h
      · exact (e h.symm).elim
      · obtain ⟨a, b, rfl, hn⟩ := ih h
        exact ⟨x :: a, b, rfl, by rw [List.mem_cons]; rintro (h' | h'); exacts [e h'.symm, hn h']⟩

theorem service_eq (key : QString) (h : startsWith (q! "messaging/") key = true) :
    midQ key 10 (indexQ (qc! '-') key - 10) = (key.drop 10).takeWhile (fun x => decide (x ≠ qc! '-')) := by
  obtain ⟨r, rfl⟩ : ∃ r, key = q! "messaging/" ++ r := by
    have e : key.take 10 = q! "messaging/" := by simpa [startsWith] using h
    exact ⟨key.drop 10, by rw [← e, List.take_append_drop]⟩
  have hd : (q! "messaging/" ++ r).drop 10 = r := rfl
  have hno : qc! '-' ∉ (q! "messaging/" : QString) := by decide
  rw [hd]
  by_cases hm : qc! '-' ∈ r
  · obtain ⟨a, b, rfl, ha⟩ := first_split _ _ hm
    have hi : indexQ (qc! '-') (q! "messaging/" ++ (a ++ qc! '-' :: b)) = (10 + a.length : Nat) := by
      unfold indexQ
      rw [← List.append_assoc, indexOf?_append]
      · simp only [List.length_append]
        rfl
      · rw [List.mem_append]; exact fun h => h.elim hno ha
    rw [hi, takeWhile_upTo _ _ _ ha]
    unfold midQ
    rw [if_neg (by omega), hd, show (((10 + a.length : Nat) : Int) - 10).toNat = a.length by omega, List.take_left]
  · have hi : indexQ (qc! '-') (q! "messaging/" ++ r) = -1 := by
      unfold indexQ
      rw [indexOf?_none]
      rw [List.mem_append]; exact fun h => h.elim hno hm
    rw [hi, takeWhile_all _ _ hm]
    unfold midQ
    rw [if_pos (by decide), hd]

/-! ### messaging addresses -/

section
variable (E : ToolEnv) (ids : IdKind → Nat → QString) (s0 : RState) (L : List VCardLine)

theorem insertImpps (l : List ParamUrl) (c : Contact) :
    (l.foldl (fun c u => c.insertImpp E.toQtEnv u) c).impps = c.impps ++ l.filter fun u => decide (u.url ≠ [] ∧ E.urlScheme u.url ≠ []) := by
  induction l generalizing c with
  | nil => simp
  | cons u l ih =>
    rw [List.foldl_cons, ih]
    have : u.isValidImpp E.toQtEnv = decide (u.url ≠ [] ∧ E.urlScheme u.url ≠ []) := by
      unfold ParamUrl.isValidImpp
      rw [Bool.eq_iff_iff]
      simp
    unfold Contact.insertImpp
    rw [this, List.filter_cons]
    split <;> simp

theorem insertCustom_impps (c : Contact) (a n v : QString) : (c.insertCustom a n v).impps = c.impps := by
  unfold Contact.insertCustom
  split
  · rfl
  · simp only
    cases c.customs.find (qualifiedName a n) <;> rfl

theorem impp_tag (l : VCardLine) : tagOf l = .impp ↔ nameOf l = q! "impp" ∧ l.group = [] := by
  rw [tagOf_named l (q! "impp", .impp) (by decide +kernel)]
  constructor
  · rintro ⟨h, h' | h'⟩
    · exact ⟨h, h'⟩
    · rw [h] at h'
      exact absurd h' (by decide)
  · rintro ⟨h, h'⟩
    exact ⟨h, Or.inl h'⟩

theorem anniversary_tag (l : VCardLine) : tagOf l = .anniversary ↔ nameOf l = q! "anniversary" ∧ l.group = [] := by
  rw [tagOf_named l (q! "anniversary", .anniversary) (by decide +kernel)]
  constructor
  · rintro ⟨h, h' | h'⟩
    · exact ⟨h, h'⟩
    · rw [h] at h'
      exact absurd h' (by decide)
  · rintro ⟨h, h'⟩
    exact ⟨h, Or.inl h'⟩

theorem flat_tags {α : Type} (f : VCardLine → List α) (p : VCardLine → Bool) (h : ∀ l, p l = false → f l = []) : (L.filter p).flatMap f = L.flatMap f := by
  induction L with
  | nil => rfl
  | cons l L ih =>
    rw [List.filter_cons, List.flatMap_cons]
    cases hp : p l with
    | true => simp [ih]
    | false => simp [ih, h l hp]

theorem part_impps (h0 : s0.c.impps = []) :
    (L.foldl (readLine E ids) s0).c.impps = (L.flatMap (messagingOf E)).filter fun u => decide (u.url ≠ [] ∧ E.urlScheme u.url ≠ []) := by
  have := read_part E ids (fun s => s.c.impps) [.impp, .x] (fun x l => x ++ (messagingOf E l).filter fun u => decide (u.url ≠ [] ∧ E.urlScheme u.url ≠ []))
    (by other_lines (fun s : RState => s.c.impps))
    (by
      intro s l ht
      replace ht : tagOf l = .impp ∨ tagOf l = .x := by simpa using ht
      rcases ht with ht | ht
      · rw [messagingOf, if_pos ((impp_tag l).1 ht)]
        have := insertImpps E [{ params := l.params, url := (if l.parameter (q! "x-service-type") ≠ [] ∧ E.urlScheme (E.urlOf (valueText l)) = [] then E.urlSetScheme (E.urlOf (valueText l)) (serviceScheme (toLowerQ (l.parameter (q! "x-service-type")))) else E.urlOf (valueText l)) }] s.c
        simp only
        rw [← this]
        simp only [readLine, ht, serviceScheme_eq, List.foldl_cons, List.foldl_nil, valueText]
        congr 3
        by_cases h1 : l.parameter (q! "x-service-type") = []
        · simp [h1]
        · by_cases h2 : E.urlScheme (E.urlOf l.value.toString) = []
          · simp [h1, h2]
          · simp [h2]
      · have hne : ¬ (nameOf l = q! "impp" ∧ l.group = []) := fun h => by
          rw [(impp_tag l).2 h] at ht; cases ht
        have hx := (tagOf_x l).1 ht
        rw [messagingOf, if_neg hne]
        simp only [readLine, ht, readX, customKey_eq, serviceScheme_eq]
        by_cases hm : startsWith (q! "messaging/") (extensionName l) = true
        · rw [if_pos hm, if_pos ⟨hx, hm⟩, service_eq _ hm]
          rw [← insertImpps, List.foldl_map]
          congr 2
          apply List.filter_congr
          intro s _
          cases s <;> rfl
        · have hm' : ¬ (IsExtension l ∧ startsWith (q! "messaging/") (extensionName l) = true) := fun h => hm h.2
          rw [if_neg hm, if_neg hm', insertCustom_impps, List.filter_nil, List.append_nil]) L s0
  rw [this, h0, fold_flat, List.nil_append]
  rw [flat_tags]
  · rw [List.filter_flatMap]
  · intro l hl
    have hl : ¬ tagOf l = .impp ∧ ¬ tagOf l = .x := by simpa using hl
    rw [messagingOf, if_neg (fun h => hl.1 ((impp_tag l).2 h)), if_neg (fun h => hl.2 ((tagOf_x l).2 h.1))]
    rfl

/-! ### custom fields -/

/-- adding a custom field to what is found under a name -/
def customStep (x : QString → Option QString) (p : QString × QString × QString) : QString → Option QString :=
  if p.1 ≠ [] ∧ p.2.1 ≠ [] ∧ p.2.2 ≠ [] then fun q => if p.1 ++ q! "-" ++ p.2.1 = q then some p.2.2 else x q else x

theorem insertCustom_step (c : Contact) (p : QString × QString × QString) (hs : Sorted c.customs) :
    Sorted (c.insertCustom p.1 p.2.1 p.2.2).customs ∧ (c.insertCustom p.1 p.2.1 p.2.2).customs.find = customStep c.customs.find p := by
  unfold Contact.insertCustom customStep
  by_cases h : p.1 ≠ [] ∧ p.2.1 ≠ [] ∧ p.2.2 ≠ []
  · have hq : p.1 ++ q! "-" ++ p.2.1 = qualifiedName p.1 p.2.1 := by unfold qualifiedName; simp
    rw [if_neg (by simp [h.1, h.2.1, h.2.2]), if_pos h, hq]
    simp only
    cases hf : c.customs.find (qualifiedName p.1 p.2.1) with
    | some v =>
      refine ⟨SMap.sorted_modify hs, ?_⟩
      funext q
      simp only [SMap.find_modify]
      by_cases e : qualifiedName p.1 p.2.1 = q
      · rw [if_pos e, if_pos e, ← e, hf]; rfl
      · rw [if_neg e, if_neg e]
    | none =>
      refine ⟨SMap.sorted_insert hs hf, ?_⟩
      funext q
      simp only [SMap.find_insertSorted hf]
  · rw [if_neg h, if_pos]
    · exact ⟨hs, rfl⟩
    · by_cases h1 : p.1 = []
      · simp [h1]
      · by_cases h2 : p.2.1 = []
        · simp [h2]
        · have : p.2.2 = [] := by
            by_contra h3
            exact h ⟨h1, h2, h3⟩
          simp [this]

theorem fold_customs (l : List (QString × QString × QString)) (q : QString) :
    l.foldl customStep (fun _ => none) q =
      ((((l.filter fun p => decide (p.1 ≠ [] ∧ p.2.1 ≠ [] ∧ p.2.2 ≠ [])).map fun p => (p.1 ++ q! "-" ++ p.2.1, p.2.2)).filter fun p => decide (p.1 = q)).getLast?).map (·.2) := by
  induction l using List.reverseRecOn with
  | nil => rfl
  | append_singleton l p ih =>
    rw [List.foldl_append, List.foldl_cons, List.foldl_nil, List.filter_append, List.map_append]
    unfold customStep
    by_cases h : p.1 ≠ [] ∧ p.2.1 ≠ [] ∧ p.2.2 ≠ []
    · rw [if_pos h, List.filter_cons_of_pos (by simpa using h), List.filter_nil, List.map_singleton, last_snoc]
      by_cases e : p.1 ++ q! "-" ++ p.2.1 = q
      · rw [if_pos e, if_pos (by simpa using e)]; rfl
      · rw [if_neg e, if_neg (by simpa using e), ← ih]; rfl
    · rw [if_neg h, List.filter_cons_of_neg (by simpa using h), List.filter_nil, List.map_nil, List.append_nil, ← ih]
      rfl

theorem insertImpps_customs (l : List QString) (f : QString → ParamUrl) (c : Contact) : (l.foldl (fun c v => c.insertImpp E.toQtEnv (f v)) c).customs = c.customs := by
  induction l generalizing c with
  | nil => rfl
  | cons u l ih =>
    rw [List.foldl_cons, ih]
    unfold Contact.insertImpp
    split <;> rfl

theorem customParts (key : QString) :
    (if indexQ (qc! '-') key < 0 then key else key.take (indexQ (qc! '-') key).toNat, key.drop (indexQ (qc! '-') key + 1).toNat) =
    if qc! '-' ∈ key then (key.takeWhile (fun x => decide (x ≠ qc! '-')), (key.dropWhile (fun x => decide (x ≠ qc! '-'))).tail) else (key, key) := by
  by_cases hm : qc! '-' ∈ key
  · obtain ⟨a, b, rfl, ha⟩ := first_split _ _ hm
    have hi : indexQ (qc! '-') (a ++ qc! '-' :: b) = (a.length : Nat) := by
      unfold indexQ
      rw [indexOf?_append _ _ _ ha]
    rw [if_pos hm, hi, takeWhile_upTo _ _ _ ha, dropWhile_upTo _ _ _ ha, if_neg (by omega)]
    rw [show ((a.length : Nat) : Int).toNat = a.length by omega, show (((a.length : Nat) : Int) + 1).toNat = a.length + 1 by omega, List.take_left]
    rw [← List.drop_drop, List.drop_left]
    rfl
  · have hi : indexQ (qc! '-') key = -1 := by
      unfold indexQ
      rw [indexOf?_none _ _ hm]
    rw [if_neg hm, hi]
    rfl

theorem part_customs (h0 : s0.c.customs = []) :
    (∀ q, (L.foldl (readLine E ids) s0).c.customs.find q = (((customEntries L).filter fun p => decide (p.1 = q)).getLast?).map (·.2)) ∧
    Ascending ((L.foldl (readLine E ids) s0).c.customs.map (·.1)) := by
  have := read_part_inv E ids (fun s => s.c.customs.find) [.anniversary, .x] (fun x l => (customOf l).elim x (customStep x)) (fun s => Sorted s.c.customs)
    (by
      intro t ht s s' h hI
      have hp : s'.c.customs = s.c.customs := by
        cases t <;> first | exact (ht (by decide)).elim | exact Eq.trans (congrArg (fun s : RState => s.c.customs) (show s' = _ from h)) rfl
      rw [hp]
      exact ⟨hI, rfl⟩)
    (by
      intro s l ht hI
      replace ht : tagOf l = .anniversary ∨ tagOf l = .x := by simpa using ht
      rcases ht with ht | ht
      · rw [customOf, if_pos ((anniversary_tag l).1 ht)]
        have := insertCustom_step s.c (q! "KADDRESSBOOK", q! "X-Anniversary", isoDate ((parseDateTime (valueText l)).1.map (·.date))) hI
        simp only [readLine, ht]
        exact this
      · have hne : ¬ (nameOf l = q! "anniversary" ∧ l.group = []) := fun h => by
          rw [(anniversary_tag l).2 h] at ht; cases ht
        have hx := (tagOf_x l).1 ht
        rw [customOf, if_neg hne]
        simp only [readLine, ht, readX, customKey_eq]
        by_cases hm : startsWith (q! "messaging/") (extensionName l) = true
        · rw [if_pos hm, if_neg (fun h => by rw [hm] at h; exact absurd h.2 (by decide)), insertImpps_customs]
          exact ⟨hI, rfl⟩
        · have hm' : startsWith (q! "messaging/") (extensionName l) = false := by simpa using hm
          have hm'' : IsExtension l ∧ startsWith (q! "messaging/") (extensionName l) = false := ⟨hx, hm'⟩
          rw [if_neg hm, if_pos hm'']
          have hpar := customParts (extensionName l)
          by_cases hd : qc! '-' ∈ extensionName l
          · rw [if_pos hd, Prod.mk.injEq] at hpar
            rw [if_pos hd, hpar.1, hpar.2]
            exact insertCustom_step s.c (_, _, _) hI
          · rw [if_neg hd, Prod.mk.injEq] at hpar
            rw [if_neg hd, hpar.1, hpar.2]
            exact insertCustom_step s.c (_, _, _) hI) L s0 (by rw [h0]; exact List.Pairwise.nil)
  refine ⟨?_, ?_⟩
  · intro q
    have h := congrFun this.2 q
    rw [h, h0]
    have gen : ∀ (l : List VCardLine) (x : QString → Option QString),
        (l.filter fun l => decide (tagOf l ∈ [Tag.anniversary, Tag.x])).foldl (fun x l => (customOf l).elim x (customStep x)) x = (l.filterMap customOf).foldl customStep x := by
      intro l
      induction l with
      | nil => intro x; rfl
      | cons a l ih =>
        intro x
        by_cases ha : tagOf a ∈ [Tag.anniversary, Tag.x]
        · rw [List.filter_cons_of_pos (by simpa using ha), List.foldl_cons]
          cases hc : customOf a with
          | none => rw [List.filterMap_cons_none hc]; exact ih _
          | some p => rw [List.filterMap_cons_some hc, List.foldl_cons]; exact ih _
        · rw [List.filter_cons_of_neg (by simpa using ha), List.filterMap_cons_none, ih]
          have ha : ¬ tagOf a = .anniversary ∧ ¬ tagOf a = .x := by simpa using ha
          rw [customOf, if_neg (fun h => ha.1 ((anniversary_tag a).2 h)), if_neg (fun h => ha.2 ((tagOf_x a).2 h.1))]
    rw [gen]
    exact fold_customs _ q
  · have := SMap.sorted_iff_keys.1 this.1
    exact this.imp fun h => (qlt_iff_less _ _).1 h

end
end KC
