import Verif.Lemmas.LineForm
/- Helper lemmas: reading back the `type` parameter in the three ways it is written. -/
namespace KC
open Spec

theorem segRead_key {p r : QString × QString} (h : r ∈ segRead p) : r.1 = lowerName p.1 ∨ (p.2 = [] ∧ (r.1 = q! "type" ∨ r.1 = q! "encoding")) := by
  unfold segRead at h
  split at h
  · rename_i e
    simp only [List.mem_singleton] at h
    subst h
    refine .inr ⟨e, ?_⟩
    simp only
    split
    · exact .inr rfl
    · exact .inl rfl
  · split at h
    · split at h
      · obtain ⟨v, _, rfl⟩ := List.mem_map.1 h; exact .inl rfl
      · simp only [List.mem_singleton] at h; subst h; exact .inl rfl
    · obtain ⟨v, _, rfl⟩ := List.mem_map.1 h; exact .inl rfl

theorem read_right (h t : List (QString × QString)) (hd : ∀ p ∈ h, ∀ q ∈ t, p.1 ≠ q.1) (k : QString)
    (hn : ∀ p ∈ h, ∀ r ∈ segRead p, r.1 ≠ k) : valuesOf (readPairs (h ++ t)) k = valuesOf (readPairs t) k := by
  rw [valuesOf_readPairs (h ++ t) (fun x => decide (∃ q ∈ t, q.1 = x)) k]
  · rw [List.filter_append, List.filter_eq_nil_iff.2, List.filter_eq_self.2, List.nil_append]
    · intro q hq; simpa using ⟨q.2, hq⟩
    · intro p hp; simp only [decide_eq_true_eq, not_exists, not_and]; intro q hq e; exact hd p hp q hq e.symm
  · intro p hp hP
    rcases List.mem_append.1 hp with hp | hp
    · exact hn p hp
    · simp at hP; exact absurd hp (by intro h; exact hP p.2 (by simpa using h))

theorem read_left (h t : List (QString × QString)) (hd : ∀ p ∈ h, ∀ q ∈ t, p.1 ≠ q.1) (k : QString)
    (hn : ∀ p ∈ t, ∀ r ∈ segRead p, r.1 ≠ k) : valuesOf (readPairs (h ++ t)) k = valuesOf (readPairs h) k := by
  rw [valuesOf_readPairs (h ++ t) (fun x => decide (∃ q ∈ h, q.1 = x)) k]
  · rw [List.filter_append, List.filter_eq_self.2, List.filter_eq_nil_iff.2, List.append_nil]
    · intro q hq; simp only [decide_eq_true_eq, not_exists, not_and]; intro p hp e; exact hd p hp q hq e
    · intro q hq; simpa using ⟨q.2, hq⟩
  · intro p hp hP
    rcases List.mem_append.1 hp with hp | hp
    · simp at hP; exact absurd hp (by intro h; exact hP p.2 (by simpa using h))
    · exact hn p hp

/-- a literal parameter name -/
def keyLit (k : QString) : Bool :=
  (k.all fun u => u.toNat < 256) && (qc! ';' ∉ k && qc! ':' ∉ k && qc! '=' ∉ k && (10 : UInt16) ∉ k) && (k ≠ q! "encoding" && k ≠ q! "charset") &&
    (lowerName k ≠ q! "encoding" && lowerName k ≠ q! "charset")

theorem pairOK_lit {k : QString} (hk : keyLit k = true) {v : QString} (hl : Latin1 v) (lf : (10 : UInt16) ∉ v)
    (hv : (∃ w, v = qc! '"' :: (w ++ [qc! '"']) ∧ qc! '"' ∉ w) ∨
      (qc! ';' ∉ v ∧ qc! ':' ∉ v ∧ ∀ part ∈ splitOn (qc! ',') v, part.head? ≠ some (qc! '"')))
    (hr : ∀ r ∈ segRead (k, v), r.1 ≠ q! "encoding" ∧ r.1 ≠ q! "charset") : PairOK (k, v) := by
  simp only [keyLit, Bool.and_eq_true, List.all_eq_true, decide_eq_true_eq] at hk
  obtain ⟨⟨⟨h1, ⟨⟨h2, h3⟩, h4⟩, h5⟩, h6, h7⟩, _⟩ := hk
  exact ⟨⟨h1, hl, ⟨h2, h3, h4, h5⟩, lf, hv⟩, ⟨h6, h7⟩, hr⟩

/-- a type name: ASCII letters -/
structure TypeName (s : QString) : Prop where
  ne : s ≠ []
  letters : ∀ u ∈ s, (65 ≤ u.toNat ∧ u.toNat ≤ 90) ∨ (97 ≤ u.toNat ∧ u.toNat ≤ 122)
  coding : s ≠ q! "encoding" ∧ s ≠ q! "charset"

instance (s : QString) : Decidable (TypeName s) :=
  decidable_of_iff (s ≠ [] ∧ (∀ u ∈ s, (65 ≤ u.toNat ∧ u.toNat ≤ 90) ∨ (97 ≤ u.toNat ∧ u.toNat ≤ 122)) ∧ s ≠ q! "encoding" ∧ s ≠ q! "charset")
    ⟨fun h => ⟨h.1, h.2.1, h.2.2⟩, fun h => ⟨h.1, h.2, h.3⟩⟩

theorem TypeName.latin {s : QString} (h : TypeName s) : Latin1 s := fun u hu => by have := h.letters u hu; omega

theorem TypeName.not_mem {s : QString} (h : TypeName s) (c : UInt16) (hc : c.toNat < 65) : c ∉ s := fun hm => by have := h.letters c hm; omega

theorem upperB_letter (c : UInt8) (h : (65 ≤ c.toNat ∧ c.toNat ≤ 90) ∨ (97 ≤ c.toNat ∧ c.toNat ≤ 122)) :
    65 ≤ (lowerB (upperB c)).toNat ∧ UInt16.ofNat (upperB c).toNat = upperQ (UInt16.ofNat c.toNat) := by
  have : ∀ n : Fin 256, ((65 ≤ (UInt8.ofNat n.val).toNat ∧ (UInt8.ofNat n.val).toNat ≤ 90) ∨ (97 ≤ (UInt8.ofNat n.val).toNat ∧ (UInt8.ofNat n.val).toNat ≤ 122)) →
      65 ≤ (lowerB (upperB (UInt8.ofNat n.val))).toNat ∧
        UInt16.ofNat (upperB (UInt8.ofNat n.val)).toNat = upperQ (UInt16.ofNat (UInt8.ofNat n.val).toNat) := by decide +kernel
  have := this ⟨c.toNat, c.toNat_lt⟩
  simp only [UInt8.ofNat_toNat] at this
  exact this h

theorem TypeName.bytes {s : QString} (h : TypeName s) (c : UInt8) (hc : c ∈ toLatin1 s) :
    (65 ≤ c.toNat ∧ c.toNat ≤ 90) ∨ (97 ≤ c.toNat ∧ c.toNat ≤ 122) := by
  simp only [toLatin1, List.mem_map] at hc
  obtain ⟨u, hu, rfl⟩ := hc
  have h1 := h.latin u hu
  rw [if_pos h1, toNat_ofNat8 _ h1]
  exact h.letters u hu

theorem TypeName.upper {s : QString} (h : TypeName s) : fromLatin1 (toUpperB (toLatin1 s)) = toUpperQ s := by
  conv => rhs; rw [← fromLatin1_toLatin1 s h.latin]
  unfold fromLatin1 toUpperB toUpperQ
  rw [List.map_map, List.map_map]
  apply List.map_congr_left
  intro c hc
  exact (upperB_letter c (h.bytes c hc)).2

theorem TypeName.not_coding {s : QString} (h : TypeName s) :
    ¬ (toLowerB (toUpperB (toLatin1 s)) = b! "quoted-printable" ∨ toLowerB (toUpperB (toLatin1 s)) = b! "base64") := by
  have hm : ∀ c ∈ toLowerB (toUpperB (toLatin1 s)), 65 ≤ c.toNat := by
    intro c hc
    simp only [toLowerB, toUpperB, List.mem_map] at hc
    obtain ⟨_, ⟨d, hd, rfl⟩, rfl⟩ := hc
    exact (upperB_letter d (h.bytes d hd)).1
  rintro (e | e) <;> rw [e] at hm
  · exact absurd (hm 45 (by decide)) (by decide)
  · exact absurd (hm 54 (by decide)) (by decide)

theorem type_not_coding : q! "type" ≠ q! "encoding" ∧ q! "type" ≠ q! "charset" := by decide

theorem TypeName.bare {s : QString} (h : TypeName s) : PairOK (s, []) ∧ segRead (s, []) = [(q! "type", toUpperQ s)] := by
  have hr : segRead (s, []) = [(q! "type", toUpperQ s)] := by
    unfold segRead
    rw [if_pos rfl, if_neg h.not_coding, h.upper]
  refine ⟨⟨⟨h.latin, by intro u hu; simp at hu, ⟨h.not_mem _ (by decide), h.not_mem _ (by decide), h.not_mem _ (by decide), h.not_mem _ (by decide)⟩,
    by simp, .inr ⟨by simp, by simp, by simp [splitOn]⟩⟩, h.coding, ?_⟩, hr⟩
  rw [hr]
  intro r hr
  simp only [List.mem_singleton] at hr
  subst hr
  exact type_not_coding

theorem TypeName.head {s : QString} (h : TypeName s) : s.head? ≠ some (qc! '"') := by
  intro e
  exact h.not_mem (qc! '"') (by decide) (List.mem_of_mem_head? e)

theorem lowerName_TYPE : lowerName (q! "TYPE") = q! "type" := by decide

theorem join_types_ok {ns : List QString} (h : ∀ n ∈ ns, TypeName n) (c : UInt16) (hc : c.toNat < 65) (hne : c ≠ qc! ',') : c ∉ join [qc! ','] ns := by
  intro hm
  rcases mem_join hm with hm | ⟨v, hv, hm⟩
  · simp at hm; exact hne hm
  · exact (h v hv).not_mem c hc hm

/-- `TYPE=A,B` -/
theorem types_list {ns : List QString} (hne : ns ≠ []) (h : ∀ n ∈ ns, TypeName n) :
    PairOK (q! "TYPE", join [qc! ','] ns) ∧ segRead (q! "TYPE", join [qc! ','] ns) = ns.map fun v => (q! "type", v) := by
  have hj := join_head (sep := [qc! ',']) hne fun v hv => (h v hv).ne
  have hs : splitOn (qc! ',') (join [qc! ','] ns) = ns := splitOn_join hne fun v hv => (h v hv).not_mem _ (by decide)
  have hr : segRead (q! "TYPE", join [qc! ','] ns) = ns.map fun v => (q! "type", v) := by
    unfold segRead
    simp only
    rw [if_neg hj.1, if_neg, hs, lowerName_TYPE]
    rw [hj.2]
    exact (h _ (List.head_mem hne)).head
  refine ⟨pairOK_lit (by decide) (latin1_join (by unfold Latin1; decide) fun v hv => (h v hv).latin) ?_ (.inr ⟨?_, ?_, ?_⟩) ?_, hr⟩
  · exact join_types_ok h _ (by decide) (by decide)
  · exact join_types_ok h _ (by decide) (by decide)
  · exact join_types_ok h _ (by decide) (by decide)
  · rw [hs]; exact fun v hv => (h v hv).head
  · rw [hr]
    intro r hr
    obtain ⟨v, _, rfl⟩ := List.mem_map.1 hr
    exact type_not_coding

/-- `TYPE="a,b"` -/
theorem types_quoted {ns : List QString} (hne : ns ≠ []) (h : ∀ n ∈ ns, TypeName n) :
    PairOK (q! "TYPE", qc! '"' :: (join [qc! ','] ns ++ [qc! '"'])) ∧
      segRead (q! "TYPE", qc! '"' :: (join [qc! ','] ns ++ [qc! '"'])) = ns.map fun v => (q! "type", v) := by
  have hs : splitOn (qc! ',') (join [qc! ','] ns) = ns := splitOn_join hne fun v hv => (h v hv).not_mem _ (by decide)
  have hr : segRead (q! "TYPE", qc! '"' :: (join [qc! ','] ns ++ [qc! '"'])) = ns.map fun v => (q! "type", v) := by
    unfold segRead
    rw [if_neg (by simp), if_pos (by simp), lowerName_TYPE, if_pos rfl]
    simp only [List.drop_succ_cons, List.drop_zero, List.dropLast_concat]
    rw [hs]
  refine ⟨pairOK_lit (by decide) ?_ ?_ (.inl ⟨_, rfl, join_types_ok h _ (by decide) (by decide)⟩) ?_, hr⟩
  · intro u hu
    simp only [List.mem_cons, List.mem_append, List.not_mem_nil, or_false] at hu
    rcases hu with rfl | hu | rfl
    · decide
    · exact latin1_join (by unfold Latin1; decide) (fun v hv => (h v hv).latin) u hu
    · decide
  · simp only [List.mem_cons, List.mem_append, List.not_mem_nil, or_false, not_or]
    exact ⟨by decide, join_types_ok h _ (by decide) (by decide), by decide⟩
  · rw [hr]
    intro r hr
    obtain ⟨v, _, rfl⟩ := List.mem_map.1 hr
    exact type_not_coding

theorem type_empty : PairOK (q! "TYPE", []) ∧ segRead (q! "TYPE", []) = [(q! "type", q! "TYPE")] := (show TypeName (q! "TYPE") by decide).bare

theorem readPairs_one (p : QString × QString) : readPairs [p] = segRead p := by
  unfold readPairs
  rw [flat_sorted _ (by simp)]
  simp

/-- the names as read back -/
def typesRead (v : Version) (ns : List QString) : List QString :=
  match v with
  | .v2_1 => ns.map toUpperQ
  | _ => if ns = [] then [q! "TYPE"] else ns

theorem toolParams_pairs (v : Version) (ns : List QString) (h : ∀ n ∈ ns, TypeName n) : ∀ p ∈ toolParams v (q! "TYPE") ns, PairOK p := by
  intro p hp
  cases v with
  | v2_1 =>
    simp only [toolParams] at hp
    obtain ⟨n, hn, rfl⟩ := List.mem_map.1 hp
    exact (h n hn).bare.1
  | v3_0 =>
    simp only [toolParams, List.mem_singleton] at hp
    subst hp
    by_cases hne : ns = []
    · subst hne; exact type_empty.1
    · exact (types_list hne h).1
  | v4_0 =>
    simp only [toolParams] at hp
    split at hp
    · simp only [List.mem_singleton] at hp
      subst hp
      by_cases hne : ns = []
      · subst hne; exact type_empty.1
      · exact (types_list hne h).1
    · rename_i hl
      simp only [List.mem_singleton] at hp
      subst hp
      exact (types_quoted (by rintro rfl; simp at hl) h).1

theorem valuesOf_map_const (vs : List QString) (k : QString) : valuesOf (vs.map fun v => (k, v)) k = vs := by
  induction vs with
  | nil => rfl
  | cons v vs ih =>
    simp only [valuesOf, List.map_cons] at *
    rw [List.filter_cons_of_pos (by simp), List.map_cons, ih]

theorem toolParams_read (v : Version) (ns : List QString) (h : ∀ n ∈ ns, TypeName n) (hs : v = .v2_1 → ns.Pairwise (fun a b => qlt a b = true)) :
    valuesOf (readPairs (toolParams v (q! "TYPE") ns)) (q! "type") = typesRead v ns := by
  have one : ∀ ns : List QString, (∀ n ∈ ns, TypeName n) → valuesOf (readPairs [(q! "TYPE", join [qc! ','] ns)]) (q! "type") = if ns = [] then [q! "TYPE"] else ns := by
    intro ns h
    rw [readPairs_one]
    by_cases hne : ns = []
    · subst hne
      have : join [qc! ','] [] = ([] : QString) := rfl
      rw [this, type_empty.2, if_pos rfl]; rfl
    · rw [(types_list hne h).2, valuesOf_map_const, if_neg hne]
  cases v with
  | v2_1 =>
    simp only [toolParams, typesRead]
    unfold readPairs
    rw [flat_sorted _ (by rw [List.map_map]; simpa [Function.comp_def] using hs rfl)]
    have : (ns.map fun s => (s, ([] : QString))).flatMap segRead = ns.map fun s => (q! "type", toUpperQ s) := by
      rw [List.flatMap_map]
      clear hs one
      induction ns with
      | nil => rfl
      | cons n ns ih =>
        rw [List.flatMap_cons, (h n (by simp)).bare.2, ih fun x hx => h x (List.mem_cons_of_mem _ hx)]; rfl
    rw [this]
    have := valuesOf_map_const (ns.map toUpperQ) (q! "type")
    rw [List.map_map] at this
    exact this
  | v3_0 => exact one ns h
  | v4_0 =>
    simp only [toolParams, typesRead]
    split
    · exact one ns h
    · rename_i hl
      have hne : ns ≠ [] := by rintro rfl; simp at hl
      rw [readPairs_one, (types_quoted hne h).2, valuesOf_map_const, if_neg hne]

end KC
