import Verif.Lemmas.Fields6
/- Helper lemmas: the fields of a contact after writing and reading, part 7: addresses and their labels. -/
namespace KC
open Spec

variable {E : ToolEnv} {v : Version} {c : Contact}

/-! ### the lines of an address -/

/-- the quoted text of the position parameter -/
def geoText (E : ToolEnv) (g : Geo) : QString := q! "geo:" ++ E.fmt6 g.latitude ++ qc! ',' :: E.fmt6 g.longitude

def labelPairs (v : Version) (a : Address) : List (QString × QString) :=
  if v = .v4_0 ∧ a.label ≠ [] then [(q! "LABEL", qc! '"' :: (a.label ++ [qc! '"']))] else []
def geoPairs (E : ToolEnv) (v : Version) (a : Address) : List (QString × QString) :=
  if v = .v4_0 ∧ a.geo.isValid = true then [(q! "GEO", qc! '"' :: (geoText E a.geo ++ [qc! '"']))] else []

def adrPairs (E : ToolEnv) (v : Version) (a : Address) : List (QString × QString) :=
  labelPairs v a ++ geoPairs E v a ++ toolParams v (q! "TYPE") (typeNames addressTypes a.type)

def adrLine (E : ToolEnv) (v : Version) (a : Address) : VCardLine :=
  mkLine (q! "ADR") (.str (joinEscaped (qc! ';') a.parts)) (coding v (joinEscaped (qc! ';') a.parts) ++ adrPairs E v a)
def labelLine (v : Version) (a : Address) : VCardLine :=
  mkLine (q! "LABEL") (.str a.label) (coding v a.label ++ toolParams v (q! "TYPE") (typeNames addressTypes a.type))

theorem mkLine_addIf (id : QString) (val : QVariant) (h : List (QString × QString)) (P : Prop) [Decidable P] (k w : QString) :
    (if P then (mkLine id val h).addParameter k w else mkLine id val h) = mkLine id val (h ++ if P then [(k, w)] else []) := by
  split
  · rw [mkLine_add]
  · rw [List.append_nil]

theorem addressLines_eq {a : Address} (h : AddressFit E v a) :
    addressLines E v a = (if v ≠ .v4_0 ∧ a.label ≠ [] then [labelLine v a] else []) ++ [adrLine E v a] := by
  have he : ¬ (a.postOfficeBox.isEmpty && a.extended.isEmpty && a.street.isEmpty && a.locality.isEmpty && a.region.isEmpty
      && a.postalCode.isEmpty && a.country.isEmpty) = true := by
    intro e
    simp only [Bool.and_eq_true, List.isEmpty_iff] at e
    obtain ⟨s, hs, hne⟩ := h.some
    simp only [Address.parts, e] at hs
    simp at hs
    exact hne hs
  unfold addressLines
  simp only [if_neg he]
  congr 1
  · by_cases hc : v ≠ .v4_0 ∧ a.label ≠ []
    · rw [if_pos hc, if_pos (by simp [hc.1, hc.2]), encoded_eq, toolAdd_eq]; rfl
    · rw [if_neg hc, if_neg (by simpa using hc)]
  · have e1 : labelPairs v a = if (v = .v4_0 && !a.label.isEmpty) = true then [(q! "LABEL", qc! '"' :: (a.label ++ [qc! '"']))] else [] := by
      unfold labelPairs; simp
    have e2 : geoPairs E v a = if (v = .v4_0 && a.geo.isValid) = true then
        [(q! "GEO", q! "\"geo:" ++ E.fmt6 a.geo.latitude ++ qc! ',' :: (E.fmt6 a.geo.longitude ++ [qc! '"']))] else [] := by
      unfold geoPairs geoText; simp
    unfold adrLine adrPairs
    rw [e1, e2, encoded_eq, mkLine_addIf, mkLine_addIf, toolAdd_eq]
    simp only [List.append_assoc]
    rfl

/-- a quoted parameter -/
theorem pair_quoted {K k w : QString} (hK : keyLit K = true) (hk : lowerName K = k) (ht : k ≠ q! "type") (hl : Latin1 w) (hq : qc! '"' ∉ w) (hf : (10 : UInt16) ∉ w) :
    PairOK (K, qc! '"' :: (w ++ [qc! '"'])) ∧ segRead (K, qc! '"' :: (w ++ [qc! '"'])) = [(k, w)] := by
  have hr : segRead (K, qc! '"' :: (w ++ [qc! '"'])) = [(k, w)] := by
    unfold segRead
    rw [if_neg (by simp), if_pos (by simp), hk, if_neg ht]
    simp
  refine ⟨pairOK_lit hK ?_ ?_ (.inl ⟨w, rfl, hq⟩) ?_, hr⟩
  · intro u hu
    simp only [List.mem_cons, List.mem_append, List.not_mem_nil, or_false] at hu
    rcases hu with rfl | hu | rfl
    · decide
    · exact hl u hu
    · decide
  · simp only [List.mem_cons, List.mem_append, List.not_mem_nil, or_false, not_or]
    exact ⟨by decide, hf, by decide⟩
  · rw [hr]
    intro r hr'
    rw [List.mem_singleton] at hr'; subst hr'
    simp only [keyLit, Bool.and_eq_true, decide_eq_true_eq] at hK
    rw [← hk]; exact hK.2

theorem geoText_ok {g : Geo} (h : PositionOK E E.toDouble g) : Latin1 (geoText E g) ∧ qc! '"' ∉ geoText E g ∧ (10 : UInt16) ∉ geoText E g := by
  have h1 := h.lat.2
  have h2 := h.long.2
  have hb : Bare (geoText E g) := by
    unfold geoText
    exact (Bare.append (by unfold Bare; decide) (number_bare h1)).append (.cons (by decide) (number_bare h2))
  refine ⟨fun u hu => by have := (hb u hu).1; omega, ?_, ?_⟩
  all_goals
    unfold geoText
    simp only [List.mem_append, List.mem_cons, not_or]
    exact ⟨⟨by decide, number_not_mem h1 (by decide) (by decide) (by decide)⟩, by decide, number_not_mem h2 (by decide) (by decide) (by decide)⟩

/-- the parameters `LABEL` and `GEO` as read -/
theorem label_pair {a : Address} (h : AddressFit E v a) (hv : v = .v4_0) : PairOK (q! "LABEL", qc! '"' :: (a.label ++ [qc! '"'])) ∧
    segRead (q! "LABEL", qc! '"' :: (a.label ++ [qc! '"'])) = [(q! "label", a.label)] :=
  pair_quoted (by decide) (by decide) (by decide) (h.label4 hv).1 (h.label4 hv).2.1 (h.label4 hv).2.2
theorem geo_pair {a : Address} (h : AddressFit E v a) (hv : v = .v4_0) (hg : a.geo.isValid = true) : PairOK (q! "GEO", qc! '"' :: (geoText E a.geo ++ [qc! '"'])) ∧
    segRead (q! "GEO", qc! '"' :: (geoText E a.geo ++ [qc! '"'])) = [(q! "geo", geoText E a.geo)] :=
  have hp := geoText_ok (h.geo hv hg)
  pair_quoted (by decide) (by decide) (by decide) hp.1 hp.2.1 hp.2.2

theorem labelPairs_mem {a : Address} (h : AddressFit E v a) : ∀ p ∈ labelPairs v a, p.1 = q! "LABEL" ∧ PairOK p ∧ segRead p = [(q! "label", a.label)] := by
  intro p hp
  unfold labelPairs at hp
  split at hp
  · rename_i hc
    rw [List.mem_singleton] at hp; subst hp
    exact ⟨rfl, label_pair h hc.1⟩
  · cases hp
theorem geoPairs_mem {a : Address} (h : AddressFit E v a) : ∀ p ∈ geoPairs E v a, p.1 = q! "GEO" ∧ PairOK p ∧ segRead p = [(q! "geo", geoText E a.geo)] := by
  intro p hp
  unfold geoPairs at hp
  split at hp
  · rename_i hc
    rw [List.mem_singleton] at hp; subst hp
    exact ⟨rfl, geo_pair h hc.1 hc.2⟩
  · cases hp

theorem adrPairs_ok {a : Address} (h : AddressFit E v a) : ∀ p ∈ adrPairs E v a, PairOK p := by
  intro p hp
  rcases List.mem_append.1 hp with hp | hp
  · rcases List.mem_append.1 hp with hp | hp
    · exact (labelPairs_mem h p hp).2.1
    · exact (geoPairs_mem h p hp).2.1
  · exact toolParams_pairs v _ (address_typeNames a.type) p hp

theorem address_keys (v : Version) (t : Nat) : ∀ p ∈ toolParams v (q! "TYPE") (typeNames addressTypes t),
    p.1 ≠ q! "LABEL" ∧ p.1 ≠ q! "GEO" ∧ p.1 ≠ q! "charset" ∧ p.1 ≠ q! "encoding" := by
  intro p hp
  have hT : q! "TYPE" ≠ q! "LABEL" ∧ q! "TYPE" ≠ q! "GEO" ∧ q! "TYPE" ≠ q! "charset" ∧ q! "TYPE" ≠ q! "encoding" := by decide
  cases v with
  | v2_1 =>
    obtain ⟨s, hs, rfl⟩ := List.mem_map.1 hp
    obtain ⟨i, hi, rfl⟩ := typeNames_mem hs
    have : ∀ i ∈ addressTypes, i.1 ≠ q! "LABEL" ∧ i.1 ≠ q! "GEO" ∧ i.1 ≠ q! "charset" ∧ i.1 ≠ q! "encoding" := by decide
    exact this i hi
  | v3_0 => simp only [toolParams, List.mem_singleton] at hp; subst hp; exact hT
  | v4_0 =>
    simp only [toolParams] at hp
    split at hp <;> (rw [List.mem_singleton] at hp; subst hp; exact hT)

theorem coding_keys (v : Version) (s : QString) : ∀ p ∈ coding v s, (p.1 = q! "charset" ∨ p.1 = q! "encoding") ∧
    ∀ r ∈ segRead p, r.1 = q! "charset" ∨ r.1 = q! "encoding" := by
  intro p hp
  unfold coding at hp
  split at hp
  · simp only [List.mem_cons, List.not_mem_nil, or_false] at hp
    rcases hp with rfl | rfl
    · exact (by decide +kernel : (q! "charset" = q! "charset" ∨ q! "charset" = q! "encoding") ∧
        ∀ r ∈ segRead (q! "charset", q! "UTF-8"), r.1 = q! "charset" ∨ r.1 = q! "encoding")
    · exact (by decide +kernel : (q! "encoding" = q! "charset" ∨ q! "encoding" = q! "encoding") ∧
        ∀ r ∈ segRead (q! "encoding", q! "QUOTED-PRINTABLE"), r.1 = q! "charset" ∨ r.1 = q! "encoding")
  · cases hp

/-- the types on a line with a coding and other parameters -/
theorem types_after (v : Version) (t : Nat) (h : List (QString × QString))
    (hk : ∀ p ∈ h, (p.1 = q! "LABEL" ∨ p.1 = q! "GEO" ∨ p.1 = q! "charset" ∨ p.1 = q! "encoding") ∧ ∀ r ∈ segRead p, r.1 ≠ q! "type") (id : QString) (val : QVariant) :
    addressTypeOf (rdLine id val (h ++ toolParams v (q! "TYPE") (typeNames addressTypes t))) = t &&& 127 := by
  unfold addressTypeOf
  rw [rd_parameters, read_right h _ ?_ (q! "type") fun p hp => (hk p hp).2,
    toolParams_read v _ (address_typeNames t) (fun _ => address_asc t), address_flags]
  intro p hp q hq e
  have h1 := (hk p hp).1
  have h2 := address_keys v t q hq
  rw [e] at h1
  rcases h1 with h | h | h | h
  · exact h2.1 h
  · exact h2.2.1 h
  · exact h2.2.2.1 h
  · exact h2.2.2.2 h

theorem adr_type {a : Address} (h : AddressFit E v a) (s id : QString) (val : QVariant) : addressTypeOf (rdLine id val (coding v s ++ adrPairs E v a)) = a.named := by
  unfold adrPairs
  rw [← List.append_assoc]
  apply types_after
  intro p hp
  rcases List.mem_append.1 hp with hp | hp
  · obtain ⟨h1, h2⟩ := coding_keys v s p hp
    refine ⟨by rcases h1 with h | h <;> simp [h], fun r hr => ?_⟩
    rcases h2 r hr with h | h <;> rw [h] <;> decide
  · rcases List.mem_append.1 hp with hp | hp
    · obtain ⟨h1, _, h2⟩ := labelPairs_mem h p hp
      refine ⟨.inl h1, fun r hr => ?_⟩
      rw [h2, List.mem_singleton] at hr; subst hr; simp
    · obtain ⟨h1, _, h2⟩ := geoPairs_mem h p hp
      refine ⟨.inr (.inl h1), fun r hr => ?_⟩
      rw [h2, List.mem_singleton] at hr; subst hr; simp

theorem label_type (a : Address) (s id : QString) (val : QVariant) :
    addressTypeOf (rdLine id val (coding v s ++ toolParams v (q! "TYPE") (typeNames addressTypes a.type))) = a.named := by
  apply types_after
  intro p hp
  obtain ⟨h1, h2⟩ := coding_keys v s p hp
  refine ⟨by rcases h1 with h | h <;> simp [h], fun r hr => ?_⟩
  rcases h2 r hr with h | h <;> rw [h] <;> decide

/-- the label and position on an ADR line -/
theorem adr_values {a : Address} (h : AddressFit E v a) (s k : QString) (hk : k = q! "label" ∨ k = q! "geo") :
    valuesOf (readPairs (coding v s ++ adrPairs E v a)) k =
      valuesOf (readPairs (labelPairs v a ++ geoPairs E v a)) k := by
  unfold adrPairs
  rw [read_right (coding v s) _ ?_ k ?_, read_left _ (toolParams v (q! "TYPE") (typeNames addressTypes a.type)) ?_ k ?_]
  · intro p hp q hq e
    have h2 := address_keys v a.type q hq
    rcases List.mem_append.1 hp with hp | hp
    · rw [(labelPairs_mem h p hp).1] at e; exact h2.1 e.symm
    · rw [(geoPairs_mem h p hp).1] at e; exact h2.2.1 e.symm
  · intro p hp r hr
    rw [toolParams_reads v _ (address_typeNames a.type) p hp r hr]
    rcases hk with rfl | rfl <;> decide
  · intro p hp q hq e
    have h1 := (coding_keys v s p hp).1
    have h2 := adrPairs_ok h q hq
    rcases h1 with h1 | h1 <;> rw [h1] at e
    · exact h2.key.2 e.symm
    · exact h2.key.1 e.symm
  · intro p hp r hr
    rcases (coding_keys v s p hp).2 r hr with h | h <;> rw [h] <;> rcases hk with rfl | rfl <;> decide

theorem adr_label {a : Address} (h : AddressFit E v a) (s id : QString) (val : QVariant) :
    (rdLine id val (coding v s ++ adrPairs E v a)).parameter (q! "label") = if v = .v4_0 then a.label else [] := by
  rw [rd_parameter, adr_values h _ _ (.inl rfl), read_left (labelPairs v a) _ ?_ (q! "label") ?_]
  · unfold labelPairs
    by_cases hv : v = .v4_0
    · rw [if_pos hv]
      by_cases hl : a.label = []
      · rw [if_neg (by simp [hl]), hl]; rfl
      · rw [if_pos ⟨hv, hl⟩, readPairs_one, (label_pair h hv).2]; rfl
    · rw [if_neg (by simp [hv]), if_neg hv]; rfl
  · intro p hp q hq e
    rw [(labelPairs_mem h p hp).1, (geoPairs_mem h q hq).1] at e
    revert e; decide
  · intro p hp r hr
    rw [(geoPairs_mem h p hp).2.2, List.mem_singleton] at hr; subst hr; simp

theorem adr_geo {a : Address} (h : AddressFit E v a) (s id : QString) (val : QVariant) :
    (rdLine id val (coding v s ++ adrPairs E v a)).parameter (q! "geo") = if v = .v4_0 ∧ a.geo.isValid = true then geoText E a.geo else [] := by
  rw [rd_parameter, adr_values h _ _ (.inr rfl), read_right (labelPairs v a) _ ?_ (q! "geo") ?_]
  · unfold geoPairs
    by_cases hv : v = .v4_0 ∧ a.geo.isValid = true
    · rw [if_pos hv, if_pos hv, readPairs_one, (geo_pair h hv.1 hv.2).2]; rfl
    · rw [if_neg hv, if_neg hv]; rfl
  · intro p hp q hq e
    rw [(labelPairs_mem h p hp).1, (geoPairs_mem h q hq).1] at e
    revert e; decide
  · intro p hp r hr
    rw [(labelPairs_mem h p hp).2.2, List.mem_singleton] at hr; subst hr; simp

theorem adrGeo_value {g : Geo} (h : PositionOK E E.toDouble g) (hv : g.isValid = true) :
    let t := replaceStr (q! "geo:") [] (removeChar (qc! '"') (geoText E g))
    qc! ',' ∈ t ∧ ((({} : Geo).setLatitude (E.toDouble ((splitOn (qc! ',') t).getD 0 []))).setLongitude (E.toDouble ((splitOn (qc! ',') t).getD 1 []))) = g := by
  have hl := h.lat.2
  have hg := h.long.2
  have e1 : removeChar (qc! '"') (geoText E g) = geoText E g := by
    unfold removeChar
    rw [List.filter_eq_self]
    intro u hu
    have := (geoText_ok h).2.1
    simp only [bne_iff_ne, ne_eq, decide_eq_true_eq]
    rintro rfl; exact this hu
  have e2 : replaceStr (q! "geo:") [] (geoText E g) = E.fmt6 g.latitude ++ qc! ',' :: E.fmt6 g.longitude := by
    unfold geoText
    rw [List.append_assoc, replaceStr_front (by decide)]
    intro u hu hm
    have h' : u ≠ qc! '-' ∧ u ≠ qc! '.' ∧ ¬ (48 ≤ u.toNat ∧ u.toNat ≤ 57) ∧ u ≠ qc! ',' := by
      clear hm; revert u; decide
    rcases List.mem_append.1 hm with hm | hm
    · exact number_not_mem hl h'.1 h'.2.1 h'.2.2.1 hm
    · rcases List.mem_cons.1 hm with hm | hm
      · exact h'.2.2.2 hm
      · exact number_not_mem hg h'.1 h'.2.1 h'.2.2.1 hm
  intro t
  have ht : t = E.fmt6 g.latitude ++ qc! ',' :: E.fmt6 g.longitude := by show replaceStr _ _ _ = _; rw [e1, e2]
  rw [ht]
  refine ⟨by simp, ?_⟩
  rw [splitOn_append_sep, splitOn_of_not_mem _ _ (number_not_mem hl (by decide) (by decide) (by decide)), splitOn_of_not_mem _ _ (number_not_mem hg (by decide) (by decide) (by decide))]
  exact geo_of h hv

/-- an address as read from its ADR line -/
def Address.read (v : Version) (id : QString) (a : Address) : Address := { a.restored v id with label := if v = .v4_0 then a.label else [] }

theorem address_set (id : QString) (p : List QString) (hp : p ≠ []) :
    (let a : Address := { id := id }
     let a := if p.length > 0 then a.set (.postOfficeBox (p.getD 0 [])) else a
     let a := if p.length > 1 then a.set (.extended (p.getD 1 [])) else a
     let a := if p.length > 2 then a.set (.street (p.getD 2 [])) else a
     let a := if p.length > 3 then a.set (.locality (p.getD 3 [])) else a
     let a := if p.length > 4 then a.set (.region (p.getD 4 [])) else a
     let a := if p.length > 5 then a.set (.postalCode (p.getD 5 [])) else a
     if p.length > 6 then a.set (.country (p.getD 6 [])) else a) =
    { id := id, empty := false, postOfficeBox := p.getD 0 [], extended := p.getD 1 [], street := p.getD 2 [], locality := p.getD 3 [], region := p.getD 4 [],
      postalCode := p.getD 5 [], country := p.getD 6 [] } := by
  match p with
  | [] => exact absurd rfl hp
  | [_] => rfl
  | [_, _] => rfl
  | [_, _, _] => rfl
  | [_, _, _, _] => rfl
  | [_, _, _, _, _] => rfl
  | [_, _, _, _, _, _] => rfl
  | _ :: _ :: _ :: _ :: _ :: _ :: _ :: t => simp [Address.set]

theorem address_read {a : Address} (h : AddressFit E v a) (id : QString) :
    readAddress E id (rdLine (q! "ADR") (.str (joinEscaped (qc! ';') a.parts)) (coding v (joinEscaped (qc! ';') a.parts) ++ adrPairs E v a)) = a.merged.read v id := by
  unfold readAddress
  simp only [adr_type h, adr_label h, adr_geo h]
  have hs : splitString (qc! ';') (rdLine (q! "ADR") (.str (joinEscaped (qc! ';') a.parts)) (coding v (joinEscaped (qc! ';') a.parts) ++ adrPairs E v a)).value.toString = merged (qc! ';') a.parts :=
    split_merged (.inl rfl) (by simp [Address.parts])
  rw [hs]
  have hset := address_set id (merged (qc! ';') a.parts) (merged_ne (by simp [Address.parts]))
  simp only at hset
  rw [hset]
  simp only [Address.set]
  have hlab : ∀ b : Address, (if (if v = .v4_0 then a.label else []).isEmpty then b
      else { b with empty := false, label := if (if v = .v4_0 then a.label else []).length > 1 && (if v = .v4_0 then a.label else []).head? = some (qc! '"') &&
        (if v = .v4_0 then a.label else []).getLast? = some (qc! '"') then mid (if v = .v4_0 then a.label else []) 1 ((if v = .v4_0 then a.label else []).length - 2)
        else (if v = .v4_0 then a.label else []) }) = if b.empty = false ∧ b.label = [] then { b with label := if v = .v4_0 then a.label else [] } else
        (if (if v = .v4_0 then a.label else []).isEmpty then b else { b with empty := false, label := if v = .v4_0 then a.label else [] }) := by
    intro b
    have hq : ¬ ((if v = .v4_0 then a.label else []).length > 1 && (if v = .v4_0 then a.label else []).head? = some (qc! '"') &&
        (if v = .v4_0 then a.label else []).getLast? = some (qc! '"')) = true := by
      intro e
      simp only [Bool.and_eq_true, decide_eq_true_eq] at e
      by_cases hv : v = .v4_0
      · rw [if_pos hv] at e
        exact (h.label4 hv).2.1 (List.mem_of_mem_head? e.1.2)
      · rw [if_neg hv] at e
        simp at e
    rw [if_neg hq]
    by_cases hb : b.empty = false ∧ b.label = []
    · rw [if_pos hb]
      by_cases hl : (if v = .v4_0 then a.label else []).isEmpty
      · rw [if_pos hl]
        rw [List.isEmpty_iff] at hl
        rw [hl]
        obtain ⟨b0, b1, b2, b3, b4, b5, b6, b7, b8, b9, b10, b11⟩ := b
        obtain ⟨rfl, rfl⟩ := hb
        rfl
      · rw [if_neg hl]
        obtain ⟨b0, b1, b2, b3, b4, b5, b6, b7, b8, b9, b10, b11⟩ := b
        obtain ⟨rfl, rfl⟩ := hb
        rfl
    · rw [if_neg hb]
  rw [hlab]
  simp only [and_self, if_true]
  by_cases hg : v = .v4_0 ∧ a.geo.isValid = true
  · have hne : geoText E a.geo ≠ [] := by unfold geoText; simp
    obtain ⟨h1, h2⟩ := adrGeo_value (h.geo hg.1 hg.2) hg.2
    simp only [if_pos hg]
    rw [if_neg (by simpa using hne), if_pos h1, h2]
    unfold Address.read Address.restored
    have hg' : v = .v4_0 ∧ a.merged.geo.isValid = true := hg
    simp only [if_pos hg']
    rfl
  · simp only [if_neg hg]
    unfold Address.read Address.restored
    have hg' : ¬ (v = .v4_0 ∧ a.merged.geo.isValid = true) := hg
    simp only [if_neg hg']
    rfl

/-! ### all addresses -/

theorem findFirst_at {α : Type} (key : α → QString) (A : List α) (y : α) (B : List α) (h : key y ∉ A.map key) : findFirst key (key y) (A ++ y :: B) = some y := by
  induction A with
  | nil => simp [findFirst]
  | cons a A ih =>
    simp only [List.map_cons, List.mem_cons, not_or] at h
    rw [List.cons_append, findFirst, if_neg (Ne.symm h.1)]
    exact ih h.2

theorem replaceFirst_at {α : Type} (key : α → QString) (z : α) (A : List α) (y : α) (B : List α) (h : key y ∉ A.map key) :
    replaceFirst key (key y) z (A ++ y :: B) = A ++ z :: B := by
  induction A with
  | nil => simp [replaceFirst]
  | cons a A ih =>
    simp only [List.map_cons, List.mem_cons, not_or] at h
    rw [List.cons_append, replaceFirst, if_neg (Ne.symm h.1), ih h.2]; rfl

section
variable (hR : Carriable E v c) (ids : IdKind → Nat → QString) (s : RState)
include hR

theorem adr_names : ∀ l ∈ (contactSections E v false c).getD 1 [], l.identifier ∈ [q! "ADR", q! "LABEL"] := by
  intro l hl
  rcases names_adr E v c l hl with h | h <;> simp [h]

/-- the ADR lines, then the LABEL lines -/
theorem adr_lines : (seen (contactLines E v false c)).filter (fun r => tagOf r ∈ [Tag.adr, Tag.label]) =
    (c.addresses.map fun a => rdLine (q! "ADR") (.str (joinEscaped (qc! ';') a.parts)) (coding v (joinEscaped (qc! ';') a.parts) ++ adrPairs E v a)) ++
    ((c.addresses.filter fun a => decide (v ≠ .v4_0 ∧ a.label ≠ [])).map fun a =>
      rdLine (q! "LABEL") (.str a.label) (coding v a.label ++ toolParams v (q! "TYPE") (typeNames addressTypes a.type))) := by
  rw [sec_sorted hR 1 [q! "ADR", q! "LABEL"] rfl (by decide) (by decide) (adr_names hR) (by decide)]
  have hpn : ∀ a ∈ c.addresses, joinEscaped (qc! ';') a.parts ≠ [] := by
    intro a ha h
    rcases joinEscaped_eq_nil h with h | h <;> simp [Address.parts] at h
  have hall : ∀ a ∈ c.addresses, (addressLines E v a).filterMap readBack =
      (if v ≠ .v4_0 ∧ a.label ≠ [] then [rdLine (q! "LABEL") (.str a.label) (coding v a.label ++ toolParams v (q! "TYPE") (typeNames addressTypes a.type))] else []) ++
      [rdLine (q! "ADR") (.str (joinEscaped (qc! ';') a.parts)) (coding v (joinEscaped (qc! ';') a.parts) ++ adrPairs E v a)] := by
    intro a ha
    rw [addressLines_eq (hR.addresses a ha), List.filterMap_append]
    congr 1
    · split
      · rename_i h
        unfold labelLine
        rw [List.filterMap_cons, readBack_text (by decide), if_neg h.2]; rfl
      · rfl
    · unfold adrLine
      rw [List.filterMap_cons, readBack_text (by decide), if_neg (hpn a ha)]; rfl
  have hsec : ((contactSections E v false c).getD 1 []).filterMap readBack = c.addresses.flatMap fun a => (addressLines E v a).filterMap readBack := by
    show (c.addresses.flatMap (addressLines E v)).filterMap readBack = _
    rw [List.filterMap_flatMap]
  rw [hsec, List.flatMap_congr hall]
  clear hsec hall hpn
  simp only [List.flatMap_cons, List.flatMap_nil, List.append_nil]
  generalize c.addresses = m
  have h1 : ∀ (id id' : QString) (val : QVariant) (h : List (QString × QString)), decide ((rdLine id val h).identifier = id') = decide (id = id') := fun _ _ _ _ => rfl
  congr 1
  · induction m with
    | nil => rfl
    | cons a m ih =>
      rw [List.flatMap_cons, List.filter_append, ih, List.map_cons, List.filter_append]
      split <;> simp [h1]
  · induction m with
    | nil => rfl
    | cons a m ih =>
      rw [List.flatMap_cons, List.filter_append, ih, List.filter_append, List.filter_cons]
      by_cases h : v ≠ .v4_0 ∧ a.label ≠ [] <;> simp [h, h1]

theorem fine_adr : Fine E (adrLines E v c) := by
  intro l hl
  obtain ⟨a, ha, hl⟩ := List.mem_flatMap.1 hl
  have h := hR.addresses a ha
  rw [addressLines_eq h] at hl
  rcases List.mem_append.1 hl with hl | hl
  · split at hl
    · rename_i hc
      rw [List.mem_singleton] at hl; subst hl
      exact fine_coded _ (nameGood_lit (by decide)) (h.label hc.1) (toolParams_pairs v _ (address_typeNames a.type))
    · cases hl
  · rw [List.mem_singleton] at hl; subst hl
    exact fine_coded _ (nameGood_lit (by decide)) (h.parts.coded (.inl rfl)) (adrPairs_ok h)

theorem back_addresses_map (hinj : ∀ i j, ids .address i = ids .address j → i = j) (h0 : s.c.addresses = []) :
    (back E v ids c s).c.addresses = c.addresses.mapIdx (fun i x => x.merged.restored v (ids .address (s.addresses + i))) ∧
    (back E v ids c s).addresses = s.addresses + c.addresses.length := by
  suffices h : ((back E v ids c s).c.addresses, (back E v ids c s).addresses) =
      (c.addresses.mapIdx (fun i x => x.merged.restored v (ids .address (s.addresses + i))), s.addresses + c.addresses.length) from
    ⟨congrArg Prod.fst h, congrArg Prod.snd h⟩
  rw [back, comp_addresses, adr_lines hR, List.foldl_append, h0]
  -- the ADR lines
  have hA := fold_states (addressAfter E ids) (fun a : Address => rdLine (q! "ADR") (.str (joinEscaped (qc! ';') a.parts)) (coding v (joinEscaped (qc! ';') a.parts) ++ adrPairs E v a))
    (fun pre => (pre.mapIdx (fun i (x : Address) => x.merged.read v (ids .address (s.addresses + i))), s.addresses + pre.length)) c.addresses (by
      intro pre a post e
      have hp := hR.addresses a (by rw [e]; simp)
      have hf : findFirst Address.id (ids .address (s.addresses + pre.length)) (pre.mapIdx fun i (x : Address) => x.merged.read v (ids .address (s.addresses + i))) = none := by
        apply findFirst_none.2
        intro hm
        obtain ⟨x, hx, ex⟩ := List.mem_map.1 hm
        obtain ⟨i, hi, rfl⟩ := List.mem_mapIdx.1 hx
        have := hinj _ _ ex
        omega
      unfold addressAfter
      rw [if_pos (by rfl)]
      simp only [address_read hp]
      unfold addAddress
      have hid : (a.merged.read v (ids .address (s.addresses + pre.length))).id = ids .address (s.addresses + pre.length) := rfl
      have hem : (a.merged.read v (ids .address (s.addresses + pre.length))).empty = false := rfl
      rw [hid, hf, hem, List.mapIdx_append]
      simp [Nat.add_assoc])
  rw [show (([] : List Address), s.addresses) = (([] : List Address).mapIdx (fun i (x : Address) => x.merged.read v (ids .address (s.addresses + i))), s.addresses + ([] : List Address).length) from rfl,
    hA]
  by_cases hv : v = .v4_0
  · have e : (c.addresses.filter fun a => decide (v ≠ .v4_0 ∧ a.label ≠ [])) = [] := by
      rw [List.filter_eq_nil_iff]; intro a _; simp [hv]
    rw [e, List.map_nil, List.foldl_nil]
    congr 1
    apply List.mapIdx_eq_mapIdx_iff.2
    intro i hi
    unfold Address.read
    rw [if_pos hv]; rfl
  -- the LABEL lines
  · have hfold : ∀ (m : List Address) (st : List Address × Nat), ((m.filter fun a => decide (v ≠ .v4_0 ∧ a.label ≠ [])).map fun a =>
        rdLine (q! "LABEL") (.str a.label) (coding v a.label ++ toolParams v (q! "TYPE") (typeNames addressTypes a.type))).foldl (addressAfter E ids) st =
        (m.map fun a => a).foldl (fun st (a : Address) => if a.label = [] then st else addressAfter E ids st
          (rdLine (q! "LABEL") (.str a.label) (coding v a.label ++ toolParams v (q! "TYPE") (typeNames addressTypes a.type)))) st := by
      intro m
      induction m with
      | nil => intro st; rfl
      | cons a m ih =>
        intro st
        rw [List.filter_cons]
        by_cases hl : a.label = []
        · simp only [hl, List.map_cons, List.foldl_cons, if_true]
          rw [if_neg (by simp)]
          exact ih st
        · rw [if_pos (by simp [hv, hl]), List.map_cons, List.foldl_cons, ih, List.map_cons, List.foldl_cons, if_neg hl]
    rw [hfold]
    have hB := fold_states (fun st (a : Address) => if a.label = [] then st else addressAfter E ids st
        (rdLine (q! "LABEL") (.str a.label) (coding v a.label ++ toolParams v (q! "TYPE") (typeNames addressTypes a.type)))) (fun a => a)
      (fun pre => (pre.mapIdx (fun i (x : Address) => x.merged.restored v (ids .address (s.addresses + i))) ++
        (c.addresses.drop pre.length).mapIdx (fun i (x : Address) => x.merged.read v (ids .address (s.addresses + (i + pre.length)))), s.addresses + c.addresses.length)) c.addresses (by
      intro pre a post e
      have hd1 : c.addresses.drop pre.length = a :: post := by rw [e, List.drop_left]
      have hd2 : c.addresses.drop (pre ++ [a]).length = post := by rw [e, show pre ++ a :: post = (pre ++ [a]) ++ post by simp, List.drop_left]
      rw [hd1, hd2, List.mapIdx_append, List.mapIdx_cons]
      generalize hA' : pre.mapIdx (fun i (x : Address) => x.merged.restored v (ids .address (s.addresses + i))) = A
      have hpost : (fun i (x : Address) => x.merged.read v (ids .address (s.addresses + (i + 1 + pre.length)))) = (fun i (x : Address) => x.merged.read v (ids .address (s.addresses + (i + (pre ++ [a]).length)))) := by
        funext i x
        rw [show i + 1 + pre.length = i + (pre ++ [a]).length by simp; omega]
      rw [hpost]
      generalize post.mapIdx (fun i (x : Address) => x.merged.read v (ids .address (s.addresses + (i + (pre ++ [a]).length)))) = B
      simp only [List.mapIdx_cons, List.mapIdx_nil, Nat.zero_add]
      generalize hid : ids .address (s.addresses + pre.length) = id
      have hrd : a.merged.read v id = { a.merged.restored v id with label := [] } := by unfold Address.read; rw [if_neg hv]
      by_cases hl : a.label = []
      · rw [if_pos hl]
        have : a.merged.read v id = a.merged.restored v id := by rw [hrd]; unfold Address.restored; rw [show a.merged.label = [] from hl]
        rw [this]; simp
      · rw [if_neg hl]
        have hnot : tagOf (rdLine (q! "LABEL") (.str a.label) (coding v a.label ++ toolParams v (q! "TYPE") (typeNames addressTypes a.type))) ≠ Tag.adr := by
          show tagOf { identifier := q! "LABEL", value := .str a.label, params := _ } ≠ _
          intro h; cases h
        unfold addressAfter
        rw [if_neg hnot]
        simp only [label_type]
        have hnf : (A ++ a.merged.read v id :: B).find? (fun x => decide (x.type = a.named)) = some (a.merged.read v id) := by
          rw [List.find?_append, List.find?_eq_none.2, Option.none_or, List.find?_cons]
          · have : decide ((a.merged.read v id).type = a.named) = true := decide_eq_true rfl
            rw [this]
          · intro x hx
            rw [← hA'] at hx
            obtain ⟨i, hi, rfl⟩ := List.mem_mapIdx.1 hx
            simp only [decide_eq_true_eq]
            intro ht
            have hp := hR.labels hv
            rw [e] at hp
            exact hl ((List.pairwise_append.1 hp).2.2 _ (List.getElem_mem hi) a (by simp) ht)
        rw [hnf]
        simp only
        have hz : (a.merged.read v id).copyCtor.set (.label (rdLine (q! "LABEL") (.str a.label) (coding v a.label ++ toolParams v (q! "TYPE") (typeNames addressTypes a.type))).value.toString) =
            a.merged.restored v id := by
          rw [hrd]
          unfold Address.restored
          have hg : ¬ (v = .v4_0 ∧ a.merged.geo.isValid = true) := fun h => hv h.1
          simp only [if_neg hg]
          rfl
        rw [hz]
        have hni : (a.merged.read v id).id ∉ A.map Address.id := by
          intro hm
          obtain ⟨x, hx, ex⟩ := List.mem_map.1 hm
          rw [← hA'] at hx
          obtain ⟨i, hi, rfl⟩ := List.mem_mapIdx.1 hx
          have ex' : ids .address (s.addresses + i) = id := ex
          rw [← hid] at ex'
          have := hinj _ _ ex'
          omega
        unfold addAddress
        have hie : (a.merged.restored v id).id = (a.merged.read v id).id := rfl
        have hem : (a.merged.restored v id).empty = false := rfl
        rw [hem, hie, findFirst_at Address.id A _ B hni, replaceFirst_at Address.id _ A _ B hni]
        simp)
    simp only [List.mapIdx_nil, List.nil_append, List.length_nil, List.drop_zero, Nat.add_zero, List.drop_length, List.append_nil] at hB
    exact hB

theorem back_addresses (hinj : ∀ i j, ids .address i = ids .address j → i = j) (h0 : s.c.addresses = []) :
    (back E v ids c s).c.addresses = c.merged.addresses.mapIdx (fun i x => x.restored v (ids .address (s.addresses + i))) ∧
    (back E v ids c s).addresses = s.addresses + c.addresses.length := by
  obtain ⟨h1, h2⟩ := back_addresses_map hR ids s hinj h0
  refine ⟨h1.trans ?_, h2⟩
  show _ = (c.addresses.map Address.merged).mapIdx _
  apply List.ext_getElem <;> simp

end
end KC
