import Verif.Lemmas.Fields3
/- Helper lemmas: the fields of a contact after writing and reading, part 4: messaging addresses, e-mail addresses, phone numbers. -/
namespace KC
open Spec

/-! ### names without capitals -/

theorem lowerQ_ascii {u a : UInt16} (h : ¬ (65 ≤ u.toNat ∧ u.toNat ≤ 90)) (ha : a.toNat < 128) (e : lowerQ u = a) : u = a := by
  unfold lowerQ at e
  split at e
  · rename_i hc
    exfalso
    simp only [UInt16.le_iff_toNat_le] at hc
    rcases hc with hc | hc
    · exact h ⟨hc.1, hc.2⟩
    · have h1 : 192 ≤ u.toNat := hc.1
      have h2 : u.toNat ≤ 222 := hc.2.1
      have := congrArg UInt16.toNat e
      rw [UInt16.toNat_add] at this
      have h3 : (32 : UInt16).toNat = 32 := rfl
      omega
  · exact e

theorem lower_lit {k a : QString} (h : ∀ u ∈ k, ¬ (65 ≤ u.toNat ∧ u.toNat ≤ 90)) (ha : ∀ u ∈ a, u.toNat < 128) (e : toLowerQ k = a) : k = a := by
  induction k generalizing a with
  | nil => simpa [toLowerQ] using e
  | cons x k ih =>
    rcases a with _ | ⟨y, a⟩
    · simp [toLowerQ] at e
    · simp only [toLowerQ, List.map_cons, List.cons.injEq] at e
      rw [lowerQ_ascii (h x (by simp)) (ha y (by simp)) e.1, ih (fun u hu => h u (by simp [hu])) (fun u hu => ha u (by simp [hu])) e.2]

theorem upperQ_cap {u a : UInt16} (h : ¬ (65 ≤ u.toNat ∧ u.toNat ≤ 90)) (ha : 65 ≤ a.toNat ∧ a.toNat ≤ 90) (e : upperQ u = a) : u = a + 32 := by
  unfold upperQ at e
  split at e
  · rw [← e]; exact (UInt16.sub_add_cancel u 32).symm
  · subst e; exact absurd ha h

theorem upper_lit {k a : QString} (h : ∀ u ∈ k, ¬ (65 ≤ u.toNat ∧ u.toNat ≤ 90)) (ha : ∀ u ∈ a, 65 ≤ u.toNat ∧ u.toNat ≤ 90) (e : toUpperQ k = a) : k = a.map (· + 32) := by
  induction k generalizing a with
  | nil => have := e.symm; simp [toUpperQ] at this; rw [this]; rfl
  | cons x k ih =>
    rcases a with _ | ⟨y, a⟩
    · simp [toUpperQ] at e
    · simp only [toUpperQ, List.map_cons, List.cons.injEq] at e
      rw [upperQ_cap (h x (by simp)) (ha y (by simp)) e.1, ih (fun u hu => h u (by simp [hu])) (fun u hu => ha u (by simp [hu])) e.2]; rfl

theorem ParamsOK.lowerName' {m : ParameterMap} (h : ParamsOK m) {p : QString × List QString} (hp : p ∈ m) : ∀ u ∈ p.1, ¬ (65 ≤ u.toNat ∧ u.toNat ≤ 90) := by
  obtain ⟨w, hw⟩ := List.exists_mem_of_ne_nil _ (h.values p hp).1
  exact (h.writable p hp w hw).lowerK

/-! ### reading a parameter map back from other lists -/

theorem params_read {h : List (QString × QString)} {m : ParameterMap} (hs : Sorted m) (hv : ∀ p ∈ m, p.2 ≠ [] ∧ p.2.Nodup)
    (hr : ∀ k, valuesOf (readPairs h) k = (SMap.find m k).getD []) : paramsAfter (readPairs h) = m := by
  apply SMap.ext_find (paramsAfter_sorted _) hs
  intro k
  rw [params_find, hr]
  cases hf : SMap.find m k with
  | none => rfl
  | some vs =>
    have := hv _ (find_mem hf)
    simp only [Option.getD_some]
    rw [if_neg this.1, distinct_of_nodup _ this.2]

theorem ParamsOK.values_of {m : ParameterMap} (h : ParamsOK m) (k : QString) : valuesOf (readPairs (joinedParams m)) k = (SMap.find m k).getD [] := by
  rw [h.read, valuesOf_flat h.sorted]

theorem ParamsOK.reads {m : ParameterMap} (h : ParamsOK m) {p : QString × QString} (hp : p ∈ joinedParams m) : ∀ r ∈ segRead p, r.1 = p.1 := by
  obtain ⟨q, hq, rfl⟩ := List.mem_map.1 hp
  rw [(joined_ok (h.values q hq).1 (h.coding q hq) (h.writable q hq)).2]
  intro r hr
  obtain ⟨w, _, rfl⟩ := List.mem_map.1 hr
  rfl

theorem CapitalName.typeName {s : QString} (h : CapitalName s) : TypeName s := by
  refine ⟨h.1, fun u hu => .inl (h.2 u hu), ?_, ?_⟩
  · rintro rfl; exact absurd (h.2 (qc! 'e') (by decide)) (by decide)
  · rintro rfl; exact absurd (h.2 (qc! 'c') (by decide)) (by decide)

theorem CapitalName.upper {s : QString} (h : CapitalName s) : toUpperQ s = s := by
  unfold toUpperQ
  conv => rhs; rw [← List.map_id s]
  apply List.map_congr_left
  intro u hu
  have := h.2 u hu
  unfold upperQ
  rw [if_neg]; · rfl
  simp only [UInt16.le_iff_toNat_le]
  rintro (⟨h1, -⟩ | ⟨h1, -⟩)
  · have : 97 ≤ u.toNat := h1
    omega
  · have : 224 ≤ u.toNat := h1
    omega

variable {E : ToolEnv} {v : Version} {c : Contact}

/-! ### messaging lines -/

theorem custom_key {E : Codecs} {key value : QString} (h : CustomOK E v key value) (val : QVariant) (m : List (QString × QString)) :
    customKey (rdLine (q! "X-" ++ key) val m) = key := by
  unfold customKey rdLine
  simp only
  cases hr : renamed importNames (toLowerQ (q! "X-" ++ key)) with
  | none => rfl
  | some t => rw [h.spelled t hr]; rfl

theorem custom_readBack {E : Codecs} {key value : QString} (h : CustomOK E v key value) (m : List (QString × QString)) :
    readBack (mkLine (q! "X-" ++ key) (.str value) m) = some (rdLine (q! "X-" ++ key) (.str value) m) := by
  unfold readBack
  rw [if_neg (by simp [mkLine, h.text.2]), lineRead_mk, nameRead_plain (custom_dot h.chars.sep.2.2.1)]; rfl

section
variable (hR : Carriable E v c) (ids : IdKind → Nat → QString) (s : RState)
include hR

theorem no_messaging : ∀ l ∈ seen (contactLines E v false c), tagOf l = .x → startsWith (q! "messaging/") (customKey l) = false := by
  intro l hl ht
  have hm : l ∈ (seen (contactSections E v false c).flatten).filter (fun r => tagOf r ∈ [Tag.x, Tag.anniversary]) :=
    List.mem_filter.2 ⟨hl, by rw [ht]; decide⟩
  have := (seen_section_perm (secOK hR) (i := 38) (T := [.x, .anniversary]) rfl (by decide)).mem_iff.1 hm
  change l ∈ (customLines E v false c).filterMap readBack at this
  rw [customs_section hR.customs.2] at this
  obtain ⟨l0, hl0, hr⟩ := List.mem_filterMap.1 this
  obtain ⟨p, hp, rfl⟩ := List.mem_map.1 hl0
  have hc := hR.customs.2 p hp
  split at hr
  · have := tagOf_readBack hr
    change tagOf l = nameTag (q! "ANNIVERSARY") at this
    rw [ht, show nameTag (q! "ANNIVERSARY") = .anniversary by decide +kernel] at this
    cases this
  · rw [encoded_eq, custom_readBack hc] at hr
    cases hr
    rw [custom_key hc]
    exact hc.messaging

theorem imppLine_eq {u : ParamUrl} (hu : u ∈ c.impps) :
    u.params.foldl (fun line p => if toLowerQ p.1 ≠ q! "x-service-type" then addJoined line p else line) (textLine (q! "IMPP") u.url) =
      paramTextLine (q! "IMPP") { params := u.params, text := u.url } := by
  obtain ⟨-, hp, hx, -⟩ := hR.impps u hu
  rw [textLine_eq, paramLine_eq]
  have := foldl_addIf (q! "IMPP") (.str u.url) (fun k => decide (toLowerQ k ≠ q! "x-service-type")) u.params []
  simp only [decide_eq_true_eq] at this
  rw [this, List.nil_append, List.filter_eq_self.2]
  intro p hp'
  simp only [decide_eq_true_eq]
  intro e
  exact hx p hp' (lower_lit (hp.lowerName' hp') (by decide) e)

theorem impp_text {u : ParamUrl} (hu : u ∈ c.impps) : TextOK { params := u.params, text := u.url } :=
  ⟨⟨(hR.impps u hu).1.1, (hR.impps u hu).1.2.1⟩, (hR.impps u hu).2.1⟩

theorem back_impps (h0 : s.c.impps = []) : (back E v ids c s).c.impps = c.impps := by
  rw [back, comp_impps _ _ _ _ (no_messaging hR), sec_lines hR 37 (q! "IMPP") rfl (by decide) (named_impp c), h0]
  show ((imppLines c).filterMap readBack).foldl _ _ = _
  unfold imppLines
  rw [map_readBack (g := fun u => ptLine (q! "IMPP") u.url u.params) fun u hu => by
    rw [imppLine_eq hR hu]; exact (impp_text hR hu).back (by decide)]
  refine (fold_append _ _ (fun t => t) _ ?_).trans (List.map_id' _)
  intro a u hu
  obtain ⟨h1, h2, h3, h4⟩ := hR.impps u hu
  have hs : (E.urlScheme u.url).isEmpty = false := by
    cases e : E.urlScheme u.url with
    | nil => exact absurd e h4
    | cons _ _ => rfl
  unfold imppAfter
  simp only [ptLine, QVariant.toString, h1.2.2, hs, Bool.and_false, Bool.false_eq_true, if_false, ParamUrl.isValidImpp]
  simp [h1.2.1]

theorem fine_impp : Fine E (imppLines c) := fine_map fun u hu => by
  rw [imppLine_eq hR hu]; exact (impp_text hR hu).fine (by decide)

end

/-! ### e-mail addresses -/

/-- the pairs that stand for one parameter of an e-mail address in version 2.1 -/
def emailBlock (p : QString × List QString) : List (QString × QString) :=
  if p.1 = q! "type" then (p.2.filter (· ≠ q! "PREF") ++ if q! "PREF" ∈ p.2 then [q! "PREF"] else []).map fun s => (s, [])
  else [(p.1, join [qc! ','] p.2)]

theorem emailLine21 {e : Email} (h : ParamsOK e.params) : emailLine .v2_1 e = mkLine (q! "EMAIL") (.str e.mail) (e.params.flatMap emailBlock) := by
  unfold emailLine
  rw [textLine_eq]
  have key : ∀ (m : ParameterMap) (hd : List (QString × QString)), (∀ p ∈ m, ∀ u ∈ p.1, ¬ (65 ≤ u.toNat ∧ u.toNat ≤ 90)) →
      m.foldl (fun line p =>
        if decide ((.v2_1 : Version) = .v2_1) && decide (toLowerQ p.1 = q! "type") then
          let list := p.2.filter (· ≠ q! "PREF")
          let line := if list.isEmpty then line else toolAddParameter line .v2_1 p.1 list
          if q! "PREF" ∈ p.2 then line.addParameter (q! "PREF") [] else line
        else addJoined line p) (mkLine (q! "EMAIL") (.str e.mail) hd) = mkLine (q! "EMAIL") (.str e.mail) (hd ++ m.flatMap emailBlock) := by
    intro m
    induction m with
    | nil => intro hd _; simp
    | cons p m ih =>
      intro hd hm
      rw [List.foldl_cons, List.flatMap_cons, ← List.append_assoc, ← ih _ fun q hq => hm q (by simp [hq])]
      congr 1
      unfold emailBlock
      by_cases ht : p.1 = q! "type"
      · have e1 : toLowerQ p.1 = q! "type" := by rw [ht]; decide
        simp only [e1, ht, decide_true, Bool.and_self, if_true]
        have e2 : (if (p.2.filter (· ≠ q! "PREF")).isEmpty then mkLine (q! "EMAIL") (.str e.mail) hd
            else toolAddParameter (mkLine (q! "EMAIL") (.str e.mail) hd) .v2_1 (q! "type") (p.2.filter (· ≠ q! "PREF"))) =
            mkLine (q! "EMAIL") (.str e.mail) (hd ++ (p.2.filter (· ≠ q! "PREF")).map fun s => (s, [])) := by
          split
          · rename_i hz
            rw [List.isEmpty_iff.1 hz]; simp
          · rw [toolAdd_eq]; rfl
        rw [if_pos (by decide), e2, mkLine_add, List.map_append, ← List.append_assoc]
        by_cases hpref : q! "PREF" ∈ p.2
        · rw [if_pos hpref, if_pos hpref]; rfl
        · rw [if_neg hpref, if_neg hpref, List.map_nil, List.append_nil]
      · have e1 : toLowerQ p.1 ≠ q! "type" := fun e1 => ht (lower_lit (hm p (by simp)) (by decide) e1)
        rw [if_neg (by simp [e1]), if_neg ht]
        unfold addJoined
        rw [mkLine_add]
  have := key e.params [] (fun p hp => h.lowerName' hp)
  rw [List.nil_append] at this
  exact this

theorem emailLine34 {e : Email} (hv : v ≠ .v2_1) : emailLine v e = mkLine (q! "EMAIL") (.str e.mail) (joinedParams e.params) := by
  unfold emailLine
  rw [textLine_eq]
  simp only [hv, decide_false, Bool.false_and, Bool.false_eq_true, if_false]
  exact (foldl_add (q! "EMAIL") (.str e.mail) e.params []).trans (by rw [List.nil_append])

theorem typeBlock_perm {vs : List QString} (hn : vs.Nodup) : (vs.filter (· ≠ q! "PREF") ++ if q! "PREF" ∈ vs then [q! "PREF"] else []).Perm vs := by
  rw [List.perm_ext_iff_of_nodup ?_ hn]
  · intro a
    simp only [List.mem_append, List.mem_filter, decide_eq_true_eq]
    split
    · rename_i hp
      simp only [List.mem_singleton]
      constructor
      · rintro (h | rfl)
        · exact h.1
        · exact hp
      · intro h
        by_cases e : a = q! "PREF"
        · exact .inr e
        · exact .inl ⟨h, e⟩
    · rename_i hp
      simp only [List.not_mem_nil, or_false]
      constructor
      · exact fun h => h.1
      · intro h
        exact ⟨h, by rintro rfl; exact hp h⟩
  · rw [List.nodup_append]
    refine ⟨hn.filter _, by split <;> simp, ?_⟩
    intro a ha b hb
    rw [List.mem_filter] at ha
    split at hb
    · rw [List.mem_singleton] at hb; subst hb; simpa using ha.2
    · cases hb

theorem bare_read {ns vs : List QString} (hp : ns.Perm vs) (ha : vs.Pairwise fun a b => qlt a b = true) (hc : ∀ s ∈ vs, CapitalName s) :
    valuesOf (readPairs (ns.map fun s => (s, []))) (q! "type") = vs := by
  have e : paramsAfter (ns.map fun s => (s, ([] : QString))) = paramsAfter (vs.map fun s => (s, ([] : QString))) := by
    apply SMap.ext_find (paramsAfter_sorted _) (paramsAfter_sorted _)
    intro k
    rw [params_find, params_find]
    have : valuesOf (ns.map fun s => (s, ([] : QString))) k = valuesOf (vs.map fun s => (s, ([] : QString))) k := by
      unfold valuesOf
      have hpm := ((hp.map fun s => (s, ([] : QString))).filter fun p => decide (p.1 = k)).map (·.2)
      have hrep : ∀ l : List QString, ∀ x ∈ ((l.map fun s => (s, ([] : QString))).filter fun p => decide (p.1 = k)).map (·.2), x = [] := by
        intro l x hx
        obtain ⟨p, hp, rfl⟩ := List.mem_map.1 hx
        obtain ⟨q, _, rfl⟩ := List.mem_map.1 (List.mem_filter.1 hp).1
        rfl
      rw [List.eq_replicate_of_mem (hrep ns), List.eq_replicate_of_mem (hrep vs), hpm.length_eq]
    rw [this]
  have := toolParams_read .v2_1 vs (fun n hn => (hc n hn).typeName) (fun _ => ha)
  unfold readPairs at this ⊢
  rw [e]
  change valuesOf ((flatParams (paramsAfter (vs.map fun s => (s, [])))).flatMap segRead) (q! "type") = _ at this
  rw [this]
  simp only [typesRead]
  conv => rhs; rw [← List.map_id vs]
  exact List.map_congr_left fun s hs => (hc s hs).upper

theorem email21_read {e : Email} (h : EmailOK .v2_1 e) : (∀ p ∈ e.params.flatMap emailBlock, PairOK p) ∧
    paramsAfter (readPairs (e.params.flatMap emailBlock)) = e.params := by
  have hm := h.params
  have hcap : ∀ vs, (q! "type", vs) ∈ e.params → ∀ s ∈ (vs.filter (· ≠ q! "PREF") ++ if q! "PREF" ∈ vs then [q! "PREF"] else []), CapitalName s := by
    intro vs hvs s hs
    have hn := (hm.values _ hvs).2
    exact (h.types rfl vs hvs).2 s ((typeBlock_perm hn).mem_iff.1 hs)
  -- a block reads only its own name
  have hread : ∀ p ∈ e.params, ∀ x ∈ emailBlock p, PairOK x ∧ ∀ r ∈ segRead x, r.1 = p.1 := by
    intro p hp x hx
    unfold emailBlock at hx
    split at hx
    · rename_i ht
      obtain ⟨s, hs, rfl⟩ := List.mem_map.1 hx
      have := (hcap p.2 (by rw [← ht]; exact hp) s hs).typeName.bare
      refine ⟨this.1, ?_⟩
      rw [this.2, ht]
      intro r hr
      rw [List.mem_singleton] at hr; subst hr; rfl
    · rw [List.mem_singleton] at hx; subst hx
      have := joined_ok (hm.values p hp).1 (hm.coding p hp) (hm.writable p hp)
      refine ⟨this.1, ?_⟩
      rw [this.2]
      intro r hr
      obtain ⟨w, _, rfl⟩ := List.mem_map.1 hr
      rfl
  -- blocks have no name in common
  have hdis : ∀ p ∈ e.params, ∀ q ∈ e.params, ∀ x ∈ emailBlock p, ∀ y ∈ emailBlock q, x.1 = y.1 → p.1 = q.1 := by
    have cap : ∀ p ∈ e.params, ∀ q ∈ e.params, p.1 = q! "type" → q.1 ≠ q! "type" → ∀ x ∈ emailBlock p, ∀ y ∈ emailBlock q, x.1 ≠ y.1 := by
      intro p hp q hq h1 h2 x hx y hy exy
      unfold emailBlock at hx hy
      rw [if_pos h1] at hx
      rw [if_neg h2, List.mem_singleton] at hy
      obtain ⟨s, hs, rfl⟩ := List.mem_map.1 hx
      subst hy
      simp only at exy
      have hc := hcap p.2 (by rw [← h1]; exact hp) s hs
      obtain ⟨u, hu⟩ := List.exists_mem_of_ne_nil _ hc.1
      exact hm.lowerName' hq u (by rw [← exy]; exact hu) (hc.2 u hu)
    intro p hp q hq x hx y hy exy
    by_cases h1 : p.1 = q! "type" <;> by_cases h2 : q.1 = q! "type"
    · rw [h1, h2]
    · exact absurd exy (cap p hp q hq h1 h2 x hx y hy)
    · exact absurd exy.symm (cap q hq p hp h2 h1 y hy x hx)
    · unfold emailBlock at hx hy
      rw [if_neg h1, List.mem_singleton] at hx
      rw [if_neg h2, List.mem_singleton] at hy
      subst hx; subst hy; exact exy
  refine ⟨?_, params_read hm.sorted hm.values ?_⟩
  · intro x hx
    obtain ⟨p, hp, hx⟩ := List.mem_flatMap.1 hx
    exact (hread p hp x hx).1
  · intro k
    cases hf : SMap.find e.params k with
    | none =>
      simp only [Option.getD_none]
      apply valuesOf_none
      intro r hr
      unfold readPairs at hr
      obtain ⟨x, hx, hr⟩ := List.mem_flatMap.1 hr
      obtain ⟨p, hp, hx⟩ := List.mem_flatMap.1 (flatParams_mem hx)
      rw [(hread p hp x hx).2 r hr]
      intro ek
      have : (SMap.find e.params k).isSome = true := SMap.find_isSome_iff.2 (ek ▸ List.mem_map_of_mem hp)
      rw [hf] at this; cases this
    | some vs =>
      have hp := find_mem hf
      simp only [Option.getD_some]
      rw [valuesOf_readPairs _ (fun x => decide (∃ y ∈ emailBlock (k, vs), y.1 = x)) k]
      · have hfil : (e.params.flatMap emailBlock).filter (fun p => decide (∃ y ∈ emailBlock (k, vs), y.1 = p.1)) = emailBlock (k, vs) := by
          obtain ⟨a, b, hab⟩ := List.append_of_mem hp
          have hnd : (e.params.map (·.1)).Nodup := asc_nodup (SMap.sorted_iff_keys.1 hm.sorted)
          rw [hab, List.map_append, List.map_cons] at hnd
          have hother : ∀ l : ParameterMap, (∀ q ∈ l, q ∈ e.params ∧ q.1 ≠ k) → (l.flatMap emailBlock).filter (fun p => decide (∃ y ∈ emailBlock (k, vs), y.1 = p.1)) = [] := by
            intro l hl
            rw [List.filter_eq_nil_iff]
            intro x hx
            obtain ⟨q, hq, hx⟩ := List.mem_flatMap.1 hx
            simp only [decide_eq_true_eq, not_exists, not_and]
            intro y hy ey
            exact (hl q hq).2 (hdis q (hl q hq).1 (k, vs) hp x hx y hy ey.symm)
          rw [hab, List.flatMap_append, List.flatMap_cons, List.filter_append, List.filter_append, hother a, hother b, List.nil_append, List.append_nil,
            List.filter_eq_self.2]
          · intro x hx; simpa using ⟨x.2, hx⟩
          · intro q hq
            refine ⟨by rw [hab]; simp [hq], fun ek => ?_⟩
            have := (List.nodup_cons.1 (List.nodup_append.1 hnd).2.1).1
            exact this (by simp only; rw [← ek]; exact List.mem_map_of_mem hq)
          · intro q hq
            refine ⟨by rw [hab]; simp [hq], fun ek => ?_⟩
            exact (List.nodup_append.1 hnd).2.2 q.1 (List.mem_map_of_mem hq) k (by simp) ek
        rw [hfil]
        unfold emailBlock
        split
        · rename_i ht
          have ht' : k = q! "type" := ht
          subst ht'
          exact bare_read (typeBlock_perm (hm.values _ hp).2) ((h.types rfl vs hp).1.imp fun hl => (qlt_iff_less _ _).2 hl) (h.types rfl vs hp).2
        · rw [readPairs_one, (joined_ok (hm.values _ hp).1 (hm.coding _ hp) (hm.writable _ hp)).2]
          exact valuesOf_map_const vs k
      · intro x hx hP r hr
        obtain ⟨q, hq, hx'⟩ := List.mem_flatMap.1 hx
        rw [(hread q hq x hx').2 r hr]
        intro ek
        simp only [decide_eq_false_iff_not, not_exists, not_and] at hP
        have : q = (k, vs) := by
          have h1 : SMap.find e.params q.1 = some q.2 := find_of_mem hm.sorted hq
          rw [ek, hf] at h1
          cases h1
          exact Prod.ext ek rfl
        subst this
        exact hP x hx' rfl

theorem email_line {e : Email} (h : EmailOK v e) : readBack (emailLine v e) = some (ptLine (q! "EMAIL") e.mail e.params) ∧ LineFine E.toCodecs (emailLine v e) := by
  by_cases hv : v = .v2_1
  · subst hv
    obtain ⟨h1, h2⟩ := email21_read h
    rw [emailLine21 h.params]
    refine ⟨?_, fine_text _ (nameGood_lit (by decide)) h.mail.1 h1⟩
    rw [readBack_text (by decide), if_neg h.mail.2]
    unfold rdLine ptLine
    rw [h2]
  · rw [emailLine34 hv]
    refine ⟨?_, fine_text _ (nameGood_lit (by decide)) h.mail.1 h.params.pairs⟩
    rw [readBack_text (by decide), if_neg h.mail.2, rd_params h.params]; rfl

section
variable (hR : Carriable E v c) (ids : IdKind → Nat → QString) (s : RState)
include hR

theorem back_emails (h0 : s.c.emails = []) : (back E v ids c s).c.emails = c.emails := by
  rw [back, comp_emails, sec_lines hR 11 (q! "EMAIL") rfl (by decide) (named_email v c), h0]
  show ((emailLines v c).filterMap readBack).foldl _ _ = _
  unfold emailLines
  obtain ⟨h1, hn, hp⟩ := hR.emails
  rw [map_readBack (g := fun e => ptLine (q! "EMAIL") e.mail e.params) fun e he => (email_line (E := E) (h1 e he)).1]
  refine fold_states _ _ (fun pre => pre) c.emails ?_
  intro pre e post he
  rw [he, List.map_append, List.map_cons] at hn
  have hf : findFirst Email.mail e.mail pre = none := findFirst_none.2 fun hx => (List.nodup_append.1 hn).2.2 e.mail hx e.mail (by simp) rfl
  have key : emailAfter pre (ptLine (q! "EMAIL") e.mail e.params) = match findFirst Email.mail e.mail pre with
      | some _ => if e.isPreferred then rotateToFront Email.mail e.mail (replaceFirst Email.mail e.mail e pre) else replaceFirst Email.mail e.mail e pre
      | none => if e.isPreferred then e :: pre else pre ++ [e] := rfl
  rw [key, hf]
  cases pre with
  | nil => simp
  | cons x pre =>
    have : e.isPreferred = false := hp e (by rw [he]; simp)
    simp only [this]; rfl

theorem fine_email : Fine E (emailLines v c) := fine_map fun e he => (email_line (hR.emails.1 e he)).2

end

/-! ### phone numbers -/

theorem phoneLine_eq {p : PhoneNumber} (h : PhoneOK p) : phoneLine v p = mkLine (q! "TEL") (.str p.number)
    (joinedParams (p.params.filter fun q => q.1 ≠ q! "type") ++ if phoneNames v p.type = [] then [] else toolParams v (q! "TYPE") (phoneNames v p.type)) := by
  have hf : p.params.filter (fun q => decide (toUpperQ q.1 ≠ q! "TYPE")) = p.params.filter fun q => q.1 ≠ q! "type" := by
    apply List.filter_congr
    intro q hq
    by_cases e : q.1 = q! "type"
    · rw [e]; decide
    · have hq' : q ∈ p.params.filter fun q => decide (q.1 ≠ q! "type") := List.mem_filter.2 ⟨hq, by simpa using e⟩
      have : toUpperQ q.1 ≠ q! "TYPE" := fun e' => e ((upper_lit (h.params.lowerName' hq') (by decide) e').trans (by decide))
      simp [e, this]
  unfold phoneLine
  have h1 := foldl_addIf (q! "TEL") (.str p.number) (fun k => decide (toUpperQ k ≠ q! "TYPE")) p.params []
  simp only [decide_eq_true_eq] at h1
  simp only
  rw [textLine_eq, h1, List.nil_append, hf]
  change (if (phoneNames v p.type).isEmpty then _ else _) = _
  by_cases hn : phoneNames v p.type = []
  · rw [if_pos hn, if_pos (by rw [hn]; rfl), List.append_nil]
  · rw [if_neg hn, if_neg (by simpa using hn)]
    exact toolAdd_eq _ _ _ _ _ _

theorem toolParams_keys (v : Version) (ns : List QString) (hcap : v = .v2_1 → ∀ n ∈ ns, CapitalName n) : ∀ p ∈ toolParams v (q! "TYPE") ns, CapitalName p.1 := by
  intro p hp
  have hT : CapitalName (q! "TYPE") := ⟨by decide, by decide⟩
  cases v with
  | v2_1 =>
    obtain ⟨s, hs, rfl⟩ := List.mem_map.1 hp
    exact hcap rfl s hs
  | v3_0 => simp only [toolParams, List.mem_singleton] at hp; subst hp; exact hT
  | v4_0 =>
    simp only [toolParams] at hp
    split at hp <;> (rw [List.mem_singleton] at hp; subst hp; exact hT)

theorem toolParams_reads (v : Version) (ns : List QString) (h : ∀ n ∈ ns, TypeName n) : ∀ p ∈ toolParams v (q! "TYPE") ns, ∀ r ∈ segRead p, r.1 = q! "type" := by
  intro p hp r hr
  have one : ∀ r ∈ segRead (q! "TYPE", join [qc! ','] ns), r.1 = q! "type" := by
    intro r hr
    by_cases hne : ns = []
    · subst hne
      change r ∈ segRead (q! "TYPE", []) at hr
      rw [type_empty.2, List.mem_singleton] at hr; subst hr; rfl
    · rw [(types_list hne h).2] at hr
      obtain ⟨w, _, rfl⟩ := List.mem_map.1 hr; rfl
  cases v with
  | v2_1 =>
    obtain ⟨s, hs, rfl⟩ := List.mem_map.1 hp
    rw [(h s hs).bare.2, List.mem_singleton] at hr; subst hr; rfl
  | v3_0 => simp only [toolParams, List.mem_singleton] at hp; subst hp; exact one r hr
  | v4_0 =>
    simp only [toolParams] at hp
    split at hp
    · rw [List.mem_singleton] at hp; subst hp; exact one r hr
    · rename_i hl
      rw [List.mem_singleton] at hp; subst hp
      rw [(types_quoted (by rintro rfl; simp at hl) h).2] at hr
      obtain ⟨w, _, rfl⟩ := List.mem_map.1 hr; rfl

theorem phone_capital (t : Nat) : ∀ n ∈ typeNames phoneTypes t, CapitalName n := by
  intro n hn
  obtain ⟨i, hi, rfl⟩ := typeNames_mem hn
  have : ∀ i ∈ phoneTypes, i.1 ≠ [] ∧ ∀ u ∈ i.1, 65 ≤ u.toNat ∧ u.toNat ≤ 90 := by decide
  exact this i hi

theorem phone_keys {p : PhoneNumber} (h : PhoneOK p) : ∀ x ∈ joinedParams (p.params.filter fun q => q.1 ≠ q! "type"),
    ∀ y ∈ toolParams v (q! "TYPE") (phoneNames v p.type), x.1 ≠ y.1 := by
  intro x hx y hy e
  obtain ⟨q, hq, rfl⟩ := List.mem_map.1 hx
  have hc := toolParams_keys v (phoneNames v p.type) (fun hv n hn => by
    unfold phoneNames at hn
    rw [if_neg (by simp [hv])] at hn
    exact phone_capital _ n hn) y hy
  obtain ⟨u, hu⟩ := List.exists_mem_of_ne_nil _ hc.1
  exact h.params.lowerName' hq u (by simp only at e; rw [e]; exact hu) (hc.2 u hu)

theorem phoneNames_eq (t : Nat) : (typeNames phoneTypes t).map (fun n => if v = .v4_0 then toLowerQ n else n) = phoneNames v t := by
  unfold phoneNames
  by_cases hv : v = .v4_0
  · simp [hv]
  · simp [hv]

theorem restored_params (p : PhoneNumber) (id : QString) : (p.restored v id).params = if p.named = 0 then p.params.filter fun q => q.1 ≠ q! "type"
    else SMap.insertSorted (p.params.filter fun q => q.1 ≠ q! "type") (q! "type") (phoneNames v p.type) := by
  rw [← phoneNames_eq]; rfl

theorem no_type (p : PhoneNumber) : SMap.find (p.params.filter fun q => decide (q.1 ≠ q! "type")) (q! "type") = none := by
  cases hf : SMap.find (p.params.filter fun q => decide (q.1 ≠ q! "type")) (q! "type") with
  | none => rfl
  | some w => have := (List.mem_filter.1 (find_mem hf)).2; simp at this

theorem phone_params {p : PhoneNumber} (h : PhoneOK p) :
    paramsAfter (readPairs (joinedParams (p.params.filter fun q => q.1 ≠ q! "type") ++ if phoneNames v p.type = [] then [] else toolParams v (q! "TYPE") (phoneNames v p.type))) =
      (p.restored v []).params := by
  rw [restored_params]
  have hni : phoneNames v p.type = [] ↔ p.named = 0 := phoneNames_nil v p.type
  by_cases hz : p.named = 0
  · rw [if_pos (hni.2 hz), if_pos hz, List.append_nil, params_roundtrip h.params]
  · have hne : phoneNames v p.type ≠ [] := fun e => hz (hni.1 e)
    rw [if_neg hne, if_neg hz]
    have hfind := no_type p
    apply params_read (SMap.sorted_insert h.params.sorted hfind)
    · intro q hq
      have hq1 := find_of_mem (SMap.sorted_insert h.params.sorted hfind) hq
      rw [SMap.find_insertSorted hfind] at hq1
      split at hq1
      · have e := Option.some.inj hq1
        rw [← e]; exact ⟨hne, asc_nodup (phoneNames_asc v _)⟩
      · exact h.params.values _ (find_mem hq1)
    · intro k
      rw [SMap.find_insertSorted hfind]
      by_cases hk : q! "type" = k
      · subst hk
        rw [if_pos rfl, read_right _ _ (phone_keys h) _ ?_]
        · rw [toolParams_read v _ (phoneNames_ok v _) (fun _ => phoneNames_asc v _), phoneNames_read v _ hne]; rfl
        · intro x hx r hr
          rw [h.params.reads hx r hr]
          obtain ⟨q, hq, rfl⟩ := List.mem_map.1 hx
          simpa using (List.mem_filter.1 hq).2
      · rw [if_neg hk, read_left _ _ (phone_keys h) _ ?_]
        · exact h.params.values_of k
        · intro x hx r hr
          rw [toolParams_reads v _ (phoneNames_ok v _) x hx r hr]; exact hk

theorem phone_line {p : PhoneNumber} (h : PhoneOK p) :
    readBack (phoneLine v p) = some (ptLine (q! "TEL") p.number (p.restored v []).params) ∧ LineFine E.toCodecs (phoneLine v p) := by
  rw [phoneLine_eq h]
  constructor
  · rw [readBack_text (by decide), if_neg h.number.2.1]
    unfold rdLine ptLine
    rw [phone_params h]
  · refine fine_text _ (nameGood_lit (by decide)) h.number.1 ?_
    intro x hx
    rcases List.mem_append.1 hx with hx | hx
    · exact h.params.pairs x hx
    · split at hx
      · cases hx
      · exact toolParams_pairs v _ (phoneNames_ok v _) x hx

theorem phone_read {p : PhoneNumber} (h : PhoneOK p) (id : QString) : readPhone id (ptLine (q! "TEL") p.number (p.restored v []).params) = p.restored v id := by
  have hnum : (({ id := id } : PhoneNumber).setNumber p.number).number = p.number := h.number.2.2
  have hty : VCardLine.parameters (ptLine (q! "TEL") p.number (p.restored v []).params) (q! "type") = phoneNames v p.type := by
    unfold VCardLine.parameters ptLine
    simp only
    rw [restored_params]
    by_cases hz : p.named = 0
    · rw [if_pos hz, no_type, (phoneNames_nil v p.type).2 hz]; rfl
    · rw [if_neg hz, SMap.find_insertSorted (no_type p), if_pos rfl]; rfl
  have hz : (phoneNames v p.type).isEmpty = decide (p.named = 0) := by
    have := phoneNames_nil v p.type
    unfold PhoneNumber.named
    rw [Bool.eq_iff_iff, List.isEmpty_iff, this, decide_eq_true_eq]
  unfold readPhone
  simp only [hty, phone_flags, hz]
  unfold PhoneNumber.restored at *
  simp only [ptLine, QVariant.toString, PhoneNumber.setNumber, cleanupNumber, h.number.2.2, decide_eq_true_eq]
  rfl

section
variable (hR : Carriable E v c) (ids : IdKind → Nat → QString) (s : RState)
include hR

theorem back_phones (hinj : ∀ i j, ids .phone i = ids .phone j → i = j) (h0 : s.c.phoneNumbers = []) :
    (back E v ids c s).c.phoneNumbers = c.phoneNumbers.mapIdx (fun i x => x.restored v (ids .phone (s.phones + i))) ∧
    (back E v ids c s).phones = s.phones + c.phoneNumbers.length := by
  suffices h : ((back E v ids c s).c.phoneNumbers, (back E v ids c s).phones) =
      (c.phoneNumbers.mapIdx (fun i x => x.restored v (ids .phone (s.phones + i))), s.phones + c.phoneNumbers.length) from
    ⟨congrArg Prod.fst h, congrArg Prod.snd h⟩
  rw [back, comp_phones, sec_lines hR 28 (q! "TEL") rfl (by decide) (named_tel v c), h0]
  show ((telLines v c).filterMap readBack).foldl _ _ = _
  unfold telLines
  rw [map_readBack (g := fun p => ptLine (q! "TEL") p.number (p.restored v []).params) fun p hp => (phone_line (E := E) (hR.phoneNumbers p hp)).1]
  refine fold_states _ _ (fun pre => (pre.mapIdx (fun i (x : PhoneNumber) => x.restored v (ids .phone (s.phones + i))), s.phones + pre.length)) c.phoneNumbers ?_
  intro pre p post e
  have hp := hR.phoneNumbers p (by rw [e]; simp)
  have hf : findFirst PhoneNumber.id (ids .phone (s.phones + pre.length)) (pre.mapIdx fun i (x : PhoneNumber) => x.restored v (ids .phone (s.phones + i))) = none := by
    apply findFirst_none.2
    intro hm
    obtain ⟨x, hx, ex⟩ := List.mem_map.1 hm
    obtain ⟨i, hi, rfl⟩ := List.mem_mapIdx.1 hx
    have := hinj _ _ ex
    omega
  unfold phoneAfter
  simp only [phone_read hp]
  have hid : (p.restored v (ids .phone (s.phones + pre.length))).id = ids .phone (s.phones + pre.length) := rfl
  have hnum : (p.restored v (ids .phone (s.phones + pre.length))).number = p.number := rfl
  rw [hid, hf, hnum]
  simp only
  rw [if_neg, List.mapIdx_append]
  · simp [Nat.add_assoc]
  · rw [hp.number.2.2]; simpa using hp.number.2.1

theorem fine_tel : Fine E (telLines v c) := fine_map fun p hp => (phone_line (hR.phoneNumbers p hp)).2

end
end KC
