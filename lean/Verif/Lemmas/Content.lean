import Verif.Lemmas.Line
import Verif.Spec.Writable
/- Helper lemmas: a single content line is read back. -/
namespace KC
open Spec

theorem mem_distinct {α : Type} [DecidableEq α] (l : List α) (x : α) : x ∈ distinct l ↔ x ∈ l := by
  induction l using rev_induction with
  | h0 => simp [distinct]
  | hs l y ih =>
    rw [distinct_snoc]
    by_cases h : y ∈ distinct l
    · rw [if_pos h, ih]
      have := ih
      simp only [List.mem_append, List.mem_singleton]
      constructor
      · exact .inl
      · rintro (h1 | rfl)
        · exact h1
        · exact ih.1 h
    · rw [if_neg h]; simp [ih]

theorem nodup_distinct {α : Type} [DecidableEq α] (l : List α) : (distinct l).Nodup := by
  induction l using rev_induction with
  | h0 => simp [distinct]
  | hs l y ih =>
    rw [distinct_snoc]
    split
    · exact ih
    · rename_i h
      rw [List.nodup_append]
      refine ⟨ih, by simp, ?_⟩
      intro a ha b hb e
      simp at hb; subst hb; subst e; exact h ha

theorem distinct_of_nodup {α : Type} [DecidableEq α] (l : List α) (h : l.Nodup) : distinct l = l := by
  induction l using rev_induction with
  | h0 => rfl
  | hs l y ih =>
    rw [List.nodup_append] at h
    rw [distinct_snoc, ih h.1, if_neg]
    intro hy
    exact h.2.2 y hy y (by simp) rfl

theorem paramsAfter_mem {h : List (QString × QString)} {p : QString × List QString} (hp : p ∈ paramsAfter h) :
    p.2 = distinct (valuesOf h p.1) ∧ ∀ v ∈ p.2, (p.1, v) ∈ h := by
  have := find_of_mem (paramsAfter_sorted h) hp
  rw [params_find] at this
  split at this
  · cases this
  · simp only [Option.some.injEq] at this
    refine ⟨this.symm, ?_⟩
    intro v hv
    rw [← this, mem_distinct] at hv
    simp only [valuesOf, List.mem_map, List.mem_filter, decide_eq_true_eq] at hv
    obtain ⟨⟨a, b⟩, ⟨h1, h2⟩, h3⟩ := hv
    simp only at h2 h3; subst h2; subst h3; exact h1

theorem flatParams_mem {h : List (QString × QString)} {kv : QString × QString} (hp : kv ∈ flatParams (paramsAfter h)) : kv ∈ h := by
  simp only [flatParams, List.mem_flatMap, List.mem_map] at hp
  obtain ⟨p, h1, v, h2, rfl⟩ := hp
  exact (paramsAfter_mem h1).2 v h2

theorem valuesOf_flat {m : ParameterMap} (hs : Sorted m) (k : QString) : valuesOf (flatParams m) k = (SMap.find m k).getD [] := by
  induction m with
  | nil => rfl
  | cons p m ih =>
    unfold Sorted at hs
    rw [List.pairwise_cons] at hs
    have ih := ih hs.2
    obtain ⟨k', vs⟩ := p
    have e : valuesOf (flatParams ((k', vs) :: m)) k = (if k' = k then vs else []) ++ valuesOf (flatParams m) k := by
      simp only [valuesOf, flatParams, List.flatMap_cons, List.filter_append, List.map_append]
      congr 1
      split
      · rename_i h; subst h
        rw [List.filter_eq_self.2]
        · simp [List.map_map, Function.comp_def]
        · intro a ha; simp only [List.mem_map] at ha; obtain ⟨v, _, rfl⟩ := ha; simp
      · rename_i h
        rw [List.filter_eq_nil_iff.2]; rfl
        intro a ha; simp only [List.mem_map] at ha; obtain ⟨v, _, rfl⟩ := ha; simp [h]
    rw [e, ih]
    simp only [SMap.find]
    split
    · rename_i h; subst h
      have : SMap.find m k' = none := SMap.find_eq_none.2 fun p hp e => by
        have := hs.1 p hp; simp only at this; rw [e, qlt_irrefl] at this; cases this
      simp [this]
    · simp

theorem paramsAfter_flat (h : List (QString × QString)) : paramsAfter (flatParams (paramsAfter h)) = paramsAfter h := by
  apply SMap.ext_find (paramsAfter_sorted _) (paramsAfter_sorted _)
  intro k
  rw [params_find, valuesOf_flat (paramsAfter_sorted h), params_find]
  by_cases e : valuesOf h k = []
  · simp [e]
  · simp only [e, if_false, Option.getD_some]
    have hne : distinct (valuesOf h k) ≠ [] := by
      cases hv : valuesOf h k with
      | nil => exact absurd hv e
      | cons v t => obtain ⟨r, hr⟩ := distinct_cons v t; rw [hr]; simp
    rw [if_neg hne, distinct_of_nodup _ (nodup_distinct _)]

theorem lower_upper (c : UInt8) (h : ¬ (65 ≤ c.toNat ∧ c.toNat ≤ 90)) : lowerB (upperB c) = c := by
  have : ∀ n : Fin 256, ¬ (65 ≤ (UInt8.ofNat n.val).toNat ∧ (UInt8.ofNat n.val).toNat ≤ 90) → lowerB (upperB (UInt8.ofNat n.val)) = UInt8.ofNat n.val := by
    decide +kernel
  have := this ⟨c.toNat, c.toNat_lt⟩
  simp only [UInt8.ofNat_toNat] at this
  exact this h

theorem upper_special (c d : UInt8) (hd : d.toNat < 65 ) (h : upperB c = d) : c = d := by
  have : ∀ n : Fin 256, (upperB (UInt8.ofNat n.val)).toNat < 65 → upperB (UInt8.ofNat n.val) = UInt8.ofNat n.val := by
    decide +kernel
  have := this ⟨c.toNat, c.toNat_lt⟩
  simp only [UInt8.ofNat_toNat] at this
  rw [← h] at hd ⊢
  exact (this hd).symm

theorem segOK {k v : QString} (h : ParamOK k v) : SegOK (k, v) := by
  have hk : ∀ d : UInt8, d.toNat < 65 → UInt16.ofNat d.toNat ∉ k → d ∉ toUpperB (toLatin1 k) := by
    intro d hd hn hm
    simp only [toUpperB, List.mem_map] at hm
    obtain ⟨c, hc, he⟩ := hm
    have := upper_special c d hd he
    subst this
    exact not_mem_toLatin1 k h.latinK c hn hc
  refine ⟨hk _ (by decide) h.sepK.1, hk _ (by decide) h.sepK.2.1, hk _ (by decide) h.sepK.2.2.1, ?_, ?_, ?_, ?_, ?_⟩
  · simp only [toLowerB, toUpperB, List.map_map]
    rw [List.map_congr_left (g := id)]
    · simp
    · intro c hc
      simp only [Function.comp, id]
      apply lower_upper
      simp only [toLatin1, List.mem_map] at hc
      obtain ⟨u, hu, he⟩ := hc
      have h1 := h.latinK u hu
      have h2 := h.lowerK u hu
      rw [if_pos h1] at he
      rw [← he, toNat_ofNat8 _ h1]
      exact h2
  · exact not_mem_toLatin1 v h.latinV _ h.sepV.1
  · exact not_mem_toLatin1 v h.latinV _ h.sepV.2.1
  · exact not_mem_toLatin1 v h.latinV _ h.sepV.2.2.1
  · intro he
    apply h.quoteV
    cases v with
    | nil => simp [toLatin1] at he
    | cons u t =>
      simp only [toLatin1, List.map_cons, List.head?_cons, Option.some.injEq] at he ⊢
      have h1 := h.latinV u (by simp)
      rw [if_pos h1] at he
      apply UInt16.toNat_inj.1
      have := congrArg UInt8.toNat he
      rw [toNat_ofNat8 _ h1] at this
      exact this

/-- the state after reading parameters: the line has them in order of first occurrence; encoding and charset are the last ones read -/
theorem addAll_core (kvs : List (QString × QString)) (hl : ∀ kv ∈ kvs, Latin1 kv.1 ∧ Latin1 kv.2) (p : PL) :
    (addAll p kvs).line = { p.line with params := kvs.foldl (fun m kv => ParameterMap.add m kv.1 kv.2) p.line.params } ∧
    (addAll p kvs).enc = (match (valuesOf kvs (q! "encoding")).getLast? with | none => p.enc | some v => toLowerB (toLatin1 v)) ∧
    (addAll p kvs).charset = (match (valuesOf kvs (q! "charset")).getLast? with | none => p.charset | some v => toLowerB (toLatin1 v)) := by
  induction kvs using rev_induction with
  | h0 => simp [addAll, valuesOf]
  | hs kvs kv ih =>
    obtain ⟨i1, i2, i3⟩ := ih (fun x hx => hl x (by simp [hx]))
    obtain ⟨lk, lv⟩ := hl kv (by simp)
    have e : addAll p (kvs ++ [kv]) = (addAll p kvs).addParameter (toLatin1 kv.1) (toLatin1 kv.2) := by simp [addAll]
    have ke : toLatin1 kv.1 = b! "encoding" ↔ kv.1 = q! "encoding" := by
      constructor
      · intro h
        exact toLatin1_inj _ _ lk (by intro u hu; revert u; decide) h
      · intro h; rw [h]; decide
    have kc : toLatin1 kv.1 = b! "charset" ↔ kv.1 = q! "charset" := by
      constructor
      · intro h
        exact toLatin1_inj _ _ lk (by intro u hu; revert u; decide) h
      · intro h; rw [h]; decide
    rw [e]
    simp only [PL.addParameter, i1, i2, i3, VCardLine.addParameter, fromLatin1_toLatin1 _ lk, fromLatin1_toLatin1 _ lv,
      List.foldl_append, List.foldl_cons, List.foldl_nil, ke, kc]
    refine ⟨trivial, ?_, ?_⟩
    · by_cases h : kv.1 = q! "encoding"
      · simp [h, valuesOf]
      · simp [h, valuesOf]
    · by_cases h : kv.1 = q! "encoding"
      · have : kv.1 ≠ q! "charset" := by rw [h]; decide
        simp [h, valuesOf]
      · by_cases h' : kv.1 = q! "charset"
        · simp [h', valuesOf]
        · simp [h, h', valuesOf]

theorem valuesOf_flat_after (h : List (QString × QString)) (k : QString) :
    valuesOf (flatParams (paramsAfter h)) k = distinct (valuesOf h k) := by
  rw [valuesOf_flat (paramsAfter_sorted h), params_find]
  by_cases e : valuesOf h k = []
  · simp [e, distinct]
  · simp [e]

theorem valuesOf_const {h : List (QString × QString)} {k v : QString} (h1 : (k, v) ∈ h) (h2 : ∀ p ∈ h, p.1 = k → p.2 = v) :
    distinct (valuesOf h k) = [v] := by
  have hm : ∀ x ∈ distinct (valuesOf h k), x = v := by
    intro x hx
    rw [mem_distinct] at hx
    simp only [valuesOf, List.mem_map, List.mem_filter, decide_eq_true_eq] at hx
    obtain ⟨p, ⟨hp, he⟩, rfl⟩ := hx
    exact h2 p hp he
  have hv : v ∈ distinct (valuesOf h k) := by
    rw [mem_distinct]
    simp only [valuesOf, List.mem_map, List.mem_filter, decide_eq_true_eq]
    exact ⟨(k, v), ⟨h1, rfl⟩, rfl⟩
  have hn := nodup_distinct (valuesOf h k)
  match hd : distinct (valuesOf h k) with
  | [] => rw [hd] at hv; simp at hv
  | [x] => rw [hd] at hm; rw [hm x (by simp)]
  | x :: y :: t =>
    rw [hd] at hm hn
    have e1 := hm x (by simp)
    have e2 := hm y (by simp)
    rw [e1, e2] at hn
    simp at hn

theorem valuesOf_none {h : List (QString × QString)} {k : QString} (h2 : ∀ p ∈ h, p.1 ≠ k) : valuesOf h k = [] := by
  simp only [valuesOf, List.map_eq_nil_iff, List.filter_eq_nil_iff, decide_eq_true_eq]
  exact h2

theorem mem_parameterList_iff (h : List (QString × QString)) (k : QString) :
    k ∈ VCardLine.parameterList { params := paramsAfter h } ↔ valuesOf h k ≠ [] := by
  show k ∈ (paramsAfter h).map (·.1) ↔ _
  rw [← SMap.find_isSome_iff, params_find]
  by_cases e : valuesOf h k = [] <;> simp [e]

/-- what is written for the value, and that it is read back -/
theorem value_roundtrip (E : Codecs) (h : List (QString × QString)) (l : VCardLine) (hl : l.params = paramsAfter h)
    (hv : ValueOK E h l.value) (hok : ∀ p ∈ h, ParamOK p.1 p.2) (hraw : l.base64Value = []) (q : PL)
    (hq : SameCore q (addAll { line := { identifier := l.identifier, group := l.group } } (flatParams l.params))) :
    ∃ out mb, writeValue E l = (out, mb) ∧ out ≠ [] ∧ EscapeSafe out ∧ q.decodeValue E out = l ∧ q.wantsMore out = false := by
  obtain ⟨c1, c2, c3⟩ := addAll_core (flatParams l.params)
    (by intro kv hkv; rw [hl] at hkv; have := hok kv (flatParams_mem hkv); exact ⟨this.latinK, this.latinV⟩)
    { line := { identifier := l.identifier, group := l.group } }
  have hparams : (flatParams l.params).foldl (fun m kv => ParameterMap.add m kv.1 kv.2) [] = l.params := by
    have : ∀ kvs : List (QString × QString), paramsAfter kvs = kvs.foldl (fun m kv => ParameterMap.add m kv.1 kv.2) [] := by
      intro kvs
      induction kvs using rev_induction with
      | h0 => rfl
      | hs kvs kv ih =>
        rw [paramsAfter_snoc, ih, List.foldl_append, ← ParameterMap.add_eq]; rfl
    rw [← this, hl, paramsAfter_flat]
  have hline : q.line = { identifier := l.identifier, group := l.group, params := l.params } := by
    rw [hq.1, c1]; simp only [hparams]
  have henc : q.enc = (match (distinct (valuesOf h (q! "encoding"))).getLast? with | none => [] | some v => toLowerB (toLatin1 v)) := by
    rw [hq.2.1, c2, hl, valuesOf_flat_after]
  have hcs : q.charset = (match (distinct (valuesOf h (q! "charset"))).getLast? with | none => [] | some v => toLowerB (toLatin1 v)) := by
    rw [hq.2.2, c3, hl, valuesOf_flat_after]
  have hpar : ∀ k, l.parameter k = (valuesOf h k).head?.getD [] := by
    intro k
    have := C12_first_value h k
    unfold VCardLine.parameter at this ⊢
    rw [hl]; exact this
  have hlist : ∀ k, k ∈ l.parameterList ↔ valuesOf h k ≠ [] := by
    intro k
    have := mem_parameterList_iff h k
    unfold VCardLine.parameterList at this ⊢
    rw [hl]; exact this
  have hl' : ∀ v, l.value = v → l = { identifier := l.identifier, group := l.group, value := v, params := l.params } := by
    intro v hvv
    rw [← hvv, ← hraw]
  have hhead : ∀ k v, distinct (valuesOf h k) = [v] → (valuesOf h k).head?.getD [] = v ∧ valuesOf h k ≠ [] := by
    intro k v hd
    cases hvs : valuesOf h k with
    | nil => rw [hvs] at hd; simp [distinct] at hd
    | cons x t =>
      obtain ⟨r, hr⟩ := distinct_cons x t
      rw [hvs, hr] at hd
      simp at hd
      simp [hd.1]
  unfold writeValue
  generalize hval : l.value = val at hv
  cases hv with
  | text s hno hw hne hb hsafe =>
    have v1 := valuesOf_none (fun p hp => (hno p hp).1)
    have v2 := valuesOf_none (fun p hp => (hno p hp).2)
    have he : q.enc = [] := by rw [henc, v1]; rfl
    have hc : q.charset = [] := by rw [hcs, v2]; rfl
    have hp : l.parameter (q! "charset") = [] := by rw [hpar, v2]; rfl
    have hm : q! "encoding" ∉ l.parameterList := by rw [hlist]; simp [v1]
    refine ⟨toUtf8 s, true, ?_, ?_, hsafe, ?_, ?_⟩
    · simp [hp, hm, QVariant.toString]
    · intro e
      have := C11_utf8_roundtrip_partial s hw hb
      rw [e] at this
      exact hne (by rw [← this]; rfl)
    · unfold PL.decodeValue
      simp only [he, hc, hline]
      rw [hl' _ hval]
      simp [C11_utf8_roundtrip_partial s hw hb]
    · simp [PL.wantsMore, he]
  | bytes b hin hall hne =>
    have d1 := valuesOf_const hin (fun p hp => (hall p hp).1)
    have v2 := valuesOf_none (fun p hp => (hall p hp).2)
    have he : q.enc = b! "b" := by rw [henc, d1]; decide
    have hc : q.charset = [] := by rw [hcs, v2]; rfl
    have hp : l.parameter (q! "charset") = [] := by rw [hpar, v2]; rfl
    obtain ⟨hh, hnn⟩ := hhead _ _ d1
    have hm : q! "encoding" ∈ l.parameterList := by rw [hlist]; exact hnn
    have hp2 : l.parameter (q! "encoding") = q! "b" := by rw [hpar, hh]
    refine ⟨toBase64 b, false, ?_, ?_, ?_, ?_, ?_⟩
    · simp [hp, hm, hp2, toLowerQ, lowerQ]
    · intro e
      have := C10_base64_roundtrip b
      rw [e] at this
      exact hne (by rw [← this]; rfl)
    · intro pre post c e
      have hmem : (92 : UInt8) ∈ toBase64 b := by rw [e]; simp
      exact absurd (C10_base64_alphabet b 92 hmem) (by decide)
    · unfold PL.decodeValue
      simp only [he, hc, hline]
      rw [hl' _ hval]
      simp [C10_base64_roundtrip]
    · simp [PL.wantsMore, he]
  | quoted s hin hall hw hb hcodec hne hsafe hlast =>
    have d1 := valuesOf_const hin (fun p hp => (hall p hp).1)
    have v2 := valuesOf_none (fun p hp => (hall p hp).2)
    have he : q.enc = b! "quoted-printable" := by rw [henc, d1]; decide
    have hc : q.charset = [] := by rw [hcs, v2]; rfl
    have hp : l.parameter (q! "charset") = [] := by rw [hpar, v2]; rfl
    obtain ⟨hh, hnn⟩ := hhead _ _ d1
    have hm : q! "encoding" ∈ l.parameterList := by rw [hlist]; exact hnn
    have hp2 : l.parameter (q! "encoding") = q! "quoted-printable" := by rw [hpar, hh]
    refine ⟨E.qpEncode (toUtf8 s), false, ?_, hne, hsafe, ?_, ?_⟩
    · simp [hp, hm, hp2, toLowerQ, lowerQ, QVariant.toString]
    · unfold PL.decodeValue
      simp only [he, hc, hline]
      rw [hl' _ hval]
      simp [hcodec, C11_utf8_roundtrip_partial s hw hb]
    · simp [PL.wantsMore, endsWithChar, hlast]
  | charset s cs enc dec hin hall henc' hdec' hrt hne hsafe =>
    have d1 := valuesOf_const hin (fun p hp => (hall p hp).1)
    have v2 := valuesOf_none (fun p hp => (hall p hp).2)
    have hcne : cs ≠ [] := (hok _ hin).neV
    have hlat : toLowerB (toLatin1 cs) ≠ [] := by
      intro e; apply hcne
      simpa [toLowerB, toLatin1] using e
    have he : q.enc = [] := by rw [henc, v2]; rfl
    have hc : q.charset = toLowerB (toLatin1 cs) := by rw [hcs, d1]; rfl
    obtain ⟨hh, hnn⟩ := hhead _ _ d1
    have hp : l.parameter (q! "charset") = cs := by rw [hpar, hh]
    have hm : q! "encoding" ∉ l.parameterList := by rw [hlist]; simp [v2]
    refine ⟨enc s, false, ?_, hne, hsafe, ?_, ?_⟩
    · simp [hp, hm, hcne, henc', QVariant.toString]
    · unfold PL.decodeValue
      simp only [he, hc, hline]
      rw [hl' _ hval]
      simp [hlat, hdec', hrt]
    · simp [PL.wantsMore, he]

/-- parsing the unfolded content line gives the line back -/
theorem content_roundtrip (E : Codecs) (l : VCardLine) (hl : LineOK E l) :
    ∃ t mb, writeContent E l = some (t, mb) ∧ parsePure E t = some l ∧ ∃ val, t = writeHead l ++ [c! ':'] ++ val ∧ (10 : UInt8) ∉ val := by
  obtain ⟨h, hp, hok, hv⟩ := hl.params
  have hs : Sorted l.params := by rw [hp]; exact paramsAfter_sorted h
  have hne : ∀ p ∈ l.params, ∀ v ∈ p.2, v ≠ [] := by
    intro p hpm v hvm
    rw [hp] at hpm
    exact (hok _ ((paramsAfter_mem hpm).2 v hvm)).neV
  have hseg : ∀ kv ∈ flatParams l.params, SegOK kv := by
    intro kv hkv; rw [hp] at hkv; exact segOK (hok kv (flatParams_mem hkv))
  have hsep : ∀ s, NameOK s → ∀ c ∈ [qc! ';', qc! ':', qc! '.'], c ∉ s := by
    intro s hs c hc
    simp only [List.mem_cons, List.not_mem_nil, or_false] at hc
    rcases hc with rfl | rfl | rfl
    · exact hs.sep.1
    · exact hs.sep.2.1
    · exact hs.sep.2.2.1
  have hscan := scan_written l hs hne hl.name.latin hl.group.latin (hsep _ hl.name) (hsep _ hl.group) hseg
  -- the value does not depend on what follows the colon
  obtain ⟨q0, _, hq0⟩ := hscan []
  obtain ⟨out, mb, hw, hon, hosafe, hdec, hmore⟩ := value_roundtrip E h l hp hv hok hl.noRaw q0 hq0
  obtain ⟨q, hq1, hq2⟩ := hscan (addEscapes out (excludesComma l))
  have hrem := C01_escape_roundtrip_partial out (excludesComma l) hosafe
  have hesc : addEscapes out (excludesComma l) ≠ [] := by
    intro e; rw [e] at hrem; exact hon (by rw [← hrem]; rfl)
  refine ⟨writeHead l ++ [c! ':'] ++ addEscapes out (excludesComma l), mb, ?_, ?_, _, rfl, (C01_escaped_is_single_line out _).1⟩
  · unfold writeContent; rw [hw]; simp [hesc]
  · unfold parsePure
    rw [hq1]
    have hcore : SameCore q q0 := sameCore_trans hq2 ⟨hq0.1.symm, hq0.2.1.symm, hq0.2.2.symm⟩
    have e1 : q.wantsMore out = q0.wantsMore out := by simp [PL.wantsMore, hcore.2.1]
    have e2 : q.decodeValue E out = q0.decodeValue E out := by simp [PL.decodeValue, hcore.1, hcore.2.1, hcore.2.2]
    simp only [hrem, e1, hmore, e2, hdec]
    simp

end KC
