import Verif.Lemmas.SafeText
/- Helper lemmas: written lines in a normal form (name, value, parameters in the order they were added) and what is read from them. -/
namespace KC
open Spec

/-- A line with the parameters `h` added one by one. -/
def mkLine (id : QString) (val : QVariant) (h : List (QString × QString)) : VCardLine :=
  { identifier := id, value := val, params := paramsAfter h }

theorem textLine_eq (id s : QString) : textLine id s = mkLine id (.str s) [] := rfl

theorem mkLine_add (id : QString) (val : QVariant) (h : List (QString × QString)) (k v : QString) :
    (mkLine id val h).addParameter k v = mkLine id val (h ++ [(k, v)]) := by
  simp only [VCardLine.addParameter, mkLine, paramsAfter_snoc, ParameterMap.add_eq]

/-- the pairs added for a parameter map -/
def joinedParams (m : ParameterMap) : List (QString × QString) := m.map fun p => (p.1, join [qc! ','] p.2)

theorem foldl_add (id : QString) (val : QVariant) (m : ParameterMap) (h : List (QString × QString)) :
    m.foldl (fun l p => l.addParameter p.1 (join [qc! ','] p.2)) (mkLine id val h) = mkLine id val (h ++ joinedParams m) := by
  induction m generalizing h with
  | nil => simp [joinedParams]
  | cons p m ih => rw [List.foldl_cons, mkLine_add, ih]; simp [joinedParams]

theorem mkLine_addAll (id : QString) (val : QVariant) (h : List (QString × QString)) (m : ParameterMap) :
    (mkLine id val h).addParameters m = mkLine id val (h ++ joinedParams m) := foldl_add id val m h

theorem foldl_addIf (id : QString) (val : QVariant) (P : QString → Bool) (m : ParameterMap) (h : List (QString × QString)) :
    m.foldl (fun l p => if P p.1 then addJoined l p else l) (mkLine id val h) = mkLine id val (h ++ joinedParams (m.filter fun p => P p.1)) := by
  induction m generalizing h with
  | nil => simp [joinedParams]
  | cons p m ih =>
    rw [List.foldl_cons]
    by_cases hp : P p.1
    · rw [if_pos hp, addJoined, mkLine_add, ih, List.filter_cons_of_pos (by exact hp)]; simp [joinedParams]
    · rw [if_neg hp, ih, List.filter_cons_of_neg (by exact hp)]

/-- the pairs added by `encoded` -/
def coding (v : Version) (text : QString) : List (QString × QString) :=
  if v = .v2_1 && needsEncoding text then [(q! "charset", q! "UTF-8"), (q! "encoding", q! "QUOTED-PRINTABLE")] else []

theorem encoded_eq (v : Version) (t id s : QString) : encoded v t (textLine id s) = mkLine id (.str s) (coding v t) := by
  unfold encoded coding
  split
  · rw [textLine_eq, mkLine_add, mkLine_add]; rfl
  · rfl

/-- the pairs added by `toolAddParameter` -/
def toolParams (v : Version) (key : QString) (values : List QString) : List (QString × QString) :=
  match v with
  | .v2_1 => values.map fun s => (s, [])
  | .v3_0 => [(key, join [qc! ','] values)]
  | .v4_0 => if values.length < 2 then [(key, join [qc! ','] values)] else [(key, qc! '"' :: (join [qc! ','] values ++ [qc! '"']))]

theorem toolAdd_eq (id : QString) (val : QVariant) (h : List (QString × QString)) (v : Version) (key : QString) (values : List QString) :
    toolAddParameter (mkLine id val h) v key values = mkLine id val (h ++ toolParams v key values) := by
  cases v with
  | v2_1 =>
    show values.foldl _ _ = mkLine id val (h ++ values.map fun s => (s, []))
    induction values generalizing h with
    | nil => simp
    | cons s values ih => rw [List.foldl_cons, mkLine_add, ih]; simp
  | v3_0 => exact mkLine_add _ _ _ _ _
  | v4_0 =>
    simp only [toolAddParameter, toolParams]
    split <;> rw [mkLine_add]

/-! ### Which lines are read back -/

/-- A parameter that is read back and does not touch the coding of the value. -/
structure PairOK (p : QString × QString) : Prop where
  seg : SegGood p
  key : p.1 ≠ q! "encoding" ∧ p.1 ≠ q! "charset"
  read : ∀ r ∈ segRead p, r.1 ≠ q! "encoding" ∧ r.1 ≠ q! "charset"

theorem pairs_noCoding {h : List (QString × QString)} (hp : ∀ p ∈ h, PairOK p) : NoCoding h ∧ NoCoding (h.flatMap segRead) := by
  constructor
  · intro p hm; exact (hp p hm).key
  · intro r hr
    obtain ⟨p, hm, hr⟩ := List.mem_flatMap.1 hr
    exact (hp p hm).read r hr

theorem good_text (E : Codecs) (id : QString) (hn : NameGood id) (s : QString) (hs : SafeText s) (hne : s ≠ []) (h : List (QString × QString))
    (hp : ∀ p ∈ h, PairOK p) : LineGood E (mkLine id (.str s) h) :=
  ⟨rfl, hn, rfl, h, rfl, fun p hm => (hp p hm).seg, .text s (pairs_noCoding hp).1 (pairs_noCoding hp).2 hs.plain hne⟩

theorem segGood_b : SegGood (q! "encoding", q! "b") :=
  ⟨by unfold Latin1; decide, by unfold Latin1; decide, by decide, by decide, .inr (by decide)⟩
theorem segGood_utf8 : SegGood (q! "charset", q! "UTF-8") :=
  ⟨by unfold Latin1; decide, by unfold Latin1; decide, by decide, by decide, .inr (by decide)⟩
theorem segGood_qp : SegGood (q! "encoding", q! "QUOTED-PRINTABLE") :=
  ⟨by unfold Latin1; decide, by unfold Latin1; decide, by decide, by decide, .inr (by decide)⟩

theorem good_bytes (E : Codecs) (id : QString) (hn : NameGood id) (b : QByteArray) (hne : b ≠ []) (h : List (QString × QString))
    (hp : ∀ p ∈ h, PairOK p) : LineGood E (mkLine id (.bytes b) ((q! "encoding", q! "b") :: h)) :=
  ⟨rfl, hn, rfl, _, rfl, fun p hm => by
    rcases List.mem_cons.1 hm with rfl | hm
    · exact segGood_b
    · exact (hp p hm).seg, .bytes b [] h rfl (pairs_noCoding hp).1 (pairs_noCoding hp).2 hne⟩

theorem needsEncoding_iff (s : QString) : needsEncoding s = true ↔ ¬ PlainAscii s := by
  unfold needsEncoding PlainAscii
  simp only [List.any_eq_true, not_forall]
  constructor
  · rintro ⟨u, hu, h⟩
    refine ⟨u, hu, ?_⟩
    rintro ⟨h1, h2⟩
    rw [if_pos (by omega)] at h
    simp at h
    omega
  · rintro ⟨u, hu, h⟩
    refine ⟨u, hu, ?_⟩
    have := u.toNat_lt
    by_cases a : u.toNat < 128
    · rw [if_pos a]; simp; omega
    · rw [if_neg a]
      by_cases b : u.toNat < 256
      · rw [if_pos b]; simp; omega
      · rw [if_neg b]; simp

theorem codedText_eq (E : Codecs) (v : Version) (s : QString) :
    CodedText E v s = if v = .v2_1 ∧ needsEncoding s = true then Quotable E s else SafeText s := by
  unfold CodedText
  by_cases h : v = .v2_1 <;> simp [h, needsEncoding_iff]

theorem good_coded (E : Codecs) (v : Version) (id : QString) (hn : NameGood id) (s : QString) (hs : CodedText E v s) (hne : s ≠ [])
    (h : List (QString × QString)) (hp : ∀ p ∈ h, PairOK p) : LineGood E (mkLine id (.str s) (coding v s ++ h)) := by
  unfold coding
  rw [codedText_eq] at hs
  by_cases hc : v = .v2_1 ∧ needsEncoding s = true
  · rw [if_pos hc] at hs
    rw [if_pos (by simpa using hc)]
    refine ⟨rfl, hn, rfl, _, rfl, ?_, .coded s h rfl (pairs_noCoding hp).1 (pairs_noCoding hp).2 hs⟩
    intro p hm
    simp only [List.cons_append, List.nil_append, List.mem_cons] at hm
    rcases hm with rfl | rfl | hm
    · exact segGood_utf8
    · exact segGood_qp
    · exact (hp p hm).seg
  · rw [if_neg hc] at hs
    rw [if_neg (by simpa using hc)]
    exact good_text E id hn s hs hne h hp

/-- What is read from a line: nothing if its value is empty. -/
def readBack (l : VCardLine) : Option VCardLine :=
  if l.value = .invalid ∨ l.value = .str [] then none else some (lineRead l)

/-- A line that is left out or read back. -/
inductive LineFine (E : Codecs) : VCardLine → Prop
  | invalid (l : VCardLine) : l.value = .invalid → l.base64Value = [] → LineFine E l
  | empty (id : QString) (h : List (QString × QString)) : NoCoding h → LineFine E (mkLine id (.str []) h)
  | good (l : VCardLine) : LineGood E l → l.value ≠ .str [] → LineFine E l

theorem lineFine_reads (E : Codecs) (l : VCardLine) (h : LineFine E l) : Reads E l (readBack l) := by
  cases h with
  | invalid l h1 h2 =>
    rw [readBack, if_pos (.inl h1)]
    show writeLine E l = []
    unfold writeLine
    rw [h1]; simp [h2]
  | empty id h hn =>
    rw [readBack, if_pos (.inr rfl)]
    show writeLine E _ = []
    have e1 : VCardLine.parameter (mkLine id (.str []) h) (q! "charset") = [] := by
      have := C12_first_value h (q! "charset")
      rw [valuesOf_none (fun p hp => (hn p hp).2)] at this
      exact this
    have e2 : q! "encoding" ∉ VCardLine.parameterList (mkLine id (.str []) h) := by
      intro hm
      exact (mem_parameterList_iff h (q! "encoding")).1 hm (valuesOf_none (fun p hp => (hn p hp).1))
    have e3 : toUtf8 [] = [] := by simp [toUtf8]
    unfold writeLine writeContent writeValue
    simp only [e1, e2]
    simp [mkLine, QVariant.toString, e3, addEscapes, replaceChar]
  | good l hg hne =>
    have : ¬ (l.value = .invalid ∨ l.value = .str []) := by
      obtain ⟨h, hp, _, hv⟩ := hg.params
      rintro (e | e)
      · rw [e] at hv; cases hv
      · exact hne e
    rw [readBack, if_neg this]
    exact good_reads E l hg

/-! ### Which parameters are read back -/

/-- the parameters added by the reader of a line written with the parameters `h` -/
def readPairs (h : List (QString × QString)) : List (QString × QString) := (flatParams (paramsAfter h)).flatMap segRead

theorem lineRead_mk (id : QString) (val : QVariant) (h : List (QString × QString)) :
    lineRead (mkLine id val h) = { identifier := (nameRead id).2, group := (nameRead id).1, value := val, params := paramsAfter (readPairs h) } := rfl

theorem parameters_of (l : VCardLine) (h : List (QString × QString)) (hl : l.params = paramsAfter h) (k : QString) :
    l.parameters k = distinct (valuesOf h k) := by
  have := C12_lookup h k
  unfold VCardLine.parameters at *
  rw [hl]; exact this

theorem parameter_of (l : VCardLine) (h : List (QString × QString)) (hl : l.params = paramsAfter h) (k : QString) :
    l.parameter k = (valuesOf h k).head?.getD [] := by
  have := C12_first_value h k
  unfold VCardLine.parameter at *
  rw [hl]; exact this

theorem parameterList_of (l : VCardLine) (h : List (QString × QString)) (hl : l.params = paramsAfter h) (k : QString) :
    k ∈ l.parameterList ↔ valuesOf h k ≠ [] := by
  have := mem_parameterList_iff h k
  unfold VCardLine.parameterList at *
  rw [hl]; exact this

theorem find_filter {ν : Type} (m : SMap ν) (P : QString → Bool) (k : QString) :
    SMap.find (m.filter fun p => P p.1) k = if P k then SMap.find m k else none := by
  induction m with
  | nil => simp [SMap.find]
  | cons p m ih =>
    obtain ⟨k', v⟩ := p
    by_cases hk : k' = k
    · subst hk
      by_cases hp : P k'
      · simp [List.filter_cons, hp, SMap.find]
      · rw [List.filter_cons_of_neg (by exact hp), ih]; simp [hp]
    · by_cases hp : P k'
      · simp [List.filter_cons, hp, SMap.find, hk, ih]
      · rw [List.filter_cons_of_neg (by exact hp), ih, SMap.find, if_neg hk]

theorem sorted_filter {ν : Type} {m : SMap ν} (h : Sorted m) (P : QString × ν → Bool) : Sorted (m.filter P) := List.Pairwise.filter P h

theorem valuesOf_filter (h : List (QString × QString)) (P : QString → Bool) (k : QString) :
    valuesOf (h.filter fun p => P p.1) k = if P k then valuesOf h k else [] := by
  induction h with
  | nil => simp [valuesOf]
  | cons p h ih =>
    obtain ⟨k', v⟩ := p
    simp only [valuesOf] at *
    by_cases hk : k' = k
    · subst hk
      by_cases hp : P k'
      · simp [List.filter_cons, hp] at *; exact ih
      · simp [List.filter_cons, hp] at *; exact ih
    · by_cases hp : P k'
      · simp [List.filter_cons, hp, hk] at *; exact ih
      · simp [List.filter_cons, hp, hk] at *; exact ih

theorem paramsAfter_filter (h : List (QString × QString)) (P : QString → Bool) :
    paramsAfter (h.filter fun p => P p.1) = (paramsAfter h).filter fun p => P p.1 := by
  apply SMap.ext_find (paramsAfter_sorted _) (sorted_filter (paramsAfter_sorted _) _)
  intro k
  rw [params_find, find_filter, params_find, valuesOf_filter]
  by_cases hp : P k <;> simp [hp]

theorem flatParams_filter (m : ParameterMap) (P : QString → Bool) : flatParams (m.filter fun p => P p.1) = (flatParams m).filter fun p => P p.1 := by
  induction m with
  | nil => rfl
  | cons p m ih =>
    have e : flatParams (p :: m) = p.2.map (fun v => (p.1, v)) ++ flatParams m := rfl
    rw [e, List.filter_append, ← ih]
    by_cases hp : P p.1
    · rw [List.filter_cons_of_pos (by exact hp)]
      show p.2.map (fun v => (p.1, v)) ++ _ = _
      congr 1
      rw [List.filter_eq_self.2]
      intro a ha
      obtain ⟨v, _, rfl⟩ := List.mem_map.1 ha
      exact hp
    · have : (p.2.map fun v => (p.1, v)).filter (fun p => P p.1) = [] := by
        rw [List.filter_eq_nil_iff]
        intro a ha
        obtain ⟨v, _, rfl⟩ := List.mem_map.1 ha
        exact hp
      rw [List.filter_cons_of_neg (by exact hp), this, List.nil_append]

theorem valuesOf_append {β : Type} (a b : List (QString × β)) (k : QString) : valuesOf (a ++ b) k = valuesOf a k ++ valuesOf b k := by simp [valuesOf]

/-- pairs that never yield the name `k` do not matter for reading `k` -/
theorem valuesOf_readPairs (h : List (QString × QString)) (P : QString → Bool) (k : QString)
    (hn : ∀ p ∈ h, P p.1 = false → ∀ r ∈ segRead p, r.1 ≠ k) : valuesOf (readPairs h) k = valuesOf (readPairs (h.filter fun p => P p.1)) k := by
  have hm : ∀ p ∈ flatParams (paramsAfter h), P p.1 = false → ∀ r ∈ segRead p, r.1 ≠ k := fun p hp => hn p (flatParams_mem hp)
  unfold readPairs
  rw [paramsAfter_filter, flatParams_filter]
  generalize flatParams (paramsAfter h) = f at hm
  induction f with
  | nil => rfl
  | cons p f ih =>
    have ih := ih fun q hq => hm q (List.mem_cons_of_mem _ hq)
    rw [List.flatMap_cons, valuesOf_append, ih]
    by_cases hp : P p.1
    · rw [List.filter_cons_of_pos (by exact hp), List.flatMap_cons, valuesOf_append]
    · rw [List.filter_cons_of_neg (by exact hp), valuesOf_none (hm p (by simp) (by simpa using hp)), List.nil_append]

theorem find_mem {ν : Type} {m : SMap ν} {k : QString} {v : ν} (h : SMap.find m k = some v) : (k, v) ∈ m := by
  induction m with
  | nil => simp [SMap.find] at h
  | cons p m ih =>
    obtain ⟨k', w⟩ := p
    rw [SMap.find] at h
    split at h
    · rename_i e; subst e; cases h; simp
    · exact List.mem_cons_of_mem _ (ih h)

/-- parameters added in ascending order of their names are written in that order -/
theorem flat_sorted (h : List (QString × QString)) (hs : (h.map (·.1)).Pairwise (fun a b => qlt a b = true)) : flatParams (paramsAfter h) = h := by
  have hs' : Sorted (h.map fun p => (p.1, [p.2])) := by
    rw [SMap.sorted_iff_keys, List.map_map]; exact hs
  have : paramsAfter h = h.map fun p => (p.1, [p.2]) := by
    apply SMap.ext_find (paramsAfter_sorted _) hs'
    intro k
    rw [params_find]
    clear hs'
    induction h with
    | nil => rfl
    | cons p h ih =>
      obtain ⟨k', v⟩ := p
      simp only [List.map_cons, List.pairwise_cons] at hs
      by_cases hk : k' = k
      · subst hk
        have hn : valuesOf h k' = [] := valuesOf_none fun p hp e => by
          have := hs.1 p.1 (List.mem_map_of_mem hp)
          rw [e, qlt_irrefl] at this; cases this
        have : valuesOf ((k', v) :: h) k' = [v] := by
          have : valuesOf ((k', v) :: h) k' = v :: valuesOf h k' := by simp [valuesOf]
          rw [this, hn]
        rw [this]; simp [SMap.find, distinct]
      · have : valuesOf ((k', v) :: h) k = valuesOf h k := by simp [valuesOf, List.filter_cons, hk]
        rw [this, ih hs.2]; simp [SMap.find, hk]
  rw [this]
  simp [flatParams, List.flatMap_map]


/-! ### Parameter maps -/

theorem lowerName_ok {k v : QString} (h : ParamOK k v) : lowerName k = k := by
  have : toLowerB (toUpperB (toLatin1 k)) = toLatin1 k := by
    unfold toLowerB toUpperB
    rw [List.map_map]
    conv => rhs; rw [← List.map_id (toLatin1 k)]
    apply List.map_congr_left
    intro c hc
    apply lower_upper
    simp only [toLatin1, List.mem_map] at hc
    obtain ⟨u, hu, rfl⟩ := hc
    have h1 := h.latinK u hu
    rw [if_pos h1, toNat_ofNat8 _ h1]
    exact h.lowerK u hu
  unfold lowerName
  rw [this]
  exact fromLatin1_toLatin1 _ h.latinK

theorem join_head {sep : QString} {vs : List QString} (hne : vs ≠ []) (hv : ∀ v ∈ vs, v ≠ []) :
    join sep vs ≠ [] ∧ (join sep vs).head? = (vs.head hne).head? := by
  cases vs with
  | nil => exact absurd rfl hne
  | cons v vs =>
    have := hv v (by simp)
    cases v with
    | nil => exact absurd rfl this
    | cons c v => cases vs <;> simp [join]

theorem splitOn_join {sep : UInt16} {vs : List QString} (hne : vs ≠ []) (hv : ∀ v ∈ vs, sep ∉ v) : splitOn sep (join [sep] vs) = vs := by
  induction vs with
  | nil => exact absurd rfl hne
  | cons v vs ih =>
    cases vs with
    | nil => exact splitOn_of_not_mem _ _ (hv v (by simp))
    | cons w vs =>
      have e : join [sep] (v :: w :: vs) = v ++ sep :: join [sep] (w :: vs) := by simp [join]
      rw [e, splitOn_append_sep, ih (by simp) fun x hx => hv x (List.mem_cons_of_mem _ hx), splitOn_of_not_mem _ _ (hv v (by simp))]
      rfl

theorem latin1_join {sep : QString} (hs : Latin1 sep) {vs : List QString} (h : ∀ v ∈ vs, Latin1 v) : Latin1 (join sep vs) := by
  induction vs with
  | nil => intro u hu; simp [join] at hu
  | cons v vs ih =>
    cases vs with
    | nil => exact h v (by simp)
    | cons w vs =>
      have e : join sep (v :: w :: vs) = v ++ (sep ++ join sep (w :: vs)) := by simp [join]
      rw [e]
      intro u hu
      rcases List.mem_append.1 hu with hu | hu
      · exact h v (by simp) u hu
      · rcases List.mem_append.1 hu with hu | hu
        · exact hs u hu
        · exact ih (fun x hx => h x (List.mem_cons_of_mem _ hx)) u hu

theorem mem_join {c : UInt16} {sep : QString} {vs : List QString} (h : c ∈ join sep vs) : c ∈ sep ∨ ∃ v ∈ vs, c ∈ v := by
  induction vs with
  | nil => simp [join] at h
  | cons v vs ih =>
    cases vs with
    | nil => exact .inr ⟨v, by simp, h⟩
    | cons w vs =>
      have e : join sep (v :: w :: vs) = v ++ (sep ++ join sep (w :: vs)) := by simp [join]
      rw [e] at h
      rcases List.mem_append.1 h with h | h
      · exact .inr ⟨v, by simp, h⟩
      · rcases List.mem_append.1 h with h | h
        · exact .inl h
        · rcases ih h with h | ⟨x, hx, h⟩
          · exact .inl h
          · exact .inr ⟨x, List.mem_cons_of_mem _ hx, h⟩

/-- a parameter with its values joined is read back -/
theorem joined_ok {k : QString} {vs : List QString} (hne : vs ≠ []) (hk : k ≠ q! "encoding" ∧ k ≠ q! "charset") (h : ∀ v ∈ vs, ParamOK k v) :
    PairOK (k, join [qc! ','] vs) ∧ segRead (k, join [qc! ','] vs) = vs.map fun v => (k, v) := by
  obtain ⟨v0, hv0⟩ := List.exists_mem_of_ne_nil _ hne
  have hj := join_head (sep := [qc! ',']) hne fun v hv => (h v hv).neV
  have hs : splitOn (qc! ',') (join [qc! ','] vs) = vs := splitOn_join hne fun v hv => (h v hv).sepV.2.2.1
  have hread : segRead (k, join [qc! ','] vs) = vs.map fun v => (k, v) := by
    unfold segRead
    simp only
    rw [if_neg hj.1, if_neg, hs, lowerName_ok (h v0 hv0)]
    rw [hj.2]
    exact (h _ (List.head_mem hne)).quoteV
  refine ⟨⟨⟨(h v0 hv0).latinK, latin1_join (by intro u hu; simp at hu; subst hu; decide) fun v hv => (h v hv).latinV, (h v0 hv0).sepK, ?_, .inr ⟨?_, ?_, ?_⟩⟩,
    hk, ?_⟩, hread⟩
  · intro hm
    rcases mem_join hm with hm | ⟨v, hv, hm⟩
    · revert hm; decide
    · exact (h v hv).sepV.2.2.2 hm
  · intro hm
    rcases mem_join hm with hm | ⟨v, hv, hm⟩
    · revert hm; decide
    · exact (h v hv).sepV.1 hm
  · intro hm
    rcases mem_join hm with hm | ⟨v, hv, hm⟩
    · revert hm; decide
    · exact (h v hv).sepV.2.1 hm
  · rw [hs]
    exact fun v hv => (h v hv).quoteV
  · rw [hread]
    intro r hr
    obtain ⟨v, _, rfl⟩ := List.mem_map.1 hr
    exact hk

theorem ParamsOK.pairs {m : ParameterMap} (h : ParamsOK m) : ∀ p ∈ joinedParams m, PairOK p := by
  intro p hp
  obtain ⟨q, hq, rfl⟩ := List.mem_map.1 hp
  exact (joined_ok (h.values q hq).1 (h.coding q hq) (h.writable q hq)).1

theorem ParamsOK.sorted {m : ParameterMap} (h : ParamsOK m) : Sorted m := by
  rw [SMap.sorted_iff_keys]
  exact h.ascending.imp fun hl => (qlt_iff_less _ _).2 hl

theorem flat_joined {m : ParameterMap} (h : Sorted m) : flatParams (paramsAfter (joinedParams m)) = joinedParams m := by
  apply flat_sorted
  have : (joinedParams m).map (·.1) = m.map (·.1) := by simp [joinedParams, Function.comp_def]
  rw [this]; exact SMap.sorted_iff_keys.1 h

theorem ParamsOK.read {m : ParameterMap} (h : ParamsOK m) : readPairs (joinedParams m) = flatParams m := by
  unfold readPairs
  rw [flat_joined h.sorted]
  unfold joinedParams flatParams
  rw [List.flatMap_map]
  apply List.flatMap_congr
  intro p hp
  exact (joined_ok (h.values p hp).1 (h.coding p hp) (h.writable p hp)).2

theorem paramsAfter_flatParams {m : ParameterMap} (hs : Sorted m) (hv : ∀ p ∈ m, p.2 ≠ [] ∧ p.2.Nodup) : paramsAfter (flatParams m) = m := by
  apply SMap.ext_find (paramsAfter_sorted _) hs
  intro k
  rw [params_find, valuesOf_flat hs]
  cases e : SMap.find m k with
  | none => rfl
  | some vs =>
    obtain ⟨p, hp, he⟩ : ∃ p ∈ m, p = (k, vs) := ⟨(k, vs), find_mem e, rfl⟩
    subst he
    have := hv _ hp
    simp only [Option.getD_some]
    rw [if_neg this.1, distinct_of_nodup _ this.2]

/-- parameters of an entry are read back -/
theorem params_roundtrip {m : ParameterMap} (h : ParamsOK m) : paramsAfter (readPairs (joinedParams m)) = m := by
  rw [h.read]; exact paramsAfter_flatParams h.sorted h.values

end KC
