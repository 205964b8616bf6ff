import Verif.Lemmas.Fields4
/- Helper lemmas: the fields of a contact after writing and reading, part 5: keys, sounds and pictures. -/
namespace KC
open Spec

theorem filterMap_readBack {α : Type} {f g : α → VCardLine} {P : α → Bool} {m : List α} (h : ∀ x ∈ m, readBack (f x) = if P x then some (g x) else none) :
    (m.map f).filterMap readBack = (m.filter P).map g := by
  induction m with
  | nil => rfl
  | cons x m ih =>
    rw [List.map_cons, List.filterMap_cons, h x (by simp), List.filter_cons]
    have := ih fun y hy => h y (by simp [hy])
    cases P x <;> simp [this]

/-- the values read from one or two parameters -/
theorem read_one {K w k : QString} (h : segRead (K, w) = [(k, w)]) (k' : QString) : valuesOf (readPairs [(K, w)]) k' = if k' = k then [w] else [] := by
  rw [readPairs_one, h]
  unfold valuesOf
  by_cases e : k' = k
  · subst e; simp
  · simp [e, Ne.symm e]

theorem read_two {K w k K' w' l : QString} (hK : K ≠ K') (hk : k ≠ l) (h : segRead (K, w) = [(k, w)]) (h' : segRead (K', w') = [(l, w')]) (k' : QString) :
    valuesOf (readPairs [(K, w), (K', w')]) k' = if k' = k then [w] else if k' = l then [w'] else [] := by
  have hd : ∀ p ∈ [(K, w)], ∀ q ∈ [(K', w')], p.1 ≠ q.1 := by
    intro p hp q hq
    rw [List.mem_singleton] at hp hq; subst hp; subst hq; exact hK
  by_cases e : k' = k
  · rw [if_pos e]
    refine (read_left [(K, w)] [(K', w')] hd k' ?_).trans ?_
    · intro p hp r hr
      rw [List.mem_singleton] at hp; subst hp
      rw [h', List.mem_singleton] at hr; subst hr
      rw [e]; exact hk.symm
    · rw [read_one h, if_pos e]
  · rw [if_neg e]
    refine (read_right [(K, w)] [(K', w')] hd k' ?_).trans (read_one h' k')
    intro p hp r hr
    rw [List.mem_singleton] at hp; subst hp
    rw [h, List.mem_singleton] at hr; subst hr
    exact Ne.symm e

theorem ParamOK.value {k k' w : QString} (h : ParamOK k w) (hk : Latin1 k' ∧ (∀ u ∈ k', ¬ (65 ≤ u.toNat ∧ u.toNat ≤ 90)) ∧ (qc! ';' ∉ k' ∧ qc! ':' ∉ k' ∧ qc! '=' ∉ k' ∧ (10 : UInt16) ∉ k')) :
    ParamOK k' w := ⟨hk.1, h.latinV, hk.2.1, hk.2.2, h.neV, h.sepV, h.quoteV⟩

theorem seg_b : segRead (q! "encoding", q! "b") = [(q! "encoding", q! "b")] := by decide +kernel
theorem seg_uri : PairOK (q! "value", q! "URI") ∧ segRead (q! "value", q! "URI") = [(q! "value", q! "URI")] :=
  pair_single (by decide) (by decide) (by decide)

theorem rd_nil (id : QString) (val : QVariant) : (rdLine id val []).params = [] := rfl

variable {E : ToolEnv} {v : Version} {c : Contact}

/-! ### keys -/

/-- the name of the parameter with the type of a key, as written and as read -/
def keyParam (v : Version) : QString := if v = .v4_0 then q! "MEDIATYPE" else q! "type"
def keyParamRead (v : Version) : QString := if v = .v4_0 then q! "mediatype" else q! "type"
def keyTypeText (v : Version) (k : Key) : QString :=
  if v = .v4_0 then (match k.type with | .x509 => q! "application/x-x509-ca-cert" | .pgp => q! "application/pgp-keys" | .custom => k.customTypeString)
  else (match k.type with | .x509 => q! "X509" | .pgp => q! "PGP" | .custom => k.customTypeString)

def keyVal (k : Key) : QVariant := if k.isBinary then .bytes k.binaryData else .str k.textData
def keyPairs (v : Version) (k : Key) : List (QString × QString) :=
  if k.isBinary then [(q! "encoding", q! "b"), (keyParam v, keyTypeText v k)] else [(keyParam v, keyTypeText v k)]

theorem createKey_eq {k : Key} (hd : k.hasData = true) (hb : v = .v2_1 → k.isBinary = false) :
    createKey k v = mkLine (q! "KEY") (keyVal k) (keyPairs v k) := by
  unfold createKey keyVal keyPairs keyParam keyTypeText
  unfold Key.hasData at hd
  cases hk : k.isBinary with
  | true =>
    rw [hk] at hd hb
    have hv : v ≠ .v2_1 := fun e => by have := hb e; cases this
    simp only [if_true] at hd ⊢
    simp only [hd, hv, if_true, if_false]
    split <;> rfl
  | false =>
    rw [hk] at hd
    simp only [Bool.false_eq_true, if_false] at hd ⊢
    simp only [hd, if_true]
    split <;> rfl

theorem createKey_none {k : Key} (hd : k.hasData = false) : (createKey k v).value = .invalid ∧ (createKey k v).base64Value = [] := by
  unfold createKey
  unfold Key.hasData at hd
  cases hk : k.isBinary with
  | true =>
    rw [hk] at hd
    simp only [if_true] at hd ⊢
    simp only [hd]
    split <;> exact ⟨rfl, rfl⟩
  | false =>
    rw [hk] at hd
    simp only [Bool.false_eq_true, if_false] at hd ⊢
    simp only [hd]
    split <;> exact ⟨rfl, rfl⟩

theorem keyType_pair {k : Key} (h : KeyOK v k) : PairOK (keyParam v, keyTypeText v k) ∧ segRead (keyParam v, keyTypeText v k) = [(keyParamRead v, keyTypeText v k)] := by
  unfold keyParam keyParamRead keyTypeText
  by_cases hv : v = .v4_0
  · simp only [if_pos hv]
    cases ht : k.type with
    | x509 => exact pair_single (w := q! "application/x-x509-ca-cert") (by decide) (by decide) (by decide)
    | pgp => exact pair_single (w := q! "application/pgp-keys") (by decide) (by decide) (by decide)
    | custom => exact pair_single (by decide) (by decide) ((h.type ht).1.value ⟨by unfold Latin1; decide, by decide, by decide⟩)
  · simp only [if_neg hv]
    cases ht : k.type with
    | x509 => exact pair_single (w := q! "X509") (by decide) (by decide) (by decide)
    | pgp => exact pair_single (w := q! "PGP") (by decide) (by decide) (by decide)
    | custom => exact pair_single (by decide) (by decide) (h.type ht).1

theorem keyParam_ne (v : Version) : q! "encoding" ≠ keyParam v ∧ q! "encoding" ≠ keyParamRead v := by cases v <;> decide

theorem key_values {k : Key} (h : KeyOK v k) (k' : QString) : valuesOf (readPairs (keyPairs v k)) k' =
    if k.isBinary ∧ k' = q! "encoding" then [q! "b"] else if k' = keyParamRead v then [keyTypeText v k] else [] := by
  unfold keyPairs
  cases hk : k.isBinary with
  | true =>
    simp only [if_true, true_and]
    exact read_two (keyParam_ne v).1 (keyParam_ne v).2 seg_b (keyType_pair h).2 k'
  | false =>
    simp only [Bool.false_eq_true, if_false, false_and]
    exact read_one (keyType_pair h).2 k'

theorem key_read {k : Key} (h : KeyOK v k) (id : QString) : parseKey id (rdLine (q! "KEY") (keyVal k) (keyPairs v k)) = k.restored v id := by
  have hne : keyTypeText v k ≠ [] := by
    intro e
    have := (keyType_pair h).2
    rw [e] at this
    have h2 : segRead (keyParam v, []) ≠ [(keyParamRead v, [])] := by cases v <;> decide +kernel
    exact h2 this
  have h1 : (q! "encoding" ∈ (rdLine (q! "KEY") (keyVal k) (keyPairs v k)).parameterList) ↔ k.isBinary = true := by
    rw [rd_parameterList, key_values h]
    cases k.isBinary with
    | true => simp
    | false => simp [(keyParam_ne v).2]
  unfold parseKey
  simp only [h1]
  by_cases hv : v = .v4_0
  · subst hv
    have h2 : q! "type" ∉ (rdLine (q! "KEY") (keyVal k) (keyPairs .v4_0 k)).parameterList := by
      rw [rd_parameterList, key_values h, if_neg (fun h => absurd h.2 (by decide)), if_neg (by decide)]; simp
    have h3 : q! "mediatype" ∈ (rdLine (q! "KEY") (keyVal k) (keyPairs .v4_0 k)).parameterList := by
      rw [rd_parameterList, key_values h, if_neg (fun h => absurd h.2 (by decide)), if_pos (by decide)]; simp
    have h4 : (rdLine (q! "KEY") (keyVal k) (keyPairs .v4_0 k)).parameter (q! "type") = [] := by
      rw [rd_parameter, key_values h, if_neg (fun h => absurd h.2 (by decide)), if_neg (by decide)]; rfl
    have h5 : (rdLine (q! "KEY") (keyVal k) (keyPairs .v4_0 k)).parameter (q! "mediatype") = keyTypeText .v4_0 k := by
      rw [rd_parameter, key_values h, if_neg (fun h => absurd h.2 (by decide)), if_pos (by decide)]; rfl
    rw [if_neg h2, if_pos h3]
    simp only [h4, h5]
    have ht := h.type
    unfold Key.restored keyTypeText rdLine keyVal
    obtain ⟨i, b, t, ct, ty, ib⟩ := k
    simp only at *
    cases ty with
    | x509 => simp only [if_true]; rw [if_pos (by decide)]; cases ib <;> rfl
    | pgp => simp only [if_true]; rw [if_neg (by decide), if_pos (by decide)]; cases ib <;> rfl
    | custom =>
      have := (ht rfl).2
      simp only [if_true] at this ⊢
      rw [if_neg this.1, if_neg this.2]; cases ib <;> rfl
  · have hp : keyParamRead v = q! "type" := if_neg hv
    have h2 : q! "type" ∈ (rdLine (q! "KEY") (keyVal k) (keyPairs v k)).parameterList := by
      rw [rd_parameterList, key_values h, if_neg (fun h => absurd h.2 (by decide)), if_pos hp.symm]; simp
    have h4 : (rdLine (q! "KEY") (keyVal k) (keyPairs v k)).parameter (q! "type") = keyTypeText v k := by
      rw [rd_parameter, key_values h, if_neg (fun h => absurd h.2 (by decide)), if_pos hp.symm]; rfl
    rw [if_pos h2]
    simp only [h4]
    have ht := h.type
    unfold Key.restored keyTypeText rdLine keyVal
    obtain ⟨i, b, t, ct, ty, ib⟩ := k
    simp only [if_neg hv] at *
    cases ty with
    | x509 => simp only; rw [if_pos (by decide)]; cases ib <;> simp [Key.setBinaryData, Key.setTextData, QVariant.toByteArray, QVariant.toString]
    | pgp => simp only; rw [if_neg (by decide), if_pos (by decide)]; cases ib <;> simp [Key.setBinaryData, Key.setTextData, QVariant.toByteArray, QVariant.toString]
    | custom =>
      have := (ht rfl).2
      simp only; rw [if_neg this.1, if_neg this.2]; cases ib <;> simp [Key.setBinaryData, Key.setTextData, QVariant.toByteArray, QVariant.toString, hv]

theorem key_line {k : Key} (h : k.hasData = true → KeyOK v k) :
    (readBack (createKey k v) = if k.hasData then some (rdLine (q! "KEY") (keyVal k) (keyPairs v k)) else none) ∧ LineFine E.toCodecs (createKey k v) := by
  cases hd : k.hasData with
  | false =>
    obtain ⟨h1, h2⟩ := createKey_none (v := v) hd
    refine ⟨?_, .invalid _ h1 h2⟩
    unfold readBack
    rw [if_pos (.inl h1)]; rfl
  | true =>
    have hk := h hd
    rw [createKey_eq hd hk.binary]
    unfold Key.hasData at hd
    unfold keyVal keyPairs
    cases hb : k.isBinary with
    | true =>
      rw [hb] at hd
      simp only [if_true] at hd ⊢
      refine ⟨readBack_bytes (by decide) _ _, .good _ (good_bytes _ _ (nameGood_lit (by decide)) _ (by simpa using hd) _ ?_) (by simp [mkLine])⟩
      intro p hp
      rw [List.mem_singleton] at hp; subst hp; exact (keyType_pair hk).1
    | false =>
      rw [hb] at hd
      simp only [Bool.false_eq_true, if_false, if_true] at hd ⊢
      refine ⟨?_, fine_text _ (nameGood_lit (by decide)) (hk.text hb) ?_⟩
      · rw [readBack_text (by decide), if_neg (by simpa using hd)]
      · intro p hp
        rw [List.mem_singleton] at hp; subst hp; exact (keyType_pair hk).1

section
variable (hR : Carriable E v c) (ids : IdKind → Nat → QString) (s : RState)
include hR

theorem back_keys (hinj : ∀ i j, ids .key i = ids .key j → i = j) (h0 : s.c.keys = []) :
    (back E v ids c s).c.keys = (c.keys.filter Key.hasData).mapIdx (fun i x => x.restored v (ids .key (s.keys + i))) ∧
    (back E v ids c s).keys = s.keys + (c.keys.filter Key.hasData).length := by
  suffices h : ((back E v ids c s).c.keys, (back E v ids c s).keys) =
      ((c.keys.filter Key.hasData).mapIdx (fun i x => x.restored v (ids .key (s.keys + i))), s.keys + (c.keys.filter Key.hasData).length) from
    ⟨congrArg Prod.fst h, congrArg Prod.snd h⟩
  rw [back, comp_keys, sec_lines hR 14 (q! "KEY") rfl (by decide) (named_key v c), h0]
  show ((keyLines v c).filterMap readBack).foldl _ _ = _
  unfold keyLines
  rw [filterMap_readBack (g := fun k => rdLine (q! "KEY") (keyVal k) (keyPairs v k)) (P := Key.hasData) fun k hk => (key_line (E := E) (hR.keys k hk)).1]
  refine fold_states _ _ (fun pre => (pre.mapIdx (fun i (x : Key) => x.restored v (ids .key (s.keys + i))), s.keys + pre.length)) _ ?_
  intro pre k post e
  have hm : k ∈ c.keys.filter Key.hasData := by rw [e]; simp
  have hk := hR.keys k (List.mem_filter.1 hm).1 (List.mem_filter.1 hm).2
  have hf : findFirst Key.id (ids .key (s.keys + pre.length)) (pre.mapIdx fun i (x : Key) => x.restored v (ids .key (s.keys + i))) = none := by
    apply findFirst_none.2
    intro hm
    obtain ⟨x, hx, ex⟩ := List.mem_map.1 hm
    obtain ⟨i, hi, rfl⟩ := List.mem_mapIdx.1 hx
    have := hinj _ _ ex
    omega
  unfold keyAfter
  simp only [key_read hk]
  have hid : (k.restored v (ids .key (s.keys + pre.length))).id = ids .key (s.keys + pre.length) := rfl
  rw [hid, hf]
  simp only
  rw [List.mapIdx_append]
  simp [Nat.add_assoc]

theorem fine_key : Fine E (keyLines v c) := fine_map fun k hk => (key_line (hR.keys k hk)).2

end

/-! ### the first entry and the further ones -/

theorem fold_first {α β γ : Type} (d : γ) (isE : γ → Bool) (eq : γ → γ → Bool) (rd : β → γ) (g : α → β) (f : α → γ) (m : List α) (hd : isE d = true)
    (h : ∀ x ∈ m, rd (g x) = f x ∧ isE (f x) = false ∧ eq (f x) d = false) :
    (m.map g).foldl (fun (p : γ × List γ) l => if isE p.1 then (if eq (rd l) p.1 then p.1 else rd l, p.2) else (p.1, p.2 ++ [rd l])) (d, []) =
      ((m.map f).headD d, (m.map f).tail) := by
  refine fold_states _ g (fun pre => ((pre.map f).headD d, (pre.map f).tail)) m ?_
  intro pre x post e
  have hx := h x (by rw [e]; simp)
  cases pre with
  | nil => simp [hd, hx.1, hx.2.2]
  | cons y pre =>
    have hy := h y (by rw [e]; simp)
    simp [hx.1, hy.2.1]

/-! ### sounds -/

def soundVal (s : Sound) : QVariant := if s.isIntern then .bytes s.data else .str s.url
def soundPairs (s : Sound) : List (QString × QString) := if s.isIntern then [(q! "encoding", q! "b")] else [(q! "value", q! "URI")]

theorem sound_read {s : Sound} (h : s.isEmpty = false) : parseSound (rdLine (q! "SOUND") (soundVal s) (soundPairs s)) = s.restored ∧
    s.restored.isEmpty = false ∧ s.restored.eq {} = false := by
  obtain ⟨u, t, d, i⟩ := s
  cases i with
  | true =>
    refine ⟨?_, ?_, ?_⟩
    · unfold parseSound
      have h1 : q! "encoding" ∈ (rdLine (q! "SOUND") (soundVal ⟨u, t, d, true⟩) (soundPairs ⟨u, t, d, true⟩)).parameterList := by
        rw [rd_parameterList]; exact (by decide +kernel : valuesOf (readPairs [(q! "encoding", q! "b")]) (q! "encoding") ≠ [])
      simp only [if_pos h1]; rfl
    · simpa [Sound.isEmpty, Sound.restored] using h
    · rfl
  | false =>
    refine ⟨?_, ?_, ?_⟩
    · unfold parseSound
      have h1 : q! "encoding" ∉ (rdLine (q! "SOUND") (soundVal ⟨u, t, d, false⟩) (soundPairs ⟨u, t, d, false⟩)).parameterList := by
        rw [rd_parameterList]; exact (by decide +kernel : ¬ valuesOf (readPairs [(q! "value", q! "URI")]) (q! "encoding") ≠ [])
      have h2 : q! "value" ∈ (rdLine (q! "SOUND") (soundVal ⟨u, t, d, false⟩) (soundPairs ⟨u, t, d, false⟩)).parameterList := by
        rw [rd_parameterList]; exact (by decide +kernel : valuesOf (readPairs [(q! "value", q! "URI")]) (q! "value") ≠ [])
      have h3 : toLowerQ ((rdLine (q! "SOUND") (soundVal ⟨u, t, d, false⟩) (soundPairs ⟨u, t, d, false⟩)).parameter (q! "value")) = q! "uri" := by
        rw [rd_parameter]; exact (by decide +kernel : toLowerQ ((valuesOf (readPairs [(q! "value", q! "URI")]) (q! "value")).head?.getD []) = q! "uri")
      simp only [if_neg h1, h2, h3]; rfl
    · simpa [Sound.isEmpty, Sound.restored] using h
    · have : u ≠ [] := by simpa [Sound.isEmpty] using h
      simp [Sound.eq, Sound.restored, this]

theorem sound_line {s : Sound} (h : s.isEmpty = false → SoundOK v s) :
    (readBack (createSound s v) = if !s.isEmpty then some (rdLine (q! "SOUND") (soundVal s) (soundPairs s)) else none) ∧ LineFine E.toCodecs (createSound s v) := by
  cases he : s.isEmpty with
  | true =>
    have : createSound s v = { identifier := q! "SOUND" } := by
      unfold createSound
      obtain ⟨u, t, d, i⟩ := s
      cases i <;> simp [Sound.isEmpty] at he <;> simp [he]
    rw [this]
    refine ⟨?_, .invalid _ rfl rfl⟩
    unfold readBack
    rw [if_pos (.inl rfl)]; rfl
  | false =>
    have hs := h he
    obtain ⟨u, t, d, i⟩ := s
    cases i with
    | true =>
      have hv := hs.intern rfl
      subst hv
      have hd : d ≠ [] := by simpa [Sound.isEmpty] using he
      have : createSound ⟨u, t, d, true⟩ .v3_0 = mkLine (q! "SOUND") (.bytes d) [(q! "encoding", q! "b")] := by
        unfold createSound
        simp [hd]; rfl
      rw [this]
      exact ⟨readBack_bytes (by decide) _ _, .good _ (good_bytes _ _ (nameGood_lit (by decide)) _ hd _ (by simp)) (by simp [mkLine])⟩
    | false =>
      have hd : u ≠ [] := by simpa [Sound.isEmpty] using he
      have : createSound ⟨u, t, d, false⟩ v = mkLine (q! "SOUND") (.str u) [(q! "value", q! "URI")] := by
        unfold createSound
        simp [hd]; rfl
      rw [this]
      refine ⟨?_, fine_text _ (nameGood_lit (by decide)) (hs.url rfl) ?_⟩
      · rw [readBack_text (by decide), if_neg hd]; rfl
      · intro p hp
        rw [List.mem_singleton] at hp; subst hp; exact seg_uri.1

section
variable (hR : Carriable E v c) (ids : IdKind → Nat → QString) (s : RState)
include hR

theorem back_sounds (h0 : s.c.sound = {}) (h1 : s.c.extraSounds = []) :
    ((back E v ids c s).c.sound, (back E v ids c s).c.extraSounds) =
      ((if v = .v4_0 then [] else ((c.sound :: c.extraSounds).filter fun x => !x.isEmpty).map Sound.restored).headD {},
       (if v = .v4_0 then [] else ((c.sound :: c.extraSounds).filter fun x => !x.isEmpty).map Sound.restored).tail) := by
  rw [back, comp_sound, sec_lines hR 27 (q! "SOUND") rfl (by decide) (named_sound v c), h0, h1]
  show ((soundLines v c).filterMap readBack).foldl _ _ = _
  unfold soundLines
  by_cases hv : v = .v4_0
  · simp only [if_pos hv]; rfl
  · simp only [if_neg hv]
    change (((c.sound :: c.extraSounds).map fun s => createSound s v).filterMap readBack).foldl _ _ = _
    rw [filterMap_readBack (g := fun s => rdLine (q! "SOUND") (soundVal s) (soundPairs s)) (P := fun s => !s.isEmpty) fun x hx => (sound_line (E := E) (hR.sounds x hx)).1]
    refine fold_first {} Sound.isEmpty Sound.eq parseSound (fun s => rdLine (q! "SOUND") (soundVal s) (soundPairs s)) Sound.restored
      ((c.sound :: c.extraSounds).filter fun s => !s.isEmpty) rfl ?_
    intro x hx
    exact sound_read (by have := (List.mem_filter.1 hx).2; simpa using this)

theorem fine_sound : Fine E (soundLines v c) := by
  unfold soundLines
  refine fine_ite (fun _ => fine_nil) fun _ => ?_
  change Fine E ((c.sound :: c.extraSounds).map fun s => createSound s v)
  exact fine_map fun x hx => (sound_line (hR.sounds x hx)).2

end

/-! ### pictures -/

def picVal (E : ToolEnv) (p : Picture) : QVariant := if p.isIntern then .bytes (p.rawBytes E) else .str p.url
def picPairs (v : Version) (p : Picture) : List (QString × QString) :=
  if p.isIntern then [(q! "encoding", q! "b"), (q! "type", p.type)] else if v = .v4_0 then [] else [(q! "value", q! "URI")]

theorem picture_read {id : QString} {p : Picture} (he : p.isEmpty = false) (h : PictureOK E v p) :
    parsePicture (rdLine id (picVal E p) (picPairs v p)) = some (p.restored E) ∧ (p.restored E).isEmpty = false ∧ (p.restored E).eq E.toQtEnv {} = false := by
  cases hi : p.isIntern with
  | true =>
    obtain ⟨h1, h2, h3⟩ := h.intern hi
    have hr : p.restored E = { type := p.type, rawData := p.rawBytes E, isIntern := true } := by unfold Picture.restored; rw [if_pos hi]
    have hv : picVal E p = .bytes (p.rawBytes E) := if_pos hi
    have hp : picPairs v p = [(q! "encoding", q! "b"), (q! "type", p.type)] := if_pos hi
    rw [hr, hv, hp]
    have hval := read_two (w := q! "b") (w' := p.type) (show q! "encoding" ≠ q! "type" by decide) (show q! "encoding" ≠ q! "type" by decide) seg_b (pair_single (by decide) (by decide) h3).2
    refine ⟨?_, by simp [Picture.isEmpty, h2], rfl⟩
    have e1 : q! "encoding" ∈ (rdLine id (.bytes (p.rawBytes E)) [(q! "encoding", q! "b"), (q! "type", p.type)]).parameterList := by
      rw [rd_parameterList, hval, if_pos rfl]; simp
    have e2 : q! "type" ∈ (rdLine id (.bytes (p.rawBytes E)) [(q! "encoding", q! "b"), (q! "type", p.type)]).parameterList := by
      rw [rd_parameterList, hval, if_neg (by decide), if_pos rfl]; simp
    have e3 : (rdLine id (.bytes (p.rawBytes E)) [(q! "encoding", q! "b"), (q! "type", p.type)]).parameter (q! "type") = p.type := by
      rw [rd_parameter, hval, if_neg (by decide), if_pos rfl]; rfl
    have e4 : (rdLine id (.bytes (p.rawBytes E)) [(q! "encoding", q! "b"), (q! "type", p.type)]).parameterList.isEmpty = false := by
      rw [Bool.eq_false_iff]; intro e; rw [List.isEmpty_iff] at e; rw [e] at e1; cases e1
    unfold parsePicture
    simp only [e4, Bool.false_eq_true, if_false, if_pos e1, if_pos e2, e3]; rfl
  | false =>
    have hu : p.url ≠ [] := by
      intro e; simp [Picture.isEmpty, hi, e] at he
    obtain ⟨h1, h2⟩ := h.url hi
    have hr : p.restored E = { url := p.url } := by unfold Picture.restored; rw [if_neg (by simp [hi])]
    have hv : picVal E p = .str p.url := if_neg (by simp [hi])
    rw [hr, hv]
    refine ⟨?_, by simp [Picture.isEmpty, hu], by simp [Picture.eq, hu]⟩
    unfold picPairs
    rw [if_neg (by simp [hi])]
    by_cases hv4 : v = .v4_0
    · rw [if_pos hv4]
      unfold parsePicture
      have e1 : (rdLine id (.str p.url) []).parameterList.isEmpty = true := rfl
      simp only [e1, if_true]
      have e2 : (rdLine id (.str p.url) []).value = .str p.url := rfl
      simp only [e2, QVariant.toByteArray, QVariant.toString, h2 hv4]; rfl
    · rw [if_neg hv4]
      have hval := read_one seg_uri.2
      have e1 : q! "encoding" ∉ (rdLine id (.str p.url) [(q! "value", q! "URI")]).parameterList := by
        rw [rd_parameterList, hval, if_neg (by decide)]; simp
      have e2 : q! "value" ∈ (rdLine id (.str p.url) [(q! "value", q! "URI")]).parameterList := by
        rw [rd_parameterList, hval, if_pos rfl]; simp
      have e3 : toLowerQ ((rdLine id (.str p.url) [(q! "value", q! "URI")]).parameter (q! "value")) = q! "uri" := by
        rw [rd_parameter, hval, if_pos rfl]; decide
      have e4 : (rdLine id (.str p.url) [(q! "value", q! "URI")]).parameterList.isEmpty = false := by
        rw [Bool.eq_false_iff]; intro e; rw [List.isEmpty_iff] at e; rw [e] at e2; cases e2
      unfold parsePicture
      simp only [e4, Bool.false_eq_true, if_false, if_neg e1, e2, e3]; rfl

theorem pictureLines_eq (id : QString) (p : Picture) (m : List Picture) : pictureLines E v id p m =
    (p :: m).map fun x => if v = .v4_0 then createPicturev4 E id x else createPicture E id x v := by
  unfold pictureLines
  split <;> simp [*]

theorem picture_line {id : QString} (hn : nameLit id = true) (hg : NameGood id) {p : Picture} (h : if v = .v4_0 then PictureOK E v p else p.isEmpty = false → PictureOK E v p) :
    (readBack (if v = .v4_0 then createPicturev4 E id p else createPicture E id p v) = if !p.isEmpty then some (rdLine id (picVal E p) (picPairs v p)) else none) ∧
      LineFine E.toCodecs (if v = .v4_0 then createPicturev4 E id p else createPicture E id p v) := by
  by_cases hv : v = .v4_0
  · rw [if_pos hv] at h ⊢
    have hi : p.isIntern = false := by
      cases hi : p.isIntern with
      | false => rfl
      | true => have := (h.intern hi).1; rw [hv] at this; cases this
    have e1 : createPicturev4 E id p = mkLine id (.str p.url) [] := by unfold createPicturev4; rw [if_neg (by simp [hi])]; exact textLine_eq _ _
    have e2 : picVal E p = .str p.url := if_neg (by simp [hi])
    have e3 : picPairs v p = [] := by unfold picPairs; rw [if_neg (by simp [hi]), if_pos hv]
    rw [e1, e2, e3]
    refine ⟨?_, fine_text _ hg (h.url hi).1 (by simp)⟩
    rw [readBack_text hn]
    by_cases hu : p.url = [] <;> simp [Picture.isEmpty, hi, hu]
  · rw [if_neg hv] at h ⊢
    cases he : p.isEmpty with
    | true =>
      have : createPicture E id p v = { identifier := id } := by unfold createPicture; simp [he]
      rw [this]
      refine ⟨?_, .invalid _ rfl rfl⟩
      unfold readBack
      rw [if_pos (.inl rfl)]; rfl
    | false =>
      have hp := h he
      cases hi : p.isIntern with
      | true =>
        obtain ⟨h1, h2, h3⟩ := hp.intern hi
        subst h1
        have e1 : createPicture E id p .v3_0 = mkLine id (.bytes (p.rawBytes E)) [(q! "encoding", q! "b"), (q! "type", p.type)] := by
          unfold createPicture; simp only [he, hi]; rfl
        have e2 : picVal E p = .bytes (p.rawBytes E) := if_pos hi
        have e3 : picPairs .v3_0 p = [(q! "encoding", q! "b"), (q! "type", p.type)] := if_pos hi
        rw [e1, e2, e3]
        refine ⟨readBack_bytes hn _ _, .good _ (good_bytes _ _ hg _ h2 _ ?_) (by simp [mkLine])⟩
        intro q hq
        rw [List.mem_singleton] at hq; subst hq; exact (pair_single (by decide) (by decide) h3).1
      | false =>
        have hu : p.url ≠ [] := by
          intro e; simp [Picture.isEmpty, hi, e] at he
        have e1 : createPicture E id p v = mkLine id (.str p.url) [(q! "value", q! "URI")] := by
          unfold createPicture; simp only [he, hi]; rfl
        have e2 : picVal E p = .str p.url := if_neg (by simp [hi])
        have e3 : picPairs v p = [(q! "value", q! "URI")] := by unfold picPairs; rw [if_neg (by simp [hi]), if_neg hv]
        rw [e1, e2, e3]
        refine ⟨?_, fine_text _ hg (hp.url hi).1 ?_⟩
        · rw [readBack_text hn, if_neg hu]; rfl
        · intro q hq
          rw [List.mem_singleton] at hq; subst hq; exact seg_uri.1

theorem pictures_back {id : QString} (hn : nameLit id = true) (hg : NameGood id) (p : Picture) (m : List Picture)
    (h : ∀ x ∈ p :: m, if v = .v4_0 then PictureOK E v x else x.isEmpty = false → PictureOK E v x) :
    ((pictureLines E v id p m).filterMap readBack).foldl (pictureAfter E) ({}, []) =
      ((((p :: m).filter fun x => !x.isEmpty).map (Picture.restored E)).headD {}, (((p :: m).filter fun x => !x.isEmpty).map (Picture.restored E)).tail) ∧
    (∀ l ∈ (pictureLines E v id p m).filterMap readBack, (parsePicture l).isNone = false) ∧ Fine E (pictureLines E v id p m) := by
  have ok : ∀ x ∈ (p :: m).filter fun x => !x.isEmpty, x.isEmpty = false ∧ PictureOK E v x := by
    intro x hx
    rw [List.mem_filter] at hx
    have he : x.isEmpty = false := by simpa using hx.2
    have := h x hx.1
    split at this
    · exact ⟨he, this⟩
    · exact ⟨he, this he⟩
  have hf : (pictureLines E v id p m).filterMap readBack = ((p :: m).filter fun x => !x.isEmpty).map fun x => rdLine id (picVal E x) (picPairs v x) := by
    rw [pictureLines_eq]
    exact filterMap_readBack fun x hx => (picture_line hn hg (h x hx)).1
  refine ⟨?_, ?_, ?_⟩
  · rw [hf]
    refine Eq.trans ?_ (fold_first {} Picture.isEmpty (Picture.eq E.toQtEnv) (fun l => (parsePicture l).getD {}) (fun x => rdLine id (picVal E x) (picPairs v x)) (Picture.restored E) _ rfl ?_)
    · have key : ∀ (m : List Picture), (∀ x ∈ m, x.isEmpty = false ∧ PictureOK E v x) → ∀ st, (m.map fun x => rdLine id (picVal E x) (picPairs v x)).foldl (pictureAfter E) st =
          (m.map fun x => rdLine id (picVal E x) (picPairs v x)).foldl (fun (p : Picture × List Picture) l => if p.1.isEmpty then (if ((parsePicture l).getD {}).eq E.toQtEnv p.1 then p.1 else (parsePicture l).getD {}, p.2) else (p.1, p.2 ++ [(parsePicture l).getD {}])) st := by
        intro m
        induction m with
        | nil => intro _ st; rfl
        | cons x m ih =>
          intro hm st
          rw [List.map_cons, List.foldl_cons, List.foldl_cons, ih fun y hy => hm y (by simp [hy])]
          congr 1
          unfold pictureAfter
          have := (picture_read (id := id) (hm x (by simp)).1 (hm x (by simp)).2).1
          rw [this]; rfl
      exact key _ ok _
    · intro x hx
      have := picture_read (id := id) (ok x hx).1 (ok x hx).2
      refine ⟨?_, this.2⟩
      rw [this.1]; rfl
  · rw [hf]
    intro l hl
    obtain ⟨x, hx, rfl⟩ := List.mem_map.1 hl
    rw [(picture_read (id := id) (ok x hx).1 (ok x hx).2).1]; rfl
  · rw [pictureLines_eq]
    exact fine_map fun x hx => (picture_line hn hg (h x hx)).2

section
variable (hR : Carriable E v c) (ids : IdKind → Nat → QString) (s : RState)
include hR

theorem back_logos (h0 : s.c.logo = {}) (h1 : s.c.extraLogos = []) :
    ((back E v ids c s).c.logo, (back E v ids c s).c.extraLogos) =
      ((((c.logo :: c.extraLogos).filter fun x => !x.isEmpty).map (Picture.restored E)).headD {},
       (((c.logo :: c.extraLogos).filter fun x => !x.isEmpty).map (Picture.restored E)).tail) := by
  rw [back, comp_logo, sec_lines hR 15 (q! "LOGO") rfl (by decide) (named_pictures E v (readable_pictures hR).1), h0, h1]
  exact (pictures_back (by decide) (nameGood_lit (by decide)) _ _ fun x hx => hR.pictures x (List.mem_append_left _ hx)).1

theorem back_photos (h0 : s.c.photo = {}) (h1 : s.c.extraPhotos = []) :
    ((back E v ids c s).c.photo, (back E v ids c s).c.extraPhotos) =
      ((((c.photo :: c.extraPhotos).filter fun x => !x.isEmpty).map (Picture.restored E)).headD {},
       (((c.photo :: c.extraPhotos).filter fun x => !x.isEmpty).map (Picture.restored E)).tail) := by
  rw [back, comp_photo, sec_lines hR 22 (q! "PHOTO") rfl (by decide) (named_pictures E v (readable_pictures hR).2), h0, h1]
  exact (pictures_back (by decide) (nameGood_lit (by decide)) _ _ fun x hx => hR.pictures x (List.mem_append_right _ hx)).1

theorem fine_logo : Fine E (logoLines E v c) :=
  (pictures_back (by decide) (nameGood_lit (by decide)) _ _ fun x hx => hR.pictures x (List.mem_append_left _ hx)).2.2
theorem fine_photo : Fine E (photoLines E v c) :=
  (pictures_back (by decide) (nameGood_lit (by decide)) _ _ fun x hx => hR.pictures x (List.mem_append_right _ hx)).2.2

/-- reading the written card never reads outside a picture's value -/
theorem back_ub (h0 : s.ub = false) : (back E v ids c s).ub = false := by
  rw [back, comp_ub, h0]
  have key : ∀ m : List VCardLine, (∀ l ∈ m, (parsePicture l).isNone = false) → m.foldl (fun b l => b || (parsePicture l).isNone) false = false := by
    intro m
    induction m with
    | nil => intro _; rfl
    | cons l m ih => intro h; rw [List.foldl_cons, h l (by simp)]; exact ih fun x hx => h x (by simp [hx])
  apply key
  intro l hl
  obtain ⟨hm, ht⟩ := List.mem_filter.1 hl
  simp only [decide_eq_true_eq, List.mem_cons, List.not_mem_nil, or_false] at ht
  rcases ht with ht | ht
  · have : l ∈ (seen (contactLines E v false c)).filter (fun r => tagOf r ∈ [Tag.logo]) := List.mem_filter.2 ⟨hm, by simp [ht]⟩
    rw [sec_lines hR 15 (q! "LOGO") rfl (by decide) (named_pictures E v (readable_pictures hR).1)] at this
    exact (pictures_back (by decide) (nameGood_lit (by decide)) _ _ fun x hx => hR.pictures x (List.mem_append_left _ hx)).2.1 l this
  · have : l ∈ (seen (contactLines E v false c)).filter (fun r => tagOf r ∈ [Tag.photo]) := List.mem_filter.2 ⟨hm, by simp [ht]⟩
    rw [sec_lines hR 22 (q! "PHOTO") rfl (by decide) (named_pictures E v (readable_pictures hR).2)] at this
    exact (pictures_back (by decide) (nameGood_lit (by decide)) _ _ fun x hx => hR.pictures x (List.mem_append_right _ hx)).2.1 l this

end
end KC
