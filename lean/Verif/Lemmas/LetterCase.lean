import Verif.Spec.LetterCase
import Verif.Lemmas.CardFields6
import Verif.Props.C55
/- Helper lemmas for C84: the letter case of names. -/
namespace KC
open Spec

theorem lowerB_eq_lowerByte (c : UInt8) : lowerB c = lowerByte c := rfl

theorem toLowerB_eq (s : QByteArray) : toLowerB s = s.map lowerByte := rfl

/-- lower case of Latin-1 text and bytes (letters beyond ASCII are lowered in texts only) -/
theorem lowerQ_lowerByte (c : UInt8) : lowerQ (UInt16.ofNat c.toNat) = lowerQ (UInt16.ofNat (lowerByte c).toNat) := by
  have key : ∀ n : Fin 256, lowerQ (UInt16.ofNat (UInt8.ofNat n.val).toNat) = lowerQ (UInt16.ofNat (lowerByte (UInt8.ofNat n.val)).toNat) := by decide +kernel
  have := key ⟨c.toNat, c.toNat_lt⟩
  simpa using this

theorem toLowerQ_sameLetters {s t : QByteArray} (h : SameLetters s t) : toLowerQ (fromLatin1 s) = toLowerQ (fromLatin1 t) := by
  have e : ∀ u : QByteArray, toLowerQ (fromLatin1 u) = toLowerQ (fromLatin1 (u.map lowerByte)) := by
    intro u
    unfold toLowerQ fromLatin1
    rw [List.map_map, List.map_map, List.map_map]
    apply List.map_congr_left
    intro c _
    exact lowerQ_lowerByte c
  rw [e s, e t, h]

/-! ### one line -/

/-- Two states of the scanner that differ in the spelling of names only. -/
structure SameScan (p q : PL) : Prop where
  st : p.st = q.st
  tok : p.tok = q.tok
  key : toLowerB p.key = toLowerB q.key
  group : p.line.group = q.line.group
  params : p.line.params = q.line.params
  value : p.line.value = q.line.value
  enc : p.enc = q.enc
  charset : p.charset = q.charset

theorem SameScan.add {p q : PL} (h : SameScan p q) (k v : QByteArray) : SameScan (p.addParameter k v) (q.addParameter k v) where
  st := h.st
  tok := h.tok
  key := h.key
  group := h.group
  params := by simp only [PL.addParameter, VCardLine.addParameter, h.params]
  value := h.value
  enc := by simp only [PL.addParameter, h.enc]
  charset := by simp only [PL.addParameter, h.charset]

theorem SameScan.step {p q : PL} (h : SameScan p q) (hs : p.st ≠ .initial) (c : UInt8) : SameScan (p.step c) (q.step c) := by
  unfold PL.step
  rw [← h.st, ← h.tok, ← h.key]
  cases hp : p.st with
  | initial => exact absurd hp hs
  | paramKey =>
    simp only
    split
    · have := h.add (if toLowerB p.tok = b! "quoted-printable" ∨ toLowerB p.tok = b! "base64" then b! "encoding" else b! "type") p.tok
      exact { this with st := rfl, tok := rfl, key := rfl }
    · split
      · exact { h with st := rfl, tok := rfl, key := rfl }
      · exact { h with st := rfl, tok := rfl, key := h.key }
  | quotedValue =>
    simp only
    split
    · have := h.add (toLowerB p.key) p.tok
      exact { this with st := rfl, tok := rfl, key := h.key }
    · exact { h with st := rfl, tok := rfl, key := h.key }
  | paramValue =>
    simp only
    split
    · have := h.add (toLowerB p.key) p.tok
      exact { this with st := rfl, tok := rfl, key := h.key }
    · split
      · exact { h with st := rfl, tok := rfl, key := h.key }
      · exact { h with st := rfl, tok := rfl, key := h.key }
  | afterParamValue =>
    simp only
    split
    · exact { h with st := rfl, tok := rfl, key := h.key }
    · split
      · exact { h with st := rfl, tok := rfl, key := h.key }
      · split
        · exact { h with st := rfl, tok := rfl, key := h.key }
        · exact { h with st := rfl, tok := rfl, key := h.key }
  | value => exact h

/-- scanning bytes that do not start the value -/
theorem scan_through (p : PL) (a b : QByteArray) (h : ∀ i ≤ a.length, ((a.take i).foldl PL.step p).st ≠ .value) :
    PL.scan p (a ++ b) = PL.scan (a.foldl PL.step p) b := by
  induction a generalizing p with
  | nil => rfl
  | cons c a ih =>
    rw [List.cons_append, PL.scan]
    have h1 := h 1 (by simp)
    simp only [List.take_succ_cons, List.take_zero, List.foldl_cons, List.foldl_nil] at h1
    rw [if_neg h1, List.foldl_cons]
    apply ih
    intro i hi
    have := h (i + 1) (by simp; omega)
    simpa using this

theorem name_scan (n : QByteArray) (hn : ∀ c ∈ n, c ≠ c! ':' ∧ c ≠ c! ';' ∧ c ≠ c! '.') (p : PL) (hp : p.st = .initial) :
    n.foldl PL.step p = { p with tok := p.tok ++ n } := by
  induction n generalizing p with
  | nil => simp
  | cons c n ih =>
    have hc := hn c (by simp)
    have e : p.step c = { p with tok := p.tok ++ [c] } := by simp [PL.step, hp, hc.1, hc.2.1, hc.2.2]
    rw [List.foldl_cons, e, ih (fun x hx => hn x (List.mem_cons_of_mem _ hx)) { p with tok := p.tok ++ [c] } hp]
    simp

theorem key_scan (k : QByteArray) (hk : ∀ c ∈ k, c ≠ c! ':' ∧ c ≠ c! ';' ∧ c ≠ c! '=') (p : PL) (hp : p.st = .paramKey) :
    k.foldl PL.step p = { p with tok := p.tok ++ k } := by
  induction k generalizing p with
  | nil => simp
  | cons c k ih =>
    have hc := hk c (by simp)
    have e : p.step c = { p with tok := p.tok ++ [c] } := by simp [PL.step, hp, hc.1, hc.2.1, hc.2.2]
    rw [List.foldl_cons, e, ih (fun x hx => hk x (List.mem_cons_of_mem _ hx)) { p with tok := p.tok ++ [c] } hp]
    simp

theorem plain_scan (v : QByteArray) (hv : ∀ c ∈ v, c ≠ c! ':' ∧ c ≠ c! ';' ∧ c ≠ c! '"') (p : PL) (hp : p.st = .paramValue) : (v.foldl PL.step p).st = .paramValue := by
  induction v generalizing p with
  | nil => exact hp
  | cons c v ih =>
    have hc := hv c (by simp)
    rw [List.foldl_cons]
    apply ih fun x hx => hv x (List.mem_cons_of_mem _ hx)
    unfold PL.step
    rw [hp]
    simp only [hc.1, hc.2.1, hc.2.2, false_or, and_false, if_false]
    split <;> rfl

theorem quoted_scan (w : QByteArray) (hw : c! '"' ∉ w) (p : PL) (hp : p.st = .quotedValue) : (w.foldl PL.step p).st = .quotedValue := by
  induction w generalizing p with
  | nil => exact hp
  | cons c w ih =>
    have hc : c ≠ c! '"' := fun e => hw (by simp [e])
    rw [List.foldl_cons]
    apply ih fun h => hw (List.mem_cons_of_mem _ h)
    unfold PL.step
    rw [hp]
    simp only [hc, false_or, if_false]
    split <;> rfl

/-- behind the value of a parameter -/
theorem value_scan (v : QByteArray) (hv : ParameterText v) (p : PL) (hp : p.st = .paramValue) (ht : p.tok = []) :
    (∀ i ≤ v.length, ((v.take i).foldl PL.step p).st ≠ .value ∧ ((v.take i).foldl PL.step p).st ≠ .initial) ∧
    ((v.foldl PL.step p).st = .paramValue ∨ (v.foldl PL.step p).st = .afterParamValue) := by
  rcases hv with hv | ⟨w, rfl, hw⟩
  · have := plain_scan v hv p hp
    refine ⟨fun i _ => ?_, .inl this⟩
    have := plain_scan (v.take i) (fun c hc => hv c (List.mem_of_mem_take hc)) p hp
    rw [this]
    simp
  · have e0 : p.step (c! '"') = { p with st := .quotedValue, tok := [] } := by simp [PL.step, hp, ht]
    have hq : ∀ u, (c! '"' ∉ u) → ((c! '"' :: u).foldl PL.step p).st = .quotedValue := by
      intro u hu
      rw [List.foldl_cons, e0]
      exact quoted_scan u hu _ rfl
    have hend : ((c! '"' :: w ++ [c! '"']).foldl PL.step p).st = .afterParamValue := by
      rw [List.foldl_append, List.foldl_cons, List.foldl_nil]
      have := hq w hw
      generalize (c! '"' :: w).foldl PL.step p = r at this
      unfold PL.step
      rw [this]
      simp
    refine ⟨fun i hi => ?_, .inr hend⟩
    cases i with
    | zero => simp [hp]
    | succ i =>
      rw [List.cons_append, List.take_succ_cons]
      by_cases h : i ≤ w.length
      · rw [List.take_append_of_le_length h, hq _ fun hm => hw (List.mem_of_mem_take hm)]
        simp
      · rw [List.take_of_length_le (by simp; omega), ← List.cons_append, hend]
        simp

theorem SameScan.fold {p q : PL} (h : SameScan p q) (v : QByteArray) (hs : ∀ i ≤ v.length, ((v.take i).foldl PL.step p).st ≠ .initial) :
    SameScan (v.foldl PL.step p) (v.foldl PL.step q) := by
  induction v generalizing p q with
  | nil => exact h
  | cons c v ih =>
    rw [List.foldl_cons, List.foldl_cons]
    apply ih (h.step (by simpa using hs 0 (by simp)) c)
    intro i hi
    have := hs (i + 1) (by simp; omega)
    simpa using this

/-- Both scanners are at the end of the name or of a parameter. -/
structure ScanReady (s t : PL) : Prop where
  semi : SameScan (s.step (c! ';')) (t.step (c! ';'))
  key : (s.step (c! ';')).st = .paramKey
  tok : (s.step (c! ';')).tok = []
  colon : SameScan (s.step (c! ':')) (t.step (c! ':'))
  value : (s.step (c! ':')).st = .value

theorem SameScan.ready {p q : PL} (h : SameScan p q) (hs : p.st = .paramValue ∨ p.st = .afterParamValue) : ScanReady p q where
  semi := h.step (by rcases hs with e | e <;> rw [e] <;> simp) _
  key := by rcases hs with e | e <;> simp [PL.step, e]
  tok := by rcases hs with e | e <;> simp [PL.step, e]
  colon := h.step (by rcases hs with e | e <;> rw [e] <;> simp) _
  value := by rcases hs with e | e <;> simp [PL.step, e]

theorem name_ready (n m : QByteArray) : ScanReady { st := .initial, tok := n } { st := .initial, tok := m } where
  semi := ⟨rfl, rfl, rfl, rfl, rfl, rfl, rfl, rfl⟩
  key := rfl
  tok := rfl
  colon := ⟨rfl, rfl, rfl, rfl, rfl, rfl, rfl, rfl⟩
  value := rfl

/-- The result of scanning two lines that differ in the spelling of names only. -/
theorem params_scan (ps qs : List (QByteArray × QByteArray)) (value : QByteArray) (h : List.Forall₂ (fun p q => SameLetters p.1 q.1 ∧ p.2 = q.2) ps qs)
    (hp : ∀ p ∈ ps, (∀ c ∈ p.1, c ≠ c! ':' ∧ c ≠ c! ';' ∧ c ≠ c! '=') ∧ ParameterText p.2)
    (hq : ∀ p ∈ qs, (∀ c ∈ p.1, c ≠ c! ':' ∧ c ≠ c! ';' ∧ c ≠ c! '='))
    (s t : PL) (hst : ScanReady s t) :
    ∃ s' t', PL.scan s (ps.flatMap (fun p => c! ';' :: p.1 ++ c! '=' :: p.2) ++ c! ':' :: value) = (s', some value) ∧
      PL.scan t (qs.flatMap (fun p => c! ';' :: p.1 ++ c! '=' :: p.2) ++ c! ':' :: value) = (t', some value) ∧ SameScan s' t' := by
  induction h generalizing s t with
  | nil =>
    refine ⟨s.step (c! ':'), t.step (c! ':'), ?_, ?_, hst.colon⟩
    · rw [List.flatMap_nil, List.nil_append, PL.scan, if_pos hst.value]
    · rw [List.flatMap_nil, List.nil_append, PL.scan, if_pos (hst.colon.st ▸ hst.value)]
  | @cons a b ps qs hab _ ih =>
    obtain ⟨ka, v⟩ := a
    obtain ⟨kb, v'⟩ := b
    obtain ⟨hk, hv⟩ := hab
    simp only at hk hv
    subst hv
    obtain ⟨ha, hv⟩ := hp _ (List.mem_cons_self)
    have hb := hq _ (List.mem_cons_self)
    simp only at ha hb hv
    have one : ∀ (r : PL) (k rest : QByteArray), (∀ c ∈ k, c ≠ c! ':' ∧ c ≠ c! ';' ∧ c ≠ c! '=') → (r.step (c! ';')).st = .paramKey → (r.step (c! ';')).tok = [] →
        PL.scan r (c! ';' :: k ++ c! '=' :: v ++ rest) = PL.scan (v.foldl PL.step { r.step (c! ';') with key := k, tok := [], st := .paramValue }) rest := by
      intro r k rest hk h1 h2
      rw [List.append_assoc, List.cons_append, PL.scan, if_neg (by rw [h1]; simp)]
      generalize r.step (c! ';') = x at h1 h2 ⊢
      have e1 : k.foldl PL.step x = { x with tok := k } := by rw [key_scan k hk _ h1, h2]; rfl
      have e2 : PL.step { x with tok := k } (c! '=') = { x with key := k, tok := [], st := .paramValue } := by
        unfold PL.step
        simp only [h1]
        rfl
      have hvs := (value_scan v hv { x with key := k, tok := [], st := .paramValue } rfl rfl).1
      rw [scan_through, e1, List.cons_append, PL.scan, e2, if_neg (by simp), scan_through]
      · exact fun i hi => (hvs i hi).1
      · intro i hi
        rw [key_scan _ (fun c hc => hk c (List.mem_of_mem_take hc)) _ h1]
        simp [h1]
    rw [List.flatMap_cons, List.flatMap_cons, List.append_assoc (c! ';' :: (ka, v).1 ++ c! '=' :: (ka, v).2) _ _,
      List.append_assoc (c! ';' :: (kb, v).1 ++ c! '=' :: (kb, v).2) _ _, one s ka _ ha hst.key hst.tok,
      one t kb _ hb (hst.semi.st ▸ hst.key) (hst.semi.tok ▸ hst.tok)]
    have hvs := value_scan v hv { s.step (c! ';') with key := ka, tok := [], st := .paramValue } rfl rfl
    have hss : SameScan { s.step (c! ';') with key := ka, tok := [], st := .paramValue } { t.step (c! ';') with key := kb, tok := [], st := .paramValue } :=
      { hst.semi with st := rfl, tok := rfl, key := hk }
    exact ih (fun p hp' => hp p (List.mem_cons_of_mem _ hp')) (fun p hp' => hq p (List.mem_cons_of_mem _ hp')) _ _
      ((hss.fold v fun i hi => (hvs.1 i hi).2).ready hvs.2)

/-- Lines that are read in the same way. -/
structure SameRead (l m : VCardLine) : Prop where
  name : toLowerQ l.identifier = toLowerQ m.identifier
  group : l.group = m.group
  params : l.params = m.params
  value : l.value = m.value
  grouped : l.group ≠ [] → l.identifier = m.identifier
  own : startsWith (q! "x-") (toLowerQ l.identifier) = true → customKey l = customKey m

theorem SameRead.refl (l : VCardLine) : SameRead l l := ⟨rfl, rfl, rfl, rfl, fun _ => rfl, fun _ => rfl⟩

theorem SameScan.decode {E : Codecs} {p q : PL} (h : SameScan p q) (v : QByteArray) :
    (p.decodeValue E v).group = (q.decodeValue E v).group ∧ (p.decodeValue E v).params = (q.decodeValue E v).params ∧ (p.decodeValue E v).value = (q.decodeValue E v).value := by
  unfold PL.decodeValue
  rw [← h.enc, ← h.charset]
  simp only
  split
  · split <;> exact ⟨h.group, h.params, rfl⟩
  · split <;> exact ⟨h.group, h.params, rfl⟩

theorem spelled_name (a : SpelledProperty) (h : a.Wellformed) (p : WrittenProperty) (e : p.unfolded = a.line) : p.name = a.name ∧ c! '.' ∉ p.head := by
  have hsep : ∃ c r, a.params.flatMap (fun p => c! ';' :: p.1 ++ c! '=' :: p.2) ++ c! ':' :: a.value = c :: r ∧ (c = c! ':' ∨ c = c! ';') := by
    cases a.params with
    | nil => exact ⟨_, _, rfl, .inl rfl⟩
    | cons x t => exact ⟨_, _, rfl, .inr rfl⟩
  obtain ⟨c, r, hr, hc⟩ := hsep
  have hl : a.line = a.name ++ c :: r := by unfold SpelledProperty.line; rw [List.append_assoc, hr]
  have hhead : p.head = a.name := by
    unfold WrittenProperty.head
    rw [e, hl, List.takeWhile_append_of_pos (fun x hx => by have := h.name x hx; simp [this.1, this.2.1]), List.takeWhile_cons_of_neg (by rcases hc with rfl | rfl <;> simp),
      List.append_nil]
  have hdot : c! '.' ∉ p.head := by rw [hhead]; exact fun hm => (h.name _ hm).2.2 rfl
  refine ⟨?_, hdot⟩
  unfold WrittenProperty.name
  rw [if_pos]
  · rw [takeWhile_self _ _ fun x hx => by
      simp only [ne_eq, decide_not, Bool.not_eq_true', decide_eq_false_iff_not]
      rintro rfl
      exact hdot (List.mem_reverse.1 hx), List.reverse_reverse, hhead]
  · rw [e, hl]
    rcases hc with rfl | rfl
    · exact .inl (by simp)
    · exact .inr (by simp)

theorem lower_no_special {n m : QByteArray} (h : SameLetters n m) (c : UInt8) (hc : lowerByte c = c) (hc' : ∀ d, lowerByte d = c → d = c) (hn : c ∉ n) : c ∉ m := by
  intro hm
  have : c ∈ m.map lowerByte := List.mem_map.2 ⟨c, hm, hc⟩
  rw [← show n.map lowerByte = m.map lowerByte from h] at this
  obtain ⟨d, hd, e⟩ := List.mem_map.1 this
  rw [hc' d e] at hd
  exact hn hd

theorem lowerByte_only (c : UInt8) (hc : ¬ (97 ≤ c.toNat ∧ c.toNat ≤ 122)) (d : UInt8) (e : lowerByte d = c) : d = c := by
  unfold lowerByte at e
  split at e
  · rename_i h
    exfalso
    apply hc
    rw [← e]
    have h1 : 65 ≤ d.toNat := UInt8.le_iff_toNat_le.1 h.1
    have h2 : d.toNat ≤ 90 := UInt8.le_iff_toNat_le.1 h.2
    rw [UInt8.toNat_add]
    have : (32 : UInt8).toNat = 32 := rfl
    omega
  · exact e

theorem Spec.SpelledProperty.OtherCase.wellformed {a b : SpelledProperty} (h : a.OtherCase b) (ha : a.Wellformed) : b.Wellformed where
  name := by
    have hno : ∀ c : UInt8, (c = c! ':' ∨ c = c! ';' ∨ c = c! '.') → c ∉ b.name := by
      intro c hc
      have hx : ¬ (97 ≤ c.toNat ∧ c.toNat ≤ 122) ∧ lowerByte c = c := by rcases hc with rfl | rfl | rfl <;> decide
      exact lower_no_special h.name c hx.2 (lowerByte_only c hx.1) fun hm => by
        have := ha.name c hm
        rcases hc with rfl | rfl | rfl <;> simp at this
    intro c hc
    exact ⟨fun e => hno c (.inl e) hc, fun e => hno c (.inr (.inl e)) hc, fun e => hno c (.inr (.inr e)) hc⟩
  params := by
    have hp := ha.params
    have h2 := h.params
    generalize a.params = ps at hp h2
    generalize b.params = qs at h2
    induction h2 with
    | nil => intro p hp; cases hp
    | @cons x y ps qs hxy _ ih =>
      intro p hm
      rcases List.mem_cons.1 hm with rfl | hm
      · obtain ⟨h1, h2⟩ := hp x (List.mem_cons_self)
        refine ⟨?_, hxy.2 ▸ h2⟩
        have hno : ∀ c : UInt8, (c = c! ':' ∨ c = c! ';' ∨ c = c! '=') → c ∉ p.1 := by
          intro c hc
          have hx : ¬ (97 ≤ c.toNat ∧ c.toNat ≤ 122) ∧ lowerByte c = c := by rcases hc with rfl | rfl | rfl <;> decide
          exact lower_no_special hxy.1 c hx.2 (lowerByte_only c hx.1) fun hm => by
            have := h1 c hm
            rcases hc with rfl | rfl | rfl <;> simp at this
        intro c hc
        exact ⟨fun e => hno c (.inl e) hc, fun e => hno c (.inr (.inl e)) hc, fun e => hno c (.inr (.inr e)) hc⟩
      · exact ih (fun p hp' => hp p (List.mem_cons_of_mem _ hp')) p hm

theorem lowerByte_twice (c : UInt8) : lowerByte (lowerByte c) = lowerByte c := by
  have key : ∀ n : Fin 256, lowerByte (lowerByte (UInt8.ofNat n.val)) = lowerByte (UInt8.ofNat n.val) := by decide +kernel
  have := key ⟨c.toNat, c.toNat_lt⟩
  simpa using this

theorem lower_x (n : QByteArray) (h : startsWith (q! "x-") (toLowerQ (fromLatin1 n)) = true) : (n.map lowerByte).take 2 = b! "x-" := by
  have k1 : ∀ n : Fin 256, lowerQ (UInt16.ofNat (UInt8.ofNat n.val).toNat) = qc! 'x' → lowerByte (UInt8.ofNat n.val) = c! 'x' := by decide +kernel
  have k2 : ∀ n : Fin 256, lowerQ (UInt16.ofNat (UInt8.ofNat n.val).toNat) = qc! '-' → lowerByte (UInt8.ofNat n.val) = c! '-' := by decide +kernel
  match n with
  | [] => simp [startsWith, toLowerQ, fromLatin1] at h
  | [c] => simp [startsWith, toLowerQ, fromLatin1] at h
  | c :: d :: t =>
    have h1 := k1 ⟨c.toNat, c.toNat_lt⟩
    have h2 := k2 ⟨d.toNat, d.toNat_lt⟩
    simp only [UInt8.ofNat_toNat] at h1 h2
    simp [startsWith, toLowerQ, fromLatin1] at h
    simp only [List.map_cons, List.take_succ_cons, List.take_zero]
    rw [h1 (by simpa using h.1), h2 (by simpa using h.2)]

theorem lineOf_otherCase (E : Codecs) (p q : WrittenProperty) (h : p.OtherCase q) : SameRead (lineOf E p.unfolded) (lineOf E q.unfolded) := by
  rcases h with h | ⟨a, b, ha, hp, hq, h⟩
  · rw [h]; exact SameRead.refl _
  have hb := h.wellformed ha
  have np := spelled_name a ha p hp
  have nq := spelled_name b hb q hq
  have hname : toLowerQ (lineOf E p.unfolded).identifier = toLowerQ (lineOf E q.unfolded).identifier := by
    rw [lineOf_name, lineOf_name, np.1, nq.1]
    exact toLowerQ_sameLetters h.name
  have hgroup : (lineOf E p.unfolded).group = [] := by
    rw [(lineOf_id E _).2, (scan_propertyName {} rfl _).2 np.2]
  obtain ⟨s', t', h1, h2, h3⟩ := params_scan a.params b.params a.value h.params ha.params (fun p hp => (hb.params p hp).1) { st := .initial, tok := a.name }
    { st := .initial, tok := b.name } (name_ready _ _)
  have through : ∀ x : SpelledProperty, x.Wellformed → PL.scan {} x.line =
      PL.scan { st := .initial, tok := x.name } (x.params.flatMap (fun p => c! ';' :: p.1 ++ c! '=' :: p.2) ++ c! ':' :: x.value) := by
    intro x hx
    unfold SpelledProperty.line
    rw [List.append_assoc, scan_through, name_scan x.name hx.name {} rfl]
    · rfl
    · intro i _
      rw [name_scan _ (fun c hc => hx.name c (List.mem_of_mem_take hc)) {} rfl]
      simp
  have ep : lineOf E p.unfolded = s'.decodeValue E (removeEscapes a.value) := by unfold lineOf; rw [hp, through a ha, h1]
  have eq : lineOf E q.unfolded = t'.decodeValue E (removeEscapes a.value) := by unfold lineOf; rw [hq, through b hb, ← h.value, h2]
  have hd := h3.decode (E := E) (removeEscapes a.value)
  rw [← ep, ← eq] at hd
  refine ⟨hname, hd.1, hd.2.1, hd.2.2, fun hg => absurd hgroup hg, fun hx => ?_⟩
  rw [customKey_eq, customKey_eq]
  have hlow : (lineOf E p.unfolded).identifier = fromLatin1 a.name := by rw [lineOf_name, np.1]
  rcases h.own (by rw [hlow] at hx; exact lower_x a.name hx) with e | e
  · have : (lineOf E p.unfolded).identifier = (lineOf E q.unfolded).identifier := by rw [lineOf_name, lineOf_name, np.1, nq.1, e]
    unfold extensionName nameOf
    rw [this]
  · unfold extensionName nameOf
    rw [← hname]
    obtain ⟨x, hx, hm⟩ := List.mem_flatMap.1 e
    have hin : toLowerQ (lineOf E p.unfolded).identifier ∈ x.2 := by
      have hlow2 : ∀ x ∈ foreignNames, ∀ u ∈ x.2, toLowerQ u = u := by decide +kernel
      rw [hlow, toLowerQ_sameLetters (show SameLetters a.name (a.name.map lowerByte) from by
        unfold SameLetters
        rw [List.map_map]
        apply List.map_congr_left
        intro c _
        exact (lowerByte_twice c).symm), hlow2 x hx _ hm]
      exact hm
    generalize toLowerQ (lineOf E p.unfolded).identifier = u at hin
    cases hf : foreignNames.find? fun p => decide (u ∈ p.2) with
    | some y => rfl
    | none =>
      exfalso
      rw [List.find?_eq_none] at hf
      exact hf x hx (by simpa using hin)

/-! ### the card -/

theorem readLine_respelled (E : ToolEnv) (ids : IdKind → Nat → QString) (s : RState) {l m : VCardLine} (h : SameRead l m) : readLine E ids s l = readLine E ids s m := by
  obtain ⟨li, lg, lv, lp, lb⟩ := l
  obtain ⟨mi, mg, mv, mp, mb⟩ := m
  obtain ⟨h1, h2, h3, h4, h5, h6⟩ := h
  simp only at h1 h2 h3 h4 h5 h6
  subst h2 h3 h4
  have ht : tagOf ⟨li, lg, lv, lp, lb⟩ = tagOf ⟨mi, lg, lv, lp, mb⟩ := by unfold tagOf; simp only [h1]
  unfold readLine
  rw [← ht]
  cases htag : tagOf ⟨li, lg, lv, lp, lb⟩ with
  | fieldGroup =>
    have hg : lg ≠ [] := by
      intro e
      rw [e] at htag
      unfold tagOf at htag
      simp only [ne_eq, not_true_eq_false, decide_false, Bool.false_and, Bool.false_eq_true, if_false] at htag
      split at htag
      · rename_i p hf
        have hn : ∀ p ∈ tagTable, p.2 ≠ Tag.fieldGroup := by decide +kernel
        exact hn p (List.mem_of_find?_eq_some hf) htag
      · split at htag <;> cases htag
    have := h5 hg
    subst this
    rfl
  | x =>
    have hx : startsWith (q! "x-") (toLowerQ li) = true := by
      unfold tagOf at htag
      simp only at htag
      split at htag
      · cases htag
      · split at htag
        · rename_i p hf
          have hn : ∀ p ∈ tagTable, p.2 ≠ Tag.x := by decide +kernel
          exact absurd htag (hn p (List.mem_of_find?_eq_some hf))
        · split at htag
          · assumption
          · cases htag
    have hk := h6 hx
    simp only [readX, hk]
  | _ => rfl

/-- The entries of two cards with corresponding names and lines. -/
theorem card_same (R : QString → QString → Prop)
    (hR : ∀ a a' b b', R a a' → R b b' → (a = b ↔ a' = b') ∧ (qlt a b = qlt a' b'))
    (A B : List VCardLine) (h : List.Forall₂ (fun l m => SameRead l m ∧ R l.identifier m.identifier) A B) (c d : VCard)
    (hcd : List.Forall₂ (fun x y => R x.1 y.1 ∧ List.Forall₂ SameRead x.2 y.2) c d) :
    List.Forall₂ (fun x y => R x.1 y.1 ∧ List.Forall₂ SameRead x.2 y.2) (A.foldl VCard.addLine c) (B.foldl VCard.addLine d) := by
  induction h generalizing c d with
  | nil => exact hcd
  | @cons l m A B hlm _ ih =>
    rw [List.foldl_cons, List.foldl_cons]
    apply ih
    obtain ⟨hs, hr⟩ := hlm
    have hfind : ∀ c d : VCard, List.Forall₂ (fun x y => R x.1 y.1 ∧ List.Forall₂ SameRead x.2 y.2) c d →
        (c.find l.identifier).isSome = (d.find m.identifier).isSome := by
      intro c d h
      induction h with
      | nil => rfl
      | @cons x y c d hxy _ ih =>
        obtain ⟨k, ls⟩ := x
        obtain ⟨k', ls'⟩ := y
        have hk := (hR _ _ _ _ hxy.1 hr).1
        simp only at hk
        unfold SMap.find
        by_cases e : k = l.identifier
        · rw [if_pos e, if_pos (hk.1 e)]; rfl
        · rw [if_neg e, if_neg fun e' => e (hk.2 e')]; exact ih
    have hmod : ∀ c d : VCard, List.Forall₂ (fun x y => R x.1 y.1 ∧ List.Forall₂ SameRead x.2 y.2) c d →
        List.Forall₂ (fun x y => R x.1 y.1 ∧ List.Forall₂ SameRead x.2 y.2) (c.modify l.identifier (· ++ [l])) (d.modify m.identifier (· ++ [m])) := by
      intro c d h
      induction h with
      | nil => exact .nil
      | @cons x y c d hxy hcd ih =>
        obtain ⟨k, ls⟩ := x
        obtain ⟨k', ls'⟩ := y
        have hk := (hR _ _ _ _ hxy.1 hr).1
        simp only at hk
        unfold SMap.modify
        by_cases e : k = l.identifier
        · rw [if_pos e, if_pos (hk.1 e)]
          exact .cons ⟨hxy.1, List.rel_append hxy.2 (.cons hs .nil)⟩ hcd
        · rw [if_neg e, if_neg fun e' => e (hk.2 e')]
          exact .cons hxy ih
    have hins : ∀ c d : VCard, List.Forall₂ (fun x y => R x.1 y.1 ∧ List.Forall₂ SameRead x.2 y.2) c d →
        List.Forall₂ (fun x y => R x.1 y.1 ∧ List.Forall₂ SameRead x.2 y.2) (c.insertSorted l.identifier [l]) (d.insertSorted m.identifier [m]) := by
      intro c d h
      induction h with
      | nil => exact .cons ⟨hr, .cons hs .nil⟩ .nil
      | @cons x y c d hxy hcd ih =>
        obtain ⟨k, ls⟩ := x
        obtain ⟨k', ls'⟩ := y
        have hk := (hR _ _ _ _ hxy.1 hr).2
        simp only at hk
        unfold SMap.insertSorted
        rw [← hk]
        split
        · exact .cons hxy ih
        · exact .cons ⟨hr, .cons hs .nil⟩ (.cons hxy hcd)
    unfold VCard.addLine
    have hf := hfind c d hcd
    cases h1 : c.find l.identifier with
    | none =>
      cases h2 : d.find m.identifier with
      | none => exact hins c d hcd
      | some y => rw [h1, h2] at hf; cases hf
    | some x =>
      cases h2 : d.find m.identifier with
      | none => rw [h1, h2] at hf; cases hf
      | some y => exact hmod c d hcd

theorem fold_same (E : ToolEnv) (ids : IdKind → Nat → QString) {A B : List VCardLine} (h : List.Forall₂ SameRead A B) (s : RState) :
    A.foldl (readLine E ids) s = B.foldl (readLine E ids) s := by
  induction h generalizing s with
  | nil => rfl
  | cons hab _ ih => rw [List.foldl_cons, List.foldl_cons, readLine_respelled E ids s hab, ih]

/-- reading order, without looking the names up again -/
theorem readingOrder_eq {c : VCard} (h : Sorted c) : readingOrder c = c.flatMap (·.2) := by
  unfold readingOrder VCard.identifiers
  rw [List.flatMap_map]
  have key : ∀ x ∈ c, c.lines x.1 = x.2 := by
    intro x hx
    unfold VCard.lines
    induction c with
    | nil => cases hx
    | cons y c ih =>
      obtain ⟨k, ls⟩ := y
      obtain ⟨h1, h2⟩ := List.pairwise_cons.1 h
      unfold SMap.find
      rcases List.mem_cons.1 hx with rfl | hx
      · rw [if_pos rfl]; rfl
      · rw [if_neg fun e => by
          have := h1 x hx
          simp only [e] at this
          rw [qlt_irrefl] at this
          cases this]
        exact ih h2 hx
  exact List.flatMap_congr key

theorem qlt_fromLatin1 (a b : QByteArray) : qlt (fromLatin1 a) (fromLatin1 b) = decide (a < b) := by
  induction a generalizing b with
  | nil => cases b <;> simp [qlt, fromLatin1]
  | cons x a ih =>
    cases b with
    | nil => simp [qlt, fromLatin1]
    | cons y b =>
      have h1 : (UInt16.ofNat x.toNat = UInt16.ofNat y.toNat) ↔ x = y := by
        constructor
        · intro h
          have := congrArg UInt16.toNat h
          simp only [UInt16.toNat_ofNat'] at this
          have hx := x.toNat_lt
          have hy := y.toNat_lt
          exact UInt8.toNat_inj.1 (by omega)
        · rintro rfl; rfl
      have h2 : (UInt16.ofNat x.toNat < UInt16.ofNat y.toNat) ↔ x < y := by
        rw [UInt16.lt_iff_toNat_lt, UInt8.lt_iff_toNat_lt]
        simp only [UInt16.toNat_ofNat']
        have hx := x.toNat_lt
        have hy := y.toNat_lt
        omega
      have e : qlt (fromLatin1 (x :: a)) (fromLatin1 (y :: b)) = if x = y then qlt (fromLatin1 a) (fromLatin1 b) else decide (x < y) := by
        show (if UInt16.ofNat x.toNat = UInt16.ofNat y.toNat then qlt (fromLatin1 a) (fromLatin1 b) else decide (UInt16.ofNat x.toNat < UInt16.ofNat y.toNat)) = _
        simp only [h1, h2]
      rw [e, ih]
      by_cases hxy : x = y
      · subst hxy
        rw [if_pos rfl]
        congr 1
        rw [List.cons_lt_cons_iff]
        simp
      · rw [if_neg hxy]
        congr 1
        rw [List.cons_lt_cons_iff]
        simp [hxy]

/-- two lists of properties in corresponding order -/
theorem properties_same (E : ToolEnv) (ids : IdKind → Nat → QString) (ps qs : List WrittenProperty) (h : List.Forall₂ WrittenProperty.OtherCase ps qs)
    (ho : SameNameOrder ps qs) (s : RState) :
    (readingOrder (cardAfter (ps.map fun p => lineOf E.toCodecs p.unfolded))).foldl (readLine E ids) s =
      (readingOrder (cardAfter (qs.map fun p => lineOf E.toCodecs p.unfolded))).foldl (readLine E ids) s := by
  rw [readingOrder_eq (cardAfter_sorted _), readingOrder_eq (cardAfter_sorted _)]
  apply fold_same
  have hzip : ∀ x ∈ ps.zip qs, x.1.OtherCase x.2 := by
    clear ho
    induction h with
    | nil => intro x hx; cases hx
    | cons hab _ ih =>
      intro x hx
      rw [List.zip_cons_cons] at hx
      rcases List.mem_cons.1 hx with rfl | hx
      · exact hab
      · exact ih x hx
  have hrel : List.Forall₂ (fun l m => SameRead l m ∧ ∃ x ∈ ps.zip qs, l.identifier = fromLatin1 x.1.name ∧ m.identifier = fromLatin1 x.2.name)
      (ps.map fun p => lineOf E.toCodecs p.unfolded) (qs.map fun p => lineOf E.toCodecs p.unfolded) := by
    have hz : List.Forall₂ (fun p q => (p, q) ∈ ps.zip qs) ps qs := by
      clear hzip ho
      induction h with
      | nil => exact .nil
      | cons _ _ ih =>
        refine .cons (by simp) (ih.imp fun p q hpq => ?_)
        rw [List.zip_cons_cons]
        exact List.mem_cons_of_mem _ hpq
    rw [List.forall₂_map_left_iff, List.forall₂_map_right_iff]
    exact hz.imp fun p q hpq => ⟨lineOf_otherCase _ p q (hzip _ hpq), _, hpq, lineOf_name _ p, lineOf_name _ q⟩
  have := card_same (fun a b => ∃ x ∈ ps.zip qs, a = fromLatin1 x.1.name ∧ b = fromLatin1 x.2.name) (by
    rintro a a' b b' ⟨x, hx, rfl, rfl⟩ ⟨y, hy, rfl, rfl⟩
    have := ho x hx y hy
    refine ⟨⟨fun e => by rw [this.1.1 (fromLatin1_inj e)], fun e => by rw [this.1.2 (fromLatin1_inj e)]⟩, ?_⟩
    rw [qlt_fromLatin1, qlt_fromLatin1]
    simp only [this.2]) _ _ hrel [] [] .nil
  have hflat : ∀ c d : VCard, List.Forall₂ (fun x y => (∃ z ∈ ps.zip qs, x.1 = fromLatin1 z.1.name ∧ y.1 = fromLatin1 z.2.name) ∧ List.Forall₂ SameRead x.2 y.2) c d →
      List.Forall₂ SameRead (c.flatMap (·.2)) (d.flatMap (·.2)) := by
    intro c d h
    induction h with
    | nil => exact .nil
    | cons hxy _ ih =>
      rw [List.flatMap_cons, List.flatMap_cons]
      exact List.rel_append hxy.2 ih
  exact hflat _ _ this

/-! ### BEGIN and END -/

/-- the markers may be written in any letter case -/
theorem markedText_cards (E : Codecs) (ps : List WrittenProperty) (hg : ∀ p ∈ ps, p.Good) (b e : QByteArray) (hb : SameLetters b (b! "BEGIN:VCARD"))
    (he : SameLetters e (b! "END:VCARD")) :
    ∃ n, ∀ m ≥ n, parseVCards E m (markedText b e ps) = some [cardAfter (ps.map fun p => lineOf E p.unfolded)] := by
  have hblen : b.length = 11 := by have := congrArg List.length hb; simpa using this
  have helen : e.length = 9 := by have := congrArg List.length he; simpa using this
  have hb10 : (10 : UInt8) ∉ b := lower_no_special (n := b! "BEGIN:VCARD") hb.symm 10 (by decide) (lowerByte_only 10 (by decide)) (by decide)
  have he10 : (10 : UInt8) ∉ e := lower_no_special (n := b! "END:VCARD") he.symm 10 (by decide) (lowerByte_only 10 (by decide)) (by decide)
  have hbs : (32 : UInt8) ∉ b ∧ (9 : UInt8) ∉ b := ⟨lower_no_special (n := b! "BEGIN:VCARD") hb.symm 32 (by decide) (lowerByte_only 32 (by decide)) (by decide),
    lower_no_special (n := b! "BEGIN:VCARD") hb.symm 9 (by decide) (lowerByte_only 9 (by decide)) (by decide)⟩
  have hes : (32 : UInt8) ∉ e ∧ (9 : UInt8) ∉ e := ⟨lower_no_special (n := b! "END:VCARD") he.symm 32 (by decide) (lowerByte_only 32 (by decide)) (by decide),
    lower_no_special (n := b! "END:VCARD") he.symm 9 (by decide) (lowerByte_only 9 (by decide)) (by decide)⟩
  have hlf : ∀ l ∈ (b :: ps.flatMap fun p => p.first :: p.rest) ++ [e], (10 : UInt8) ∉ l := by
    intro l hl
    simp only [List.cons_append, List.mem_cons, List.mem_append, List.mem_flatMap, List.not_mem_nil, or_false] at hl
    rcases hl with rfl | ⟨p, hp, rfl | hr⟩ | rfl
    · exact hb10
    · exact (hg p hp).oneLine
    · exact ((hg p hp).folded l hr).2
    · exact he10
  have hpl := physLines_crlfText _ hlf
  have hbm : startsWithCI (b! "begin:vcard") b = true := by
    rw [startsWithCI_take, List.take_of_length_le (by simp [hblen])]
    exact hb
  have hem : startsWithCI (b! "end:vcard") e = true := by
    rw [startsWithCI_take, List.take_of_length_le (by simp [helen])]
    exact he
  have hebm : startsWithCI (b! "begin:vcard") e = false := by
    rw [Bool.eq_false_iff]
    intro h
    rw [startsWithCI_take, List.take_of_length_le (by simp [helen])] at h
    have := congrArg List.length h
    simp [helen] at this
  have start : ∀ l : QByteArray, l.length ≠ 0 → (32 : UInt8) ∉ l → (∀ c : UInt8, 9 ≤ c → c ≤ 13 → c ∉ l) → isFolded l = false ∧ isBlank l = false := by
    intro l hl h1 h2
    cases l with
    | nil => simp at hl
    | cons c r => exact goodStart_line (fun e => h1 (by simp [e])) (fun e => h2 c e.1 e.2 (by simp))
  have ctl : ∀ (l m : QByteArray), SameLetters l m → (∀ c ∈ m, 14 ≤ lowerByte c) → ∀ c : UInt8, 9 ≤ c → c ≤ 13 → c ∉ l := by
    intro l m hlm hm c h9 h13 hc
    have h1 : lowerByte c ∈ m.map lowerByte := hlm ▸ List.mem_map_of_mem hc
    obtain ⟨d, hd, e⟩ := List.mem_map.1 h1
    have h2 := hm d hd
    rw [e] at h2
    have h3 : lowerByte c = c := by
      unfold lowerByte
      rw [if_neg]
      intro h
      exact absurd (UInt8.le_trans h.1 h13) (by decide)
    rw [h3] at h2
    exact absurd (UInt8.le_trans h2 h13) (by decide)
  obtain ⟨hb1, hb2⟩ := start b (by omega) hbs.1 (ctl _ _ hb (by decide))
  obtain ⟨he1, he2⟩ := start e (by omega) hes.1 (ctl _ _ he (by decide))
  refine ⟨_, fun m hm => parseVCards_of_readText E _ _ ?_ m hm⟩
  unfold readText
  have e0 : markedText b e ps = crlfText ((b :: ps.flatMap fun p => p.first :: p.rest) ++ [e]) := rfl
  rw [e0, hpl]
  unfold fedLines
  rw [if_neg (by simp)]
  rw [List.append_assoc, List.cons_append, List.foldlM_cons]
  have hfb : feed E {} b = some { currentLine := [], inVCard := true, card := [], out := [] } := by
    unfold feed
    rw [if_neg (by simp [hb1]), if_neg (by simp [hb2]), if_neg (by simp)]
    unfold RS.mark
    rw [if_pos hbm]
  rw [hfb]
  show ((_ ++ _ : List QByteArray).foldlM (feed E) _).map RS.out = _
  obtain ⟨s', h1, h2, h3, h4⟩ := feed_properties E ps hg { currentLine := [], inVCard := true, card := [], out := [] } rfl [] rfl
  rw [List.foldlM_append, h1]
  show (([e] ++ [[]] : List QByteArray).foldlM (feed E) s').map RS.out = _
  have hfe := feed_plain E s' e h2 _ h4 he1 he2
  have hme : RS.mark e { s' with card := (ps.map fun p => lineOf E p.unfolded).foldl VCard.addLine [] } =
      { currentLine := [], inVCard := false, card := [], out := [(ps.map fun p => lineOf E p.unfolded).foldl VCard.addLine []] } := by
    unfold RS.mark
    rw [if_neg (by simp [hebm]), if_pos hem, h3]
    rfl
  rw [List.cons_append, List.foldlM_cons, hfe, hme]
  rfl

end KC
