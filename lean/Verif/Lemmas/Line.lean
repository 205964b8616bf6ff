import Verif.Props.C01
import Verif.Props.C03
import Verif.Props.C10
import Verif.Props.C11
import Verif.Props.C12
import Verif.Props.C07
/- Helper lemmas: reading the head of a content line. -/
namespace KC
open Spec

/-! ### Latin-1 -/

theorem fromLatin1_toLatin1 (s : QString) (h : ∀ u ∈ s, u.toNat < 256) : fromLatin1 (toLatin1 s) = s := by
  induction s with
  | nil => rfl
  | cons u t ih =>
    have hu := h u (by simp)
    have := ih (fun x hx => h x (by simp [hx]))
    simp only [fromLatin1, toLatin1, List.map_cons] at this ⊢
    rw [this]
    congr 1
    apply UInt16.toNat_inj.1
    simp [hu]
    omega

theorem toLatin1_inj (s t : QString) (hs : ∀ u ∈ s, u.toNat < 256) (ht : ∀ u ∈ t, u.toNat < 256) (h : toLatin1 s = toLatin1 t) : s = t := by
  rw [← fromLatin1_toLatin1 s hs, ← fromLatin1_toLatin1 t ht, h]

theorem not_mem_toLatin1 (s : QString) (hs : ∀ u ∈ s, u.toNat < 256) (c : UInt8) (h : UInt16.ofNat c.toNat ∉ s) : c ∉ toLatin1 s := by
  intro hc
  simp only [toLatin1, List.mem_map] at hc
  obtain ⟨u, hu, he⟩ := hc
  apply h
  have := hs u hu
  have e : UInt16.ofNat c.toNat = u := by
    apply UInt16.toNat_inj.1
    rw [← he]
    simp [this]
    omega
  rw [e]; exact hu

/-! ### Scanning -/

theorem scan_cons_of (p : PL) (c : UInt8) (t : QByteArray) (h : (p.step c).st ≠ .value) :
    PL.scan p (c :: t) = PL.scan (p.step c) t := by
  simp only [PL.scan]; rw [if_neg h]

theorem scan_chars (st : PState) (ok : UInt8 → Prop)
    (hstep : ∀ (p : PL) (c : UInt8), p.st = st → ok c → p.tok ≠ [] ∨ st ≠ .paramValue ∨ c ≠ c! '"' → p.step c = { p with tok := p.tok ++ [c] })
    (hv : st ≠ .value) (p : PL) (hp : p.st = st) (s t : QByteArray) (hs : ∀ c ∈ s, ok c)
    (hq : p.tok ≠ [] ∨ st ≠ .paramValue ∨ s.head? ≠ some (c! '"')) :
    PL.scan p (s ++ t) = PL.scan { p with tok := p.tok ++ s } t := by
  induction s generalizing p with
  | nil => simp
  | cons c s ih =>
    have e := hstep p c hp (hs c (by simp)) (by
      rcases hq with h | h | h
      · exact .inl h
      · exact .inr (.inl h)
      · right; right; intro e; apply h; simp [e])
    rw [List.cons_append, scan_cons_of _ _ _ (by rw [e]; simp [hp, hv]), e]
    rw [ih _ (by simp [hp]) (fun x hx => hs x (by simp [hx])) (.inl (by simp))]
    simp

theorem scan_initial (p : PL) (hp : p.st = .initial) (s t : QByteArray) (h1 : (c! ';') ∉ s) (h2 : (c! ':') ∉ s) (h3 : (c! '.') ∉ s) :
    PL.scan p (s ++ t) = PL.scan { p with tok := p.tok ++ s } t := by
  refine scan_chars .initial (fun c => c ≠ c! ';' ∧ c ≠ c! ':' ∧ c ≠ c! '.') ?_ (by decide) p hp s t ?_ (.inr (.inl (by decide)))
  · rintro p c hp ⟨a, b, d⟩ _
    simp only [PL.step, hp, a, b, d, if_false]
  · intro c hc
    exact ⟨fun e => h1 (e ▸ hc), fun e => h2 (e ▸ hc), fun e => h3 (e ▸ hc)⟩

theorem scan_paramKey (p : PL) (hp : p.st = .paramKey) (s t : QByteArray) (h1 : (c! ';') ∉ s) (h2 : (c! ':') ∉ s) (h3 : (c! '=') ∉ s) :
    PL.scan p (s ++ t) = PL.scan { p with tok := p.tok ++ s } t := by
  refine scan_chars .paramKey (fun c => c ≠ c! ';' ∧ c ≠ c! ':' ∧ c ≠ c! '=') ?_ (by decide) p hp s t ?_ (.inr (.inl (by decide)))
  · rintro p c hp ⟨a, b, d⟩ _
    simp only [PL.step, hp, a, b, d, if_false, or_self]
  · intro c hc
    exact ⟨fun e => h1 (e ▸ hc), fun e => h2 (e ▸ hc), fun e => h3 (e ▸ hc)⟩

theorem scan_paramValue (p : PL) (hp : p.st = .paramValue) (s t : QByteArray) (h1 : (c! ';') ∉ s) (h2 : (c! ':') ∉ s) (h3 : (c! ',') ∉ s)
    (hq : s.head? ≠ some (c! '"')) :
    PL.scan p (s ++ t) = PL.scan { p with tok := p.tok ++ s } t := by
  refine scan_chars .paramValue (fun c => c ≠ c! ';' ∧ c ≠ c! ':' ∧ c ≠ c! ',') ?_ (by decide) p hp s t ?_ (.inr (.inr hq))
  · rintro p c hp ⟨a, b, d⟩ hcase
    simp only [PL.step, hp, a, b, d, if_false, or_self]
    rw [if_neg]
    rintro ⟨h1, h2⟩
    rcases hcase with h | h | h
    · exact h h1
    · exact h rfl
    · exact h h2
  · intro c hc
    exact ⟨fun e => h1 (e ▸ hc), fun e => h2 (e ▸ hc), fun e => h3 (e ▸ hc)⟩

/-- one written parameter -/
def paramSeg (kv : QString × QString) : QByteArray := [c! ';'] ++ toUpperB (toLatin1 kv.1) ++ [c! '='] ++ toLatin1 kv.2

/-- conditions on the bytes of a parameter -/
structure SegOK (kv : QString × QString) : Prop where
  k1 : (c! ';') ∉ toUpperB (toLatin1 kv.1)
  k2 : (c! ':') ∉ toUpperB (toLatin1 kv.1)
  k3 : (c! '=') ∉ toUpperB (toLatin1 kv.1)
  low : toLowerB (toUpperB (toLatin1 kv.1)) = toLatin1 kv.1
  v1 : (c! ';') ∉ toLatin1 kv.2
  v2 : (c! ':') ∉ toLatin1 kv.2
  v3 : (c! ',') ∉ toLatin1 kv.2
  v4 : (toLatin1 kv.2).head? ≠ some (c! '"')

/-- reading parameters one after another -/
def addAll (p : PL) (kvs : List (QString × QString)) : PL :=
  kvs.foldl (fun p kv => p.addParameter (toLatin1 kv.1) (toLatin1 kv.2)) p

/-- same line, encoding and charset -/
def SameCore (p q : PL) : Prop := p.line = q.line ∧ p.enc = q.enc ∧ p.charset = q.charset

theorem sameCore_add {p q : PL} (h : SameCore p q) (k v) : SameCore (p.addParameter k v) (q.addParameter k v) := by
  obtain ⟨h1, h2, h3⟩ := h
  simp [SameCore, PL.addParameter, h1, h2, h3]

theorem sameCore_addAll {p q : PL} (h : SameCore p q) (kvs) : SameCore (addAll p kvs) (addAll q kvs) := by
  induction kvs generalizing p q with
  | nil => exact h
  | cons a t ih => exact ih (sameCore_add h _ _)

theorem sameCore_trans {p q r : PL} (h : SameCore p q) (h' : SameCore q r) : SameCore p r :=
  ⟨h.1.trans h'.1, h.2.1.trans h'.2.1, h.2.2.trans h'.2.2⟩

theorem scan_seg (kv : QString × QString) (ok : SegOK kv) (q : PL) (hq : q.st = .paramKey) (ht : q.tok = []) (t : QByteArray) :
    PL.scan q (toUpperB (toLatin1 kv.1) ++ c! '=' :: (toLatin1 kv.2 ++ t)) =
      PL.scan { q with st := .paramValue, tok := toLatin1 kv.2, key := toUpperB (toLatin1 kv.1) } t := by
  rw [scan_paramKey q hq _ _ ok.k1 ok.k2 ok.k3]
  have e2 : PL.step { q with tok := q.tok ++ toUpperB (toLatin1 kv.1) } (c! '=') =
      { q with key := toUpperB (toLatin1 kv.1), tok := [], st := .paramValue } := by
    simp [PL.step, hq, ht]
  rw [scan_cons_of _ _ _ (by rw [e2]; simp), e2]
  rw [scan_paramValue _ rfl _ _ ok.v1 ok.v2 ok.v3 ok.v4]
  simp

theorem flatMap_seg_cons (kv : QString × QString) (kvs : List (QString × QString)) (val : QByteArray) :
    (kv :: kvs).flatMap paramSeg ++ [c! ':'] ++ val =
      c! ';' :: (toUpperB (toLatin1 kv.1) ++ c! '=' :: (toLatin1 kv.2 ++ (kvs.flatMap paramSeg ++ [c! ':'] ++ val))) := by
  simp [paramSeg]

theorem scan_params_pv (kvs : List (QString × QString)) (hk : ∀ kv ∈ kvs, SegOK kv) (p : PL) (hp : p.st = .paramValue) (val : QByteArray) :
    ∃ q, PL.scan p (kvs.flatMap paramSeg ++ [c! ':'] ++ val) = (q, some val) ∧
      SameCore q (addAll (p.addParameter (toLowerB p.key) p.tok) kvs) := by
  induction kvs generalizing p with
  | nil =>
    refine ⟨p.step (c! ':'), ?_, ?_⟩
    · simp only [List.flatMap_nil, List.nil_append, List.singleton_append, PL.scan]
      rw [if_pos]
      simp [PL.step, hp]
    · simp [PL.step, hp, addAll, SameCore]
  | cons kv kvs ih =>
    have ok := hk kv (by simp)
    rw [flatMap_seg_cons]
    have e1 : ∃ r, p.step (c! ';') = r ∧ r.st = .paramKey ∧ r.tok = [] ∧ SameCore r (p.addParameter (toLowerB p.key) p.tok) := by
      refine ⟨_, rfl, ?_, ?_, ?_⟩ <;> simp [PL.step, hp, SameCore]
    obtain ⟨r, e1, r1, r2, r3⟩ := e1
    rw [scan_cons_of _ _ _ (by rw [e1, r1]; simp), e1, scan_seg kv ok r r1 r2]
    obtain ⟨q, h1, h2⟩ := ih (fun x hx => hk x (by simp [hx]))
      { r with st := .paramValue, tok := toLatin1 kv.2, key := toUpperB (toLatin1 kv.1) } rfl
    refine ⟨q, h1, ?_⟩
    simp only [ok.low] at h2
    have := sameCore_addAll (sameCore_add (p := { r with st := .paramValue, tok := toLatin1 kv.2, key := toUpperB (toLatin1 kv.1) })
        (q := p.addParameter (toLowerB p.key) p.tok) r3 (toLatin1 kv.1) (toLatin1 kv.2)) kvs
    exact ⟨h2.1.trans this.1, h2.2.1.trans this.2.1, h2.2.2.trans this.2.2⟩

/-- after the name: parameters and the colon -/
theorem scan_after_name (kvs : List (QString × QString)) (hk : ∀ kv ∈ kvs, SegOK kv) (p : PL) (hp : p.st = .initial) (val : QByteArray) :
    ∃ q, PL.scan p (kvs.flatMap paramSeg ++ [c! ':'] ++ val) = (q, some val) ∧
      SameCore q (addAll { p with line := { p.line with identifier := fromLatin1 p.tok } } kvs) := by
  cases kvs with
  | nil =>
    refine ⟨p.step (c! ':'), ?_, ?_⟩
    · simp only [List.flatMap_nil, List.nil_append, List.singleton_append, PL.scan]
      rw [if_pos]
      simp [PL.step, hp]
    · simp [PL.step, hp, addAll, SameCore]
  | cons kv kvs =>
    have ok := hk kv (by simp)
    rw [flatMap_seg_cons]
    have e1 : ∃ r, p.step (c! ';') = r ∧ r.st = .paramKey ∧ r.tok = [] ∧
        SameCore r { p with line := { p.line with identifier := fromLatin1 p.tok } } := by
      refine ⟨_, rfl, ?_, ?_, ?_⟩ <;> simp [PL.step, hp, SameCore]
    obtain ⟨r, e1, r1, r2, r3⟩ := e1
    rw [scan_cons_of _ _ _ (by rw [e1, r1]; simp), e1, scan_seg kv ok r r1 r2]
    obtain ⟨q, h1, h2⟩ := scan_params_pv kvs (fun x hx => hk x (by simp [hx]))
      { r with st := .paramValue, tok := toLatin1 kv.2, key := toUpperB (toLatin1 kv.1) } rfl val
    refine ⟨q, h1, ?_⟩
    simp only [ok.low] at h2
    have := sameCore_addAll (sameCore_add (p := { r with st := .paramValue, tok := toLatin1 kv.2, key := toUpperB (toLatin1 kv.1) })
        r3 (toLatin1 kv.1) (toLatin1 kv.2)) kvs
    exact ⟨h2.1.trans this.1, h2.2.1.trans this.2.1, h2.2.2.trans this.2.2⟩

/-! ### The written head -/

/-- the parameters of a line as (name, value) pairs in the order they are written -/
def flatParams (m : ParameterMap) : List (QString × QString) := m.flatMap fun p => p.2.map fun v => (p.1, v)

theorem find_of_mem {ν : Type} {m : SMap ν} (hs : Sorted m) {p : QString × ν} (hp : p ∈ m) : SMap.find m p.1 = some p.2 := by
  induction m with
  | nil => simp at hp
  | cons a t ih =>
    unfold Sorted at hs
    rw [List.pairwise_cons] at hs
    simp only [List.mem_cons] at hp
    rcases hp with rfl | hp
    · simp [SMap.find]
    · have hlt := hs.1 p hp
      have hne : a.1 ≠ p.1 := by intro e; rw [e, qlt_irrefl] at hlt; cases hlt
      obtain ⟨k, v⟩ := a
      simp only [SMap.find]
      rw [if_neg hne]
      exact ih hs.2 hp

theorem paramsAfter_sorted (h : List (QString × QString)) : Sorted (paramsAfter h) := by
  induction h using rev_induction with
  | h0 => simp [paramsAfter, Sorted]
  | hs h p ih => rw [paramsAfter_snoc]; exact SMap.sorted_upsert ih

theorem cardAfter_sorted (h : List VCardLine) : Sorted (cardAfter h) := by
  induction h using rev_induction with
  | h0 => simp [cardAfter, Sorted]
  | hs h p ih => rw [cardAfter_snoc]; exact SMap.sorted_upsert ih

/-- name part of a written line -/
def nameBytes (l : VCardLine) : QByteArray :=
  if l.group ≠ [] then toLatin1 l.group ++ [c! '.'] ++ toLatin1 l.identifier else toLatin1 l.identifier

theorem writeHead_eq (l : VCardLine) (hs : Sorted l.params) (hv : ∀ p ∈ l.params, ∀ v ∈ p.2, v ≠ []) :
    writeHead l = nameBytes l ++ (flatParams l.params).flatMap paramSeg := by
  have inner : ∀ (k : QString) (vs : List QString) (acc : QByteArray), (∀ v ∈ vs, v ≠ []) →
      vs.foldl (fun textLine str =>
        let textLine := textLine ++ [c! ';'] ++ toUpperB (toLatin1 k)
        if str ≠ [] then textLine ++ [c! '='] ++ toLatin1 str else textLine) acc =
      acc ++ (vs.map fun v => (k, v)).flatMap paramSeg := by
    intro k vs
    induction vs with
    | nil => intro acc _; simp
    | cons v vs ih =>
      intro acc h
      rw [List.foldl_cons, ih _ (fun x hx => h x (by simp [hx]))]
      simp [h v (by simp), paramSeg]
  have outer : ∀ (m : ParameterMap) (acc : QByteArray), (∀ p ∈ m, p ∈ l.params) →
      (m.map (·.1)).foldl (fun textLine param =>
        (l.parameters param).foldl (fun textLine str =>
        let textLine := textLine ++ [c! ';'] ++ toUpperB (toLatin1 param)
        if str ≠ [] then textLine ++ [c! '='] ++ toLatin1 str else textLine) textLine) acc =
      acc ++ (flatParams m).flatMap paramSeg := by
    intro m
    induction m with
    | nil => intro acc _; simp [flatParams]
    | cons p m ih =>
      intro acc h
      have hp := h p (by simp)
      have hf : l.parameters p.1 = p.2 := by simp [VCardLine.parameters, find_of_mem hs hp]
      rw [List.map_cons, List.foldl_cons, hf, inner p.1 p.2 acc (hv p hp), ih _ (fun x hx => h x (by simp [hx]))]
      simp [flatParams]
  unfold writeHead
  exact outer l.params _ (fun p hp => hp)

/-- The head of a written line is read back: name, group, and the parameters in order. -/
theorem scan_written (l : VCardLine) (hs : Sorted l.params) (hv : ∀ p ∈ l.params, ∀ v ∈ p.2, v ≠ [])
    (hid : ∀ u ∈ l.identifier, u.toNat < 256) (hgr : ∀ u ∈ l.group, u.toNat < 256)
    (hid' : ∀ c ∈ [qc! ';', qc! ':', qc! '.'], c ∉ l.identifier) (hgr' : ∀ c ∈ [qc! ';', qc! ':', qc! '.'], c ∉ l.group)
    (hk : ∀ kv ∈ flatParams l.params, SegOK kv) (val : QByteArray) :
    ∃ q, PL.scan {} (writeHead l ++ [c! ':'] ++ val) = (q, some val) ∧
      SameCore q (addAll { line := { identifier := l.identifier, group := l.group } } (flatParams l.params)) := by
  have n : ∀ (s : QString), (∀ u ∈ s, u.toNat < 256) → (∀ c ∈ [qc! ';', qc! ':', qc! '.'], c ∉ s) →
      (c! ';') ∉ toLatin1 s ∧ (c! ':') ∉ toLatin1 s ∧ (c! '.') ∉ toLatin1 s := by
    intro s h1 h2
    refine ⟨?_, ?_, ?_⟩ <;> apply not_mem_toLatin1 s h1 <;> apply h2 <;> decide
  obtain ⟨i1, i2, i3⟩ := n _ hid hid'
  obtain ⟨g1, g2, g3⟩ := n _ hgr hgr'
  rw [writeHead_eq l hs hv]
  unfold nameBytes
  by_cases hg : l.group = []
  · rw [if_neg (by simp [hg])]
    rw [List.append_assoc, List.append_assoc, scan_initial {} rfl _ _ i1 i2 i3]
    obtain ⟨q, h1, h2⟩ := scan_after_name (flatParams l.params) hk { tok := toLatin1 l.identifier } rfl val
    refine ⟨q, ?_, ?_⟩
    · rw [← h1]; simp
    · simp only [fromLatin1_toLatin1 _ hid] at h2
      rw [hg]; exact sameCore_trans h2 (sameCore_addAll (by exact ⟨rfl, rfl, rfl⟩) _)
  · rw [if_pos hg]
    simp only [List.append_assoc]
    rw [scan_initial {} rfl _ _ g1 g2 g3]
    have e1 : PL.step { tok := toLatin1 l.group } (c! '.') = { line := { group := l.group } } := by
      simp [PL.step, fromLatin1_toLatin1 _ hgr]
    simp only [List.nil_append, List.singleton_append]
    rw [scan_cons_of _ _ _ (by rw [e1]; simp), e1, scan_initial _ rfl _ _ i1 i2 i3]
    obtain ⟨q, h1, h2⟩ := scan_after_name (flatParams l.params) hk { tok := toLatin1 l.identifier, line := { group := l.group } } rfl val
    refine ⟨q, ?_, ?_⟩
    · rw [← h1]; simp
    · simp only [fromLatin1_toLatin1 _ hid] at h2
      exact sameCore_trans h2 (sameCore_addAll (by exact ⟨rfl, rfl, rfl⟩) _)

end KC
