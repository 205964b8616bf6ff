import Verif.Lemmas.Card
import Verif.Spec.Coded
import Mathlib.Tactic.Tauto
/- Helper lemmas: what is read back from written lines in general (parameters without value, with several values, quoted). -/
namespace KC
open Spec

theorem toLatin1_fromLatin1 (b : QByteArray) : toLatin1 (fromLatin1 b) = b := by
  induction b with
  | nil => rfl
  | cons c t ih =>
    simp only [fromLatin1, toLatin1, List.map_cons] at ih ⊢
    rw [ih]
    congr 1
    have h := c.toNat_lt
    have e : (UInt16.ofNat c.toNat).toNat = c.toNat := by simp
    rw [e, if_pos h]; exact UInt8.ofNat_toNat

theorem latin1_fromLatin1 (b : QByteArray) : Latin1 (fromLatin1 b) := by
  intro u hu
  simp only [fromLatin1, List.mem_map] at hu
  obtain ⟨c, _, rfl⟩ := hu
  have := c.toNat_lt
  simp; omega

/-! ### Parameters -/

/-- written bytes of one parameter, after the ';' -/
def segBody (kv : QString × QString) : QByteArray :=
  toUpperB (toLatin1 kv.1) ++ if kv.2 ≠ [] then c! '=' :: toLatin1 kv.2 else []

/-- a parameter name as it is read back -/
def lowerName (k : QString) : QString := fromLatin1 (toLowerB (toUpperB (toLatin1 k)))

/-- the parameters that the reader adds for one written parameter -/
def segRead (kv : QString × QString) : List (QString × QString) :=
  if kv.2 = [] then
    [(if toLowerB (toUpperB (toLatin1 kv.1)) = b! "quoted-printable" ∨ toLowerB (toUpperB (toLatin1 kv.1)) = b! "base64" then q! "encoding" else q! "type",
      fromLatin1 (toUpperB (toLatin1 kv.1)))]
  else if kv.2.head? = some (qc! '"') then
    if lowerName kv.1 = q! "type" then (splitOn (qc! ',') (kv.2.drop 1).dropLast).map fun v => (lowerName kv.1, v)
    else [(lowerName kv.1, (kv.2.drop 1).dropLast)]
  else (splitOn (qc! ',') kv.2).map fun v => (lowerName kv.1, v)

/-- conditions on a written parameter -/
structure SegGood (kv : QString × QString) : Prop where
  latinK : Latin1 kv.1
  latinV : Latin1 kv.2
  sepK : qc! ';' ∉ kv.1 ∧ qc! ':' ∉ kv.1 ∧ qc! '=' ∉ kv.1 ∧ (10 : UInt16) ∉ kv.1
  lf : (10 : UInt16) ∉ kv.2
  val : (∃ w, kv.2 = qc! '"' :: (w ++ [qc! '"']) ∧ qc! '"' ∉ w) ∨
    (qc! ';' ∉ kv.2 ∧ qc! ':' ∉ kv.2 ∧ ∀ part ∈ splitOn (qc! ',') kv.2, part.head? ≠ some (qc! '"'))

/-- the machine reads the parameter -/
def SegReads (kv : QString × QString) (out : List (QString × QString)) : Prop :=
  ∀ q : PL, q.st = .paramKey → q.tok = [] → ∃ p : PL, (∀ t, PL.scan q (segBody kv ++ t) = PL.scan p t) ∧
    ((p.step (c! ';')).st = .paramKey ∧ (p.step (c! ';')).tok = [] ∧ SameCore (p.step (c! ';')) (addAll q out)) ∧
    ((p.step (c! ':')).st = .value ∧ SameCore (p.step (c! ':')) (addAll q out))

theorem sameCore_refl (p : PL) : SameCore p p := ⟨rfl, rfl, rfl⟩

theorem upper_sep (k : QString) (hl : Latin1 k) (d : UInt8) (hd : d.toNat < 65) (hn : UInt16.ofNat d.toNat ∉ k) : d ∉ toUpperB (toLatin1 k) := by
  intro hm
  simp only [toUpperB, List.mem_map] at hm
  obtain ⟨c, hc, he⟩ := hm
  have := upper_special c d hd he
  subst this
  exact not_mem_toLatin1 k hl c hn hc

theorem toLatin1_append (a b : QString) : toLatin1 (a ++ b) = toLatin1 a ++ toLatin1 b := by simp [toLatin1]

theorem exists_first {α : Type} [DecidableEq α] {c : α} {s : List α} (h : c ∈ s) : ∃ a b, s = a ++ c :: b ∧ c ∉ a := by
  induction s with
  | nil => simp at h
  | cons x t ih =>
    by_cases hx : x = c
    · exact ⟨[], t, by rw [hx]; rfl, by simp⟩
    · have : c ∈ t := by
        simp only [List.mem_cons] at h
        rcases h with h | h
        · exact absurd h.symm hx
        · exact h
      obtain ⟨a, b, e, h⟩ := ih this
      refine ⟨x :: a, b, by rw [e]; rfl, ?_⟩
      simp only [List.mem_cons, not_or]
      exact ⟨fun e => hx e.symm, h⟩

theorem toLatin1_nil : toLatin1 [] = [] := rfl

theorem toLatin1_head (v : QString) (hl : Latin1 v) (h : v.head? ≠ some (qc! '"')) : (toLatin1 v).head? ≠ some (c! '"') := by
  intro he
  apply h
  cases v with
  | nil => simp [toLatin1] at he
  | cons u t =>
    simp only [toLatin1, List.map_cons, List.head?_cons, Option.some.injEq] at he ⊢
    have h1 := hl u (by simp)
    rw [if_pos h1] at he
    apply UInt16.toNat_inj.1
    have := congrArg UInt8.toNat he
    rw [toNat_ofNat8 _ h1] at this
    exact this

/-- reading an unquoted list of values -/
theorem scan_list (s : QString) (hs : Latin1 s) (h1 : qc! ';' ∉ s) (h2 : qc! ':' ∉ s)
    (hq : ∀ part ∈ splitOn (qc! ',') s, part.head? ≠ some (qc! '"')) (q : PL) (hst : q.st = .paramValue) (ht : q.tok = []) :
    ∃ p : PL, (∀ t, PL.scan q (toLatin1 s ++ t) = PL.scan p t) ∧
      ((p.step (c! ';')).st = .paramKey ∧ (p.step (c! ';')).tok = [] ∧
        SameCore (p.step (c! ';')) (addAll q ((splitOn (qc! ',') s).map fun v => (fromLatin1 (toLowerB q.key), v)))) ∧
      ((p.step (c! ':')).st = .value ∧ SameCore (p.step (c! ':')) (addAll q ((splitOn (qc! ',') s).map fun v => (fromLatin1 (toLowerB q.key), v)))) := by
  -- split off the first part
  have key : ∀ (n : Nat) (s : QString), s.length ≤ n → Latin1 s → qc! ';' ∉ s → qc! ':' ∉ s →
      (∀ part ∈ splitOn (qc! ',') s, part.head? ≠ some (qc! '"')) → ∀ q : PL, q.st = .paramValue → q.tok = [] →
      ∃ p : PL, (∀ t, PL.scan q (toLatin1 s ++ t) = PL.scan p t) ∧
      ((p.step (c! ';')).st = .paramKey ∧ (p.step (c! ';')).tok = [] ∧
        SameCore (p.step (c! ';')) (addAll q ((splitOn (qc! ',') s).map fun v => (fromLatin1 (toLowerB q.key), v)))) ∧
      ((p.step (c! ':')).st = .value ∧ SameCore (p.step (c! ':')) (addAll q ((splitOn (qc! ',') s).map fun v => (fromLatin1 (toLowerB q.key), v)))) := by
    intro n
    induction n with
    | zero =>
      intro s hn hs h1 h2 hq q hst ht
      have : s = [] := List.eq_nil_of_length_eq_zero (by omega)
      subst this
      refine ⟨q, by intro t; simp [toLatin1], ?_, ?_⟩
      · refine ⟨?_, ?_, ?_⟩ <;> simp [PL.step, hst, ht, SameCore, addAll, splitOn, toLatin1_fromLatin1, PL.addParameter, toLatin1_nil]
      · refine ⟨?_, ?_⟩ <;> simp [PL.step, hst, ht, SameCore, addAll, splitOn, toLatin1_fromLatin1, PL.addParameter, toLatin1_nil]
    | succ n ih =>
      intro s hn hs h1 h2 hq q hst ht
      by_cases hc : qc! ',' ∈ s
      · obtain ⟨a, b, hab, ha⟩ := exists_first hc
        have hsplit : splitOn (qc! ',') s = a :: splitOn (qc! ',') b := by
          rw [hab]
          clear hab hq h1 h2 hs hn ih
          induction a with
          | nil => simp [splitOn]
          | cons x a iha =>
            simp only [List.mem_cons, not_or] at ha
            simp only [List.cons_append, splitOn]
            rw [if_neg (fun e => ha.1 e.symm), iha ha.2]
        have hla : Latin1 a := fun u hu => hs u (by rw [hab]; simp [hu])
        have hlb : Latin1 b := fun u hu => hs u (by rw [hab]; simp [hu])
        have n1 : qc! ';' ∉ a := fun m => h1 (by rw [hab]; simp [m])
        have n2 : qc! ':' ∉ a := fun m => h2 (by rw [hab]; simp [m])
        have hqa := hq a (by rw [hsplit]; simp)
        have e1 := fun t => scan_paramValue q hst (toLatin1 a) t (not_mem_toLatin1 a hla _ n1) (not_mem_toLatin1 a hla _ n2)
          (not_mem_toLatin1 a hla _ ha) (toLatin1_head a hla hqa)
        have e2 : ∃ r, PL.step { q with tok := q.tok ++ toLatin1 a } (c! ',') = r ∧ r.st = .paramValue ∧ r.tok = [] ∧ r.key = q.key ∧
            SameCore r (q.addParameter (toLowerB q.key) (toLatin1 a)) := by
          refine ⟨_, rfl, ?_, ?_, ?_, ?_⟩ <;> simp [PL.step, hst, ht, SameCore, PL.addParameter]
        obtain ⟨r, e2, r1, r2, r3, r4⟩ := e2
        obtain ⟨p, p1, p2, p3⟩ := ih b (by rw [hab] at hn; simp at hn; omega) hlb (fun m => h1 (by rw [hab]; simp [m]))
          (fun m => h2 (by rw [hab]; simp [m])) (fun x hx => hq x (by rw [hsplit]; simp [hx])) r r1 r2
        have hsc : SameCore (addAll r ((splitOn (qc! ',') b).map fun v => (fromLatin1 (toLowerB r.key), v)))
            (addAll q ((splitOn (qc! ',') s).map fun v => (fromLatin1 (toLowerB q.key), v))) := by
          rw [hsplit, r3]
          show SameCore _ (addAll (q.addParameter (toLatin1 (fromLatin1 (toLowerB q.key))) (toLatin1 a)) _)
          rw [toLatin1_fromLatin1]
          exact sameCore_addAll r4 _
        refine ⟨p, ?_, ⟨p2.1, p2.2.1, sameCore_trans p2.2.2 hsc⟩, ⟨p3.1, sameCore_trans p3.2 hsc⟩⟩
        intro t
        rw [hab, toLatin1_append, List.append_assoc, e1]
        have : toLatin1 (qc! ',' :: b) = c! ',' :: toLatin1 b := by simp [toLatin1]
        rw [this, List.cons_append, scan_cons_of _ _ _ (by rw [e2, r1]; simp), e2, p1]
      · have hsplit : splitOn (qc! ',') s = [s] := by
          clear hq h1 h2 hs hn ih
          induction s with
          | nil => rfl
          | cons x s ih =>
            simp only [List.mem_cons, not_or] at hc
            simp only [splitOn]
            rw [if_neg (fun e => hc.1 e.symm), ih hc.2]
        have hqa := hq s (by rw [hsplit]; simp)
        have e1 := fun t => scan_paramValue q hst (toLatin1 s) t (not_mem_toLatin1 s hs _ h1) (not_mem_toLatin1 s hs _ h2)
          (not_mem_toLatin1 s hs _ hc) (toLatin1_head s hs hqa)
        refine ⟨_, e1, ?_, ?_⟩
        · rw [hsplit]
          refine ⟨?_, ?_, ?_⟩ <;> simp [PL.step, hst, ht, SameCore, addAll, toLatin1_fromLatin1, PL.addParameter]
        · rw [hsplit]
          refine ⟨?_, ?_⟩ <;> simp [PL.step, hst, ht, SameCore, addAll, toLatin1_fromLatin1, PL.addParameter]
  exact key s.length s (Nat.le_refl _) hs h1 h2 hq q hst ht


theorem scan_quoted (p : PL) (hp : p.st = .quotedValue) (s t : QByteArray) (h1 : (c! '"') ∉ s)
    (h2 : toLowerB p.key = b! "type" → (c! ',') ∉ s) :
    PL.scan p (s ++ t) = PL.scan { p with tok := p.tok ++ s } t := by
  by_cases hk : toLowerB p.key = b! "type"
  · have h2 := h2 hk
    clear hk
    induction s generalizing p with
    | nil => simp
    | cons c s ih =>
      simp only [List.mem_cons, not_or] at h1 h2
      have e : p.step c = { p with tok := p.tok ++ [c] } := by
        simp only [PL.step, hp]
        rw [if_neg]
        rintro (h | h)
        · exact h1.1 h.symm
        · exact h2.1 h.1.symm
      rw [List.cons_append, scan_cons_of _ _ _ (by rw [e]; simp [hp]), e, ih _ (by simp [hp]) h1.2 (fun _ => h2.2) h2.2]
      simp
  · clear h2
    induction s generalizing p with
    | nil => simp
    | cons c s ih =>
      simp only [List.mem_cons, not_or] at h1
      have e : p.step c = { p with tok := p.tok ++ [c] } := by
        simp only [PL.step, hp]
        rw [if_neg]
        rintro (h | h)
        · exact h1.1 h.symm
        · exact hk h.2
      rw [List.cons_append, scan_cons_of _ _ _ (by rw [e]; simp [hp]), e, ih _ (by simp [hp]) h1.2 (by simpa using hk)]
      simp

/-- the end of a quoted value -/
theorem quoted_close (q : PL) (hst : q.st = .quotedValue) : ∃ r, q.step (c! '"') = r ∧ r.st = .afterParamValue ∧ r.tok = [] ∧
    SameCore r (q.addParameter (toLowerB q.key) q.tok) := by
  refine ⟨_, rfl, ?_, ?_, ?_⟩ <;> simp [PL.step, hst, SameCore]

/-- reading a quoted list of types -/
theorem scan_quoted_list (n : Nat) : ∀ s : QString, s.length ≤ n → Latin1 s → qc! '"' ∉ s → ∀ q : PL, q.st = .quotedValue → q.tok = [] →
    toLowerB q.key = b! "type" →
    ∃ p : PL, (∀ t, PL.scan q (toLatin1 s ++ c! '"' :: t) = PL.scan p t) ∧ p.st = .afterParamValue ∧ p.tok = [] ∧
      SameCore p (addAll q ((splitOn (qc! ',') s).map fun v => (q! "type", v))) := by
  induction n with
  | zero =>
    intro s hn hs h1 q hst ht hk
    have : s = [] := List.eq_nil_of_length_eq_zero (by omega)
    subst this
    obtain ⟨r, r1, r2, r3, r4⟩ := quoted_close q hst
    refine ⟨r, ?_, r2, r3, ?_⟩
    · intro t
      rw [toLatin1_nil, List.nil_append, scan_cons_of _ _ _ (by rw [r1, r2]; simp), r1]
    · rw [hk, ht] at r4
      exact r4
  | succ n ih =>
    intro s hn hs h1 q hst ht hk
    by_cases hc : qc! ',' ∈ s
    · obtain ⟨a, b, hab, ha⟩ := exists_first hc
      have hsplit : splitOn (qc! ',') s = a :: splitOn (qc! ',') b := by
        rw [hab, splitOn_append_sep, splitOn_of_not_mem _ _ ha]; rfl
      have hla : Latin1 a := fun u hu => hs u (by rw [hab]; simp [hu])
      have hlb : Latin1 b := fun u hu => hs u (by rw [hab]; simp [hu])
      have n1 : qc! '"' ∉ a := fun m => h1 (by rw [hab]; simp [m])
      have e1 := fun t => scan_quoted q hst (toLatin1 a) t (not_mem_toLatin1 a hla _ n1) (fun _ => not_mem_toLatin1 a hla _ ha)
      have e2 : ∃ r, PL.step { q with tok := q.tok ++ toLatin1 a } (c! ',') = r ∧ r.st = .quotedValue ∧ r.tok = [] ∧ r.key = q.key ∧
          SameCore r (q.addParameter (b! "type") (toLatin1 a)) := by
        refine ⟨_, rfl, ?_, ?_, ?_, ?_⟩ <;> simp [PL.step, hst, ht, hk, SameCore, PL.addParameter]
      obtain ⟨r, e2, r1, r2, r3, r4⟩ := e2
      obtain ⟨p, p1, p2, p3, p4⟩ := ih b (by rw [hab] at hn; simp at hn; omega) hlb (fun m => h1 (by rw [hab]; simp [m])) r r1 r2 (by rw [r3, hk])
      have hsc : SameCore (addAll r ((splitOn (qc! ',') b).map fun v => (q! "type", v)))
          (addAll q ((splitOn (qc! ',') s).map fun v => (q! "type", v))) := by
        rw [hsplit]
        exact sameCore_addAll r4 _
      refine ⟨p, ?_, p2, p3, sameCore_trans p4 hsc⟩
      intro t
      rw [hab, toLatin1_append, List.append_assoc, e1]
      have : toLatin1 (qc! ',' :: b) = c! ',' :: toLatin1 b := by simp [toLatin1]
      rw [this, List.cons_append, scan_cons_of _ _ _ (by rw [e2, r1]; simp), e2, p1]
    · have hsplit := splitOn_of_not_mem _ _ hc
      have e1 := fun t => scan_quoted q hst (toLatin1 s) t (not_mem_toLatin1 s hs _ h1) (fun _ => not_mem_toLatin1 s hs _ hc)
      obtain ⟨r, r1, r2, r3, r4⟩ := quoted_close { q with tok := q.tok ++ toLatin1 s } hst
      refine ⟨r, ?_, r2, r3, ?_⟩
      · intro t
        rw [e1, scan_cons_of _ _ _ (by rw [r1, r2]; simp), r1]
      · rw [hsplit]
        refine sameCore_trans r4 ?_
        simp only [hk, ht, List.nil_append]
        exact ⟨rfl, rfl, rfl⟩

theorem after_close (p : PL) (hst : p.st = .afterParamValue) : (p.step (c! ';')).st = .paramKey ∧ (p.step (c! ';')).tok = [] ∧ SameCore (p.step (c! ';')) p ∧
    (p.step (c! ':')).st = .value ∧ SameCore (p.step (c! ':')) p := by
  refine ⟨?_, ?_, ?_, ?_, ?_⟩ <;> simp [PL.step, hst, SameCore]

theorem segReads (kv : QString × QString) (h : SegGood kv) : SegReads kv (segRead kv) := by
  obtain ⟨k, v⟩ := kv
  obtain ⟨lk, lv, ⟨k1, k2, k3, _⟩, lf, hv⟩ := h
  simp only at lk lv k1 k2 k3 lf hv
  have u1 := upper_sep k lk (c! ';') (by decide) k1
  have u2 := upper_sep k lk (c! ':') (by decide) k2
  have u3 := upper_sep k lk (c! '=') (by decide) k3
  intro q hq ht
  have hkey := fun t => scan_paramKey q hq (toUpperB (toLatin1 k)) t u1 u2 u3
  by_cases hv0 : v = []
  · subst hv0
    have e : segBody (k, []) = toUpperB (toLatin1 k) := by simp [segBody]
    refine ⟨{ q with tok := q.tok ++ toUpperB (toLatin1 k) }, ?_, ?_, ?_⟩
    · intro t; rw [e, hkey]
    · simp only [segRead, if_true, addAll, List.foldl_cons, List.foldl_nil, toLatin1_fromLatin1]
      refine ⟨by simp [PL.step, hq], by simp [PL.step, hq], ?_⟩
      simp only [PL.step, hq, ht, List.nil_append, if_true, true_or, SameCore]
      split <;> exact ⟨rfl, rfl, rfl⟩
    · simp only [segRead, if_true, addAll, List.foldl_cons, List.foldl_nil, toLatin1_fromLatin1]
      refine ⟨by simp [PL.step, hq], ?_⟩
      simp only [PL.step, hq, ht, List.nil_append, or_true, if_true, SameCore]
      split <;> exact ⟨rfl, rfl, rfl⟩
  · have e : ∀ t, segBody (k, v) ++ t = toUpperB (toLatin1 k) ++ c! '=' :: (toLatin1 v ++ t) := by
      intro t; simp [segBody, hv0]
    have e2 : PL.step { q with tok := q.tok ++ toUpperB (toLatin1 k) } (c! '=') =
        { q with key := toUpperB (toLatin1 k), tok := [], st := .paramValue } := by
      simp [PL.step, hq, ht]
    have hstart : ∀ t, PL.scan q (segBody (k, v) ++ t) = PL.scan { q with key := toUpperB (toLatin1 k), tok := [], st := .paramValue } (toLatin1 v ++ t) := by
      intro t
      rw [e, hkey, scan_cons_of _ _ _ (by rw [e2]; simp), e2]
    rcases hv with ⟨w, hw, hwq⟩ | ⟨v1, v2, v3⟩
    · have hl : Latin1 w := fun u hu => lv u (by rw [hw]; simp [hu])
      have hd : (v.drop 1).dropLast = w := by rw [hw]; simp
      have hlat : ∀ t, toLatin1 v ++ t = c! '"' :: (toLatin1 w ++ c! '"' :: t) := by
        intro t; rw [hw]; simp [toLatin1]
      have e3 : PL.step { q with key := toUpperB (toLatin1 k), tok := [], st := .paramValue } (c! '"') =
          { q with key := toUpperB (toLatin1 k), tok := [], st := .quotedValue } := by
        simp [PL.step]
      have hst2 : ∀ t, PL.scan q (segBody (k, v) ++ t) =
          PL.scan { q with key := toUpperB (toLatin1 k), tok := [], st := .quotedValue } (toLatin1 w ++ c! '"' :: t) := by
        intro t
        rw [hstart, hlat, scan_cons_of _ _ _ (by rw [e3]; simp), e3]
      have hhead : v.head? = some (qc! '"') := by rw [hw]; rfl
      by_cases hk : toLowerB (toUpperB (toLatin1 k)) = b! "type"
      · have hn : lowerName k = q! "type" := by unfold lowerName; rw [hk]; decide
        have hr : segRead (k, v) = (splitOn (qc! ',') w).map fun v => (q! "type", v) := by
          simp only [segRead, hv0, if_false, hhead, if_true, hn, hd]
        obtain ⟨p, p1, p2, p3, p4⟩ := scan_quoted_list w.length w (Nat.le_refl _) hl hwq
          { q with key := toUpperB (toLatin1 k), tok := [], st := .quotedValue } rfl rfl hk
        obtain ⟨a1, a2, a3, a4, a5⟩ := after_close p p2
        have hsc : SameCore p (addAll q (segRead (k, v))) := by
          rw [hr]
          exact sameCore_trans p4 (sameCore_addAll (by exact ⟨rfl, rfl, rfl⟩) _)
        exact ⟨p, fun t => by rw [hst2, p1], ⟨a1, a2, sameCore_trans a3 hsc⟩, ⟨a4, sameCore_trans a5 hsc⟩⟩
      · have hn : lowerName k ≠ q! "type" := by
          intro h
          apply hk
          have := congrArg toLatin1 h
          unfold lowerName at this
          rw [toLatin1_fromLatin1] at this
          rw [this]; decide
        have hr : segRead (k, v) = [(lowerName k, w)] := by
          simp only [segRead, hv0, if_false, hhead, if_true, hn, hd]
        have e4 := fun t => scan_quoted { q with key := toUpperB (toLatin1 k), tok := [], st := .quotedValue } rfl (toLatin1 w) t
          (not_mem_toLatin1 w hl _ hwq) (fun h => absurd h hk)
        obtain ⟨p, p1, p2, p3, p4⟩ := quoted_close { q with key := toUpperB (toLatin1 k), tok := [] ++ toLatin1 w, st := .quotedValue } rfl
        obtain ⟨a1, a2, a3, a4, a5⟩ := after_close p p2
        have hsc : SameCore p (addAll q (segRead (k, v))) := by
          rw [hr]
          refine sameCore_trans p4 ?_
          simp only [addAll, List.foldl_cons, List.foldl_nil, lowerName, toLatin1_fromLatin1, List.nil_append]
          exact ⟨rfl, rfl, rfl⟩
        refine ⟨p, fun t => ?_, ⟨a1, a2, sameCore_trans a3 hsc⟩, ⟨a4, sameCore_trans a5 hsc⟩⟩
        rw [hst2, e4, scan_cons_of _ _ _ (by rw [p1, p2]; simp), p1]
    · have hhead : v.head? ≠ some (qc! '"') := by
        intro hh
        cases hs : splitOn (qc! ',') v with
        | nil => exact splitOn_ne_nil _ _ hs
        | cons a r =>
          have := v3 a (by rw [hs]; simp)
          cases v with
          | nil => simp at hh
          | cons x t =>
            simp only [List.head?_cons, Option.some.injEq] at hh
            subst hh
            simp only [splitOn] at hs
            rw [if_neg (by decide)] at hs
            split at hs <;> (simp only [List.cons.injEq] at hs; rw [← hs.1] at this; simp at this)
      have hr : segRead (k, v) = (splitOn (qc! ',') v).map fun x => (lowerName k, x) := by
        simp only [segRead, hv0, if_false, hhead]
      obtain ⟨p, p1, p2, p3⟩ := scan_list v lv v1 v2 v3 { q with key := toUpperB (toLatin1 k), tok := [], st := .paramValue } rfl rfl
      have hsc : SameCore (addAll { q with key := toUpperB (toLatin1 k), tok := [], st := .paramValue }
          ((splitOn (qc! ',') v).map fun x => (lowerName k, x))) (addAll q (segRead (k, v))) := by
        rw [hr]
        exact sameCore_addAll (by exact ⟨rfl, rfl, rfl⟩) _
      exact ⟨p, fun t => by rw [hstart, p1], ⟨p2.1, p2.2.1, sameCore_trans p2.2.2 hsc⟩, ⟨p3.1, sameCore_trans p3.2 hsc⟩⟩

/-- all parameters of a line, as bytes -/
def segsBytes (kvs : List (QString × QString)) : QByteArray := kvs.flatMap fun kv => c! ';' :: segBody kv

theorem addAll_append (p : PL) (a b : List (QString × QString)) : addAll p (a ++ b) = addAll (addAll p a) b := by simp [addAll]

/-- from the state after a name or a parameter -/
theorem scan_segs (kvs : List (QString × QString)) (hk : ∀ kv ∈ kvs, SegGood kv) (p q : PL)
    (h1 : (p.step (c! ';')).st = .paramKey ∧ (p.step (c! ';')).tok = [] ∧ SameCore (p.step (c! ';')) q)
    (h2 : (p.step (c! ':')).st = .value ∧ SameCore (p.step (c! ':')) q) (val : QByteArray) :
    ∃ r, PL.scan p (segsBytes kvs ++ c! ':' :: val) = (r, some val) ∧ SameCore r (addAll q (kvs.flatMap segRead)) := by
  induction kvs generalizing p q with
  | nil =>
    refine ⟨p.step (c! ':'), ?_, h2.2⟩
    simp only [segsBytes, List.flatMap_nil, List.nil_append, PL.scan]
    rw [if_pos h2.1]
  | cons kv kvs ih =>
    obtain ⟨r, r1, r2, r3⟩ := segReads kv (hk kv (by simp)) (p.step (c! ';')) h1.1 h1.2.1
    have hsc := sameCore_addAll h1.2.2 (segRead kv)
    obtain ⟨f, f1, f2⟩ := ih (fun x hx => hk x (by simp [hx])) r (addAll q (segRead kv))
      ⟨r2.1, r2.2.1, sameCore_trans r2.2.2 hsc⟩ ⟨r3.1, sameCore_trans r3.2 hsc⟩
    refine ⟨f, ?_, ?_⟩
    · have e : segsBytes (kv :: kvs) ++ c! ':' :: val = c! ';' :: (segBody kv ++ (segsBytes kvs ++ c! ':' :: val)) := by
        simp [segsBytes]
      rw [e, scan_cons_of _ _ _ (by rw [h1.1]; simp), r1, f1]
    · rw [List.flatMap_cons, addAll_append]; exact f2


theorem writeHead_segs (l : VCardLine) (hs : Sorted l.params) : writeHead l = nameBytes l ++ segsBytes (flatParams l.params) := by
  have inner : ∀ (k : QString) (vs : List QString) (acc : QByteArray),
      vs.foldl (fun textLine str =>
        let textLine := textLine ++ [c! ';'] ++ toUpperB (toLatin1 k)
        if str ≠ [] then textLine ++ [c! '='] ++ toLatin1 str else textLine) acc =
      acc ++ segsBytes (vs.map fun v => (k, v)) := by
    intro k vs
    induction vs with
    | nil => intro acc; simp [segsBytes]
    | cons v vs ih =>
      intro acc
      rw [List.foldl_cons, ih _]
      by_cases hv : v = [] <;> simp [hv, segsBytes, segBody]
  have outer : ∀ (m : ParameterMap) (acc : QByteArray), (∀ p ∈ m, p ∈ l.params) →
      (m.map (·.1)).foldl (fun textLine param =>
        (l.parameters param).foldl (fun textLine str =>
        let textLine := textLine ++ [c! ';'] ++ toUpperB (toLatin1 param)
        if str ≠ [] then textLine ++ [c! '='] ++ toLatin1 str else textLine) textLine) acc =
      acc ++ segsBytes (flatParams m) := by
    intro m
    induction m with
    | nil => intro acc _; simp [flatParams, segsBytes]
    | cons p m ih =>
      intro acc h
      have hp := h p (by simp)
      have hf : l.parameters p.1 = p.2 := by simp [VCardLine.parameters, find_of_mem hs hp]
      rw [List.map_cons, List.foldl_cons, hf, inner p.1 p.2 acc, ih _ (fun x hx => h x (by simp [hx]))]
      simp [flatParams, segsBytes]
  unfold writeHead
  exact outer l.params _ (fun p hp => hp)

/-! ### Names -/

/-- group and name as they are read back from a written name -/
def nameRead (id : QString) : QString × QString :=
  match splitOn (qc! '.') id with
  | [g, i] => (g, i)
  | _ => ([], id)

structure NameGood (s : QString) : Prop where
  latin : Latin1 s
  sep : qc! ';' ∉ s ∧ qc! ':' ∉ s ∧ (10 : UInt16) ∉ s
  dot : (splitOn (qc! '.') s).length ≤ 2
  start : ∀ c, s.head? = some c → c.toNat ≠ 32 ∧ ¬ (9 ≤ c.toNat ∧ c.toNat ≤ 13)
  marker : toLowerB (toLatin1 s) ≠ b! "begin" ∧ toLowerB (toLatin1 s) ≠ b! "end"

theorem scan_name (id : QString) (h : NameGood id) :
    ∃ p : PL, (∀ t, PL.scan {} (toLatin1 id ++ t) = PL.scan p t) ∧
    ((p.step (c! ';')).st = .paramKey ∧ (p.step (c! ';')).tok = [] ∧
      SameCore (p.step (c! ';')) { line := { identifier := (nameRead id).2, group := (nameRead id).1 } }) ∧
    ((p.step (c! ':')).st = .value ∧ SameCore (p.step (c! ':')) { line := { identifier := (nameRead id).2, group := (nameRead id).1 } }) := by
  have n : ∀ s : QString, Latin1 s → qc! ';' ∉ s → qc! ':' ∉ s → qc! '.' ∉ s → ∀ p : PL, p.st = .initial → ∀ t,
      PL.scan p (toLatin1 s ++ t) = PL.scan { p with tok := p.tok ++ toLatin1 s } t := by
    intro s hl h1 h2 h3 p hp t
    exact scan_initial p hp _ _ (not_mem_toLatin1 s hl _ h1) (not_mem_toLatin1 s hl _ h2) (not_mem_toLatin1 s hl _ h3)
  have fin : ∀ (p : PL), p.st = .initial → ∀ s, Latin1 s → p.tok = toLatin1 s →
      ((p.step (c! ';')).st = .paramKey ∧ (p.step (c! ';')).tok = [] ∧
        SameCore (p.step (c! ';')) { p with line := { p.line with identifier := s } }) ∧
      ((p.step (c! ':')).st = .value ∧ SameCore (p.step (c! ':')) { p with line := { p.line with identifier := s } }) := by
    intro p hp s hs ht
    refine ⟨⟨?_, ?_, ?_⟩, ⟨?_, ?_⟩⟩ <;> simp [PL.step, hp, ht, SameCore, fromLatin1_toLatin1 s hs]
  obtain ⟨hl, ⟨s1, s2, s3⟩, hd, _, _⟩ := h
  by_cases hc : qc! '.' ∈ id
  · obtain ⟨g, i, hgi, hg⟩ := exists_first hc
    have hsp : splitOn (qc! '.') id = g :: splitOn (qc! '.') i := by rw [hgi, splitOn_append _ _ _ hg]
    have hi : qc! '.' ∉ i := by
      intro hm
      obtain ⟨a, b, hab, ha⟩ := exists_first hm
      rw [hsp, hab, splitOn_append _ _ _ ha] at hd
      simp only [List.length_cons] at hd
      have := splitOn_ne_nil (qc! '.') b
      cases hb : splitOn (qc! '.') b with
      | nil => exact this hb
      | cons x y => rw [hb] at hd; simp at hd
    have hnr : nameRead id = (g, i) := by
      unfold nameRead; rw [hsp, splitOn_of_not_mem _ _ hi]
    have lg : Latin1 g := fun u hu => hl u (by rw [hgi]; simp [hu])
    have li : Latin1 i := fun u hu => hl u (by rw [hgi]; simp [hu])
    have m : ∀ c, c ∉ id → c ∉ g ∧ c ∉ i := by
      intro c hc; constructor <;> intro h <;> apply hc <;> rw [hgi] <;> simp [h]
    have e2 : PL.step { tok := toLatin1 g } (c! '.') = { line := { group := g } } := by
      simp [PL.step, fromLatin1_toLatin1 g lg]
    rw [hnr]
    refine ⟨{ tok := toLatin1 i, line := { group := g } }, ?_, ?_⟩
    · intro t
      rw [hgi, toLatin1_append, List.append_assoc, n g lg (m _ s1).1 (m _ s2).1 hg {} rfl]
      have : toLatin1 (qc! '.' :: i) = c! '.' :: toLatin1 i := by simp [toLatin1]
      have e2' : PL.step { tok := ([] : QByteArray) ++ toLatin1 g } (c! '.') = { line := { group := g } } := e2
      rw [this, List.cons_append, scan_cons_of _ _ _ (by rw [e2']; simp), e2', n i li (m _ s1).2 (m _ s2).2 hi _ rfl]
      rfl
    · exact fin { tok := toLatin1 i, line := { group := g } } rfl i li rfl
  · have hnr : nameRead id = ([], id) := by
      unfold nameRead; rw [splitOn_of_not_mem _ _ hc]
    rw [hnr]
    exact ⟨{ tok := toLatin1 id }, fun t => by rw [n id hl s1 s2 hc {} rfl]; rfl, fin _ rfl id hl rfl⟩

/-! ### Whole lines -/

/-- text that needs no special treatment -/
structure PlainBytes (s : QString) : Prop where
  wf : WellFormed s
  bom : s.head? ≠ some 0xFEFF
  safe : EscapeSafe (toUtf8 s)

/-- a parameter list without encoding and charset -/
def NoCoding (h : List (QString × QString)) : Prop := ∀ p ∈ h, p.1 ≠ q! "encoding" ∧ p.1 ≠ q! "charset"

/-- the value of a line with parameters added in the order `h` is read back -/
inductive ValueReads (E : Codecs) (h : List (QString × QString)) : QVariant → Prop
  | text (s) : NoCoding h → NoCoding (h.flatMap segRead) → PlainBytes s → s ≠ [] → ValueReads E h (.str s)
  | bytes (b) (h1 h2) : h = h1 ++ (q! "encoding", q! "b") :: h2 → NoCoding (h1 ++ h2) → NoCoding ((h1 ++ h2).flatMap segRead) → b ≠ [] →
      ValueReads E h (.bytes b)
  | coded (s) (h') : h = (q! "charset", q! "UTF-8") :: (q! "encoding", q! "QUOTED-PRINTABLE") :: h' → NoCoding h' →
      NoCoding (h'.flatMap segRead) → Quotable E s → ValueReads E h (.str s)

/-- what is read back from a written line with a value -/
def lineRead (l : VCardLine) : VCardLine :=
  { identifier := (nameRead l.identifier).2, group := (nameRead l.identifier).1, value := l.value,
    params := paramsAfter ((flatParams l.params).flatMap segRead) }

structure LineGood (E : Codecs) (l : VCardLine) : Prop where
  group : l.group = []
  name : NameGood l.identifier
  raw : l.base64Value = []
  params : ∃ h, l.params = paramsAfter h ∧ (∀ p ∈ h, SegGood p) ∧ ValueReads E h l.value

theorem segRead_latin (kv : QString × QString) (h : SegGood kv) : ∀ p ∈ segRead kv, Latin1 p.1 ∧ Latin1 p.2 := by
  have sub : ∀ (s : QString), Latin1 s → ∀ x ∈ splitOn (qc! ',') s, Latin1 x := by
    intro s hs x hx u hu
    apply hs
    rw [← join_splitOn (qc! ',') s]
    clear hs
    generalize splitOn (qc! ',') s = L at hx
    induction L with
    | nil => simp at hx
    | cons a t ih =>
      simp only [List.mem_cons] at hx
      cases t with
      | nil => simp at hx; subst hx; simpa [join] using hu
      | cons b t =>
        simp only [join, List.mem_append]
        rcases hx with rfl | hx
        · simp [hu]
        · right; exact ih hx
  intro p hp
  unfold segRead at hp
  have hln : Latin1 (lowerName kv.1) := latin1_fromLatin1 _
  split at hp
  · simp only [List.mem_singleton] at hp
    subst hp
    refine ⟨?_, latin1_fromLatin1 _⟩
    simp only
    split <;> (intro u hu; revert u; decide)
  · have hdl : Latin1 (kv.2.drop 1).dropLast := by
      intro u hu
      exact h.latinV u (List.mem_of_mem_drop ((List.dropLast_sublist _).subset hu))
    split at hp
    · split at hp
      · simp only [List.mem_map] at hp
        obtain ⟨x, hx, rfl⟩ := hp
        exact ⟨hln, sub _ hdl x hx⟩
      · simp only [List.mem_singleton] at hp
        subst hp
        exact ⟨hln, hdl⟩
    · simp only [List.mem_map] at hp
      obtain ⟨x, hx, rfl⟩ := hp
      exact ⟨hln, sub _ h.latinV x hx⟩


theorem getLast_const {h : List (QString × QString)} {k v : QString} (h1 : (k, v) ∈ h) (h2 : ∀ p ∈ h, p.1 = k → p.2 = v) :
    (valuesOf h k).getLast? = some v := by
  have hm : ∀ x ∈ valuesOf h k, x = v := by
    intro x hx
    simp only [valuesOf, List.mem_map, List.mem_filter, decide_eq_true_eq] at hx
    obtain ⟨p, ⟨hp, he⟩, rfl⟩ := hx
    exact h2 p hp he
  have hv : v ∈ valuesOf h k := by
    simp only [valuesOf, List.mem_map, List.mem_filter, decide_eq_true_eq]
    exact ⟨(k, v), ⟨h1, rfl⟩, rfl⟩
  have hne : valuesOf h k ≠ [] := List.ne_nil_of_mem hv
  rw [List.getLast?_eq_some_getLast hne, hm _ (List.getLast_mem hne)]

theorem head_const {h : List (QString × QString)} {k v : QString} (h1 : (k, v) ∈ h) (h2 : ∀ p ∈ h, p.1 = k → p.2 = v) :
    (valuesOf h k).head?.getD [] = v ∧ valuesOf h k ≠ [] := by
  have hm : ∀ x ∈ valuesOf h k, x = v := by
    intro x hx
    simp only [valuesOf, List.mem_map, List.mem_filter, decide_eq_true_eq] at hx
    obtain ⟨p, ⟨hp, he⟩, rfl⟩ := hx
    exact h2 p hp he
  have hv : v ∈ valuesOf h k := by
    simp only [valuesOf, List.mem_map, List.mem_filter, decide_eq_true_eq]
    exact ⟨(k, v), ⟨h1, rfl⟩, rfl⟩
  cases hvs : valuesOf h k with
  | nil => rw [hvs] at hv; simp at hv
  | cons a t => rw [hvs] at hm; simp [hm a (by simp)]

theorem noCoding_flat {h : List (QString × QString)} (hn : NoCoding (h.flatMap segRead)) :
    NoCoding ((flatParams (paramsAfter h)).flatMap segRead) := by
  intro p hp
  simp only [List.mem_flatMap] at hp
  obtain ⟨kv, hkv, hp⟩ := hp
  exact hn p (List.mem_flatMap.2 ⟨kv, flatParams_mem hkv, hp⟩)

theorem flatParams_mem_iff {h : List (QString × QString)} {kv : QString × QString} : kv ∈ flatParams (paramsAfter h) ↔ kv ∈ h := by
  refine ⟨flatParams_mem, fun hm => ?_⟩
  have hv : kv.2 ∈ valuesOf (flatParams (paramsAfter h)) kv.1 := by
    rw [valuesOf_flat_after, mem_distinct]
    simp only [valuesOf, List.mem_map, List.mem_filter, decide_eq_true_eq]
    exact ⟨kv, ⟨hm, rfl⟩, rfl⟩
  simp only [valuesOf, List.mem_map, List.mem_filter, decide_eq_true_eq] at hv
  obtain ⟨p, ⟨hp, he⟩, h2⟩ := hv
  have : p = kv := Prod.ext he h2
  rw [← this]; exact hp

theorem mem_flatRead {h : List (QString × QString)} {p : QString × QString} :
    p ∈ (flatParams (paramsAfter h)).flatMap segRead ↔ p ∈ h.flatMap segRead := by
  simp only [List.mem_flatMap, flatParams_mem_iff]

theorem value_reads (E : Codecs) (h : List (QString × QString)) (l : VCardLine) (hl : l.params = paramsAfter h)
    (hok : ∀ p ∈ h, SegGood p) (hv : ValueReads E h l.value) (q : PL)
    (hq : SameCore q (addAll { line := { identifier := (nameRead l.identifier).2, group := (nameRead l.identifier).1 } }
      ((flatParams l.params).flatMap segRead))) :
    ∃ out mb, writeValue E l = (out, mb) ∧ out ≠ [] ∧ EscapeSafe out ∧ q.decodeValue E out = lineRead l ∧ q.wantsMore out = false := by
  have hrl : ∀ kv ∈ (flatParams l.params).flatMap segRead, Latin1 kv.1 ∧ Latin1 kv.2 := by
    intro kv hkv
    simp only [List.mem_flatMap] at hkv
    obtain ⟨p, hp, hkv⟩ := hkv
    rw [hl] at hp
    exact segRead_latin p (hok p (flatParams_mem hp)) kv hkv
  obtain ⟨c1, c2, c3⟩ := addAll_core _ hrl { line := { identifier := (nameRead l.identifier).2, group := (nameRead l.identifier).1 } }
  have hfold : ∀ kvs : List (QString × QString), kvs.foldl (fun m kv => ParameterMap.add m kv.1 kv.2) [] = paramsAfter kvs := by
    intro kvs
    induction kvs using rev_induction with
    | h0 => rfl
    | hs kvs kv ih => rw [paramsAfter_snoc, ← ih, List.foldl_append, ← ParameterMap.add_eq]; rfl
  have hline : q.line = { identifier := (nameRead l.identifier).2, group := (nameRead l.identifier).1, params := paramsAfter ((flatParams l.params).flatMap segRead) } := by
    rw [hq.1, c1]; simp only [hfold]
  have henc := hq.2.1.trans c2
  have hcs := hq.2.2.trans c3
  have hpar : ∀ k, l.parameter k = (valuesOf h k).head?.getD [] := by
    intro k
    have := C12_first_value h k
    unfold VCardLine.parameter at this ⊢
    rw [hl]; exact this
  have hlist : ∀ k, k ∈ l.parameterList ↔ valuesOf h k ≠ [] := by
    intro k
    have := mem_parameterList_iff h k
    unfold VCardLine.parameterList at this ⊢
    rw [hl]; exact this
  unfold writeValue
  generalize hval : l.value = val at hv
  have hl' : lineRead l = { identifier := (nameRead l.identifier).2, group := (nameRead l.identifier).1, value := val, params := paramsAfter ((flatParams l.params).flatMap segRead) } := by rw [lineRead, hval]
  cases hv with
  | text s hno hno2 hp hne =>
    have hno2 := noCoding_flat hno2
    rw [← hl] at hno2
    have v1 := valuesOf_none (fun p hp => (hno p hp).1)
    have v2 := valuesOf_none (fun p hp => (hno p hp).2)
    have w1 := valuesOf_none (fun p hp => (hno2 p hp).1)
    have w2 := valuesOf_none (fun p hp => (hno2 p hp).2)
    have he : q.enc = [] := by rw [henc, w1]; rfl
    have hc : q.charset = [] := by rw [hcs, w2]; rfl
    have hp1 : l.parameter (q! "charset") = [] := by rw [hpar, v2]; rfl
    have hm : q! "encoding" ∉ l.parameterList := by rw [hlist]; simp [v1]
    refine ⟨toUtf8 s, true, ?_, ?_, hp.safe, ?_, ?_⟩
    · simp [hp1, hm, QVariant.toString]
    · intro e
      have := C11_utf8_roundtrip_partial s hp.wf hp.bom
      rw [e] at this
      exact hne (by rw [← this]; rfl)
    · rw [hl']
      unfold PL.decodeValue
      simp only [he, hc, hline]
      simp [C11_utf8_roundtrip_partial s hp.wf hp.bom]
    · simp [PL.wantsMore, he]
  | bytes b h1 h2 hh hno hno2 hne =>
    have hmem : (q! "encoding", q! "b") ∈ h := by rw [hh]; simp
    have hall : ∀ p ∈ h, (p.1 = q! "encoding" → p.2 = q! "b") ∧ p.1 ≠ q! "charset" := by
      intro p hp
      rw [hh] at hp
      simp only [List.mem_append, List.mem_cons] at hp
      rcases hp with hp | rfl | hp
      · have := hno p (by simp [hp]); exact ⟨fun e => absurd e this.1, this.2⟩
      · exact ⟨fun _ => rfl, by decide⟩
      · have := hno p (by simp [hp]); exact ⟨fun e => absurd e this.1, this.2⟩
    have hsr : segRead (q! "encoding", q! "b") = [(q! "encoding", q! "b")] := by decide
    have hmem2 : (q! "encoding", q! "b") ∈ (flatParams l.params).flatMap segRead := by
      rw [hl, mem_flatRead]; exact List.mem_flatMap.2 ⟨_, hmem, by rw [hsr]; simp⟩
    have hall2 : ∀ p ∈ (flatParams l.params).flatMap segRead, (p.1 = q! "encoding" → p.2 = q! "b") ∧ p.1 ≠ q! "charset" := by
      intro p hp
      rw [hl, mem_flatRead] at hp
      have : p ∈ (h1 ++ h2).flatMap segRead ∨ p ∈ segRead (q! "encoding", q! "b") := by
        rw [hh] at hp
        simp only [List.flatMap_append, List.flatMap_cons, List.mem_append] at hp ⊢
        tauto
      rcases this with h | h
      · have := hno2 p h; exact ⟨fun e => absurd e this.1, this.2⟩
      · rw [hsr] at h; simp only [List.mem_singleton] at h; subst h
        exact ⟨fun _ => rfl, by decide⟩
    have he : q.enc = b! "b" := by rw [henc, getLast_const hmem2 (fun p hp => (hall2 p hp).1)]; show toLowerB (toLatin1 _) = _; decide
    have hc : q.charset = [] := by rw [hcs, valuesOf_none (fun p hp => (hall2 p hp).2)]; rfl
    have hp : l.parameter (q! "charset") = [] := by rw [hpar, valuesOf_none (fun p hp => (hall p hp).2)]; rfl
    obtain ⟨hh1, hnn⟩ := head_const hmem (fun p hp => (hall p hp).1)
    have hm : q! "encoding" ∈ l.parameterList := by rw [hlist]; exact hnn
    have hp2 : l.parameter (q! "encoding") = q! "b" := by rw [hpar, hh1]
    refine ⟨toBase64 b, false, ?_, ?_, ?_, ?_, ?_⟩
    · simp [hp, hm, hp2, toLowerQ, lowerQ]
    · intro e
      have := C10_base64_roundtrip b
      rw [e] at this
      exact hne (by rw [← this]; rfl)
    · intro pre post c e
      have hmem : (92 : UInt8) ∈ toBase64 b := by rw [e]; simp
      exact absurd (C10_base64_alphabet b 92 hmem) (by decide)
    · rw [hl']
      unfold PL.decodeValue
      simp only [he, hc, hline]
      simp [C10_base64_roundtrip]
    · simp [PL.wantsMore, he]
  | coded s h' hh hno hno2 hcod =>
    obtain ⟨enc, dec, henc', hdec', hrt, hne, hsafe, hlast⟩ := hcod.codecs
    have s1 : segRead (q! "charset", q! "UTF-8") = [(q! "charset", q! "UTF-8")] := by decide
    have s2 : segRead (q! "encoding", q! "QUOTED-PRINTABLE") = [(q! "encoding", q! "QUOTED-PRINTABLE")] := by decide
    have m1 : (q! "encoding", q! "QUOTED-PRINTABLE") ∈ h := by rw [hh]; simp
    have m2 : (q! "charset", q! "UTF-8") ∈ h := by rw [hh]; simp
    have all : ∀ p ∈ h, (p.1 = q! "encoding" → p.2 = q! "QUOTED-PRINTABLE") ∧ (p.1 = q! "charset" → p.2 = q! "UTF-8") := by
      intro p hp
      rw [hh] at hp
      simp only [List.mem_cons] at hp
      rcases hp with rfl | rfl | hp
      · exact ⟨fun h => absurd h (by decide), fun _ => rfl⟩
      · exact ⟨fun _ => rfl, fun h => absurd h (by decide)⟩
      · have := hno p hp; exact ⟨fun e => absurd e this.1, fun e => absurd e this.2⟩
    have all2 : ∀ p ∈ (flatParams l.params).flatMap segRead,
        (p.1 = q! "encoding" → p.2 = q! "QUOTED-PRINTABLE") ∧ (p.1 = q! "charset" → p.2 = q! "UTF-8") := by
      intro p hp
      rw [hl, mem_flatRead, hh] at hp
      simp only [List.flatMap_cons, List.mem_append, s1, s2, List.mem_singleton] at hp
      rcases hp with rfl | rfl | hp
      · exact ⟨fun h => absurd h (by decide), fun _ => rfl⟩
      · exact ⟨fun _ => rfl, fun h => absurd h (by decide)⟩
      · have := hno2 p hp; exact ⟨fun e => absurd e this.1, fun e => absurd e this.2⟩
    have r1 : (q! "encoding", q! "QUOTED-PRINTABLE") ∈ (flatParams l.params).flatMap segRead := by
      rw [hl, mem_flatRead]; exact List.mem_flatMap.2 ⟨_, m1, by rw [s2]; simp⟩
    have r2 : (q! "charset", q! "UTF-8") ∈ (flatParams l.params).flatMap segRead := by
      rw [hl, mem_flatRead]; exact List.mem_flatMap.2 ⟨_, m2, by rw [s1]; simp⟩
    have he : q.enc = b! "quoted-printable" := by rw [henc, getLast_const r1 (fun p hp => (all2 p hp).1)]; show toLowerB (toLatin1 _) = _; decide
    have hc : q.charset = b! "utf-8" := by rw [hcs, getLast_const r2 (fun p hp => (all2 p hp).2)]; show toLowerB (toLatin1 _) = _; decide
    have hp : l.parameter (q! "charset") = q! "UTF-8" := by rw [hpar, (head_const m2 (fun p hp => (all p hp).2)).1]
    have hp2 : l.parameter (q! "encoding") = q! "QUOTED-PRINTABLE" := by rw [hpar, (head_const m1 (fun p hp => (all p hp).1)).1]
    have hm : q! "encoding" ∈ l.parameterList := by rw [hlist]; exact (head_const m1 (fun p hp => (all p hp).1)).2
    have lat : toLatin1 (q! "UTF-8") = b! "UTF-8" := by decide
    have low : toLowerQ (q! "QUOTED-PRINTABLE") = q! "quoted-printable" := by decide
    refine ⟨E.qpEncode (enc s), false, ?_, hne, hsafe, ?_, ?_⟩
    · simp only [hp, hp2, lat, low, henc', hm, if_true, QVariant.toString]
      simp
    · rw [hl']
      unfold PL.decodeValue
      simp only [he, hc, hline, hdec']
      simp [hrt]
    · simp [PL.wantsMore, endsWithChar, hlast]


/-! ### Reading blocks -/

theorem feed_pieces (E : Codecs) (t : QByteArray) (hg : GoodStart t) (s : RS) (hi : s.inVCard = true) (c : VCard)
    (ha : absorb E s = some c) (h : QByteArray) (ps : List QByteArray) (hne : h ≠ []) (hfl : h ++ ps.flatten = t) :
    (physList h ps).foldlM (feed E) s = some { currentLine := t, inVCard := true, card := c, out := s.out } := by
  obtain ⟨c0, hc0, hw1, hw2⟩ := hg.head
  obtain ⟨c1, r, hh⟩ : ∃ c1 r, h = c1 :: r := by
    cases h with
    | nil => exact absurd rfl hne
    | cons a b => exact ⟨a, b, rfl⟩
  have hc1 : c1 = c0 := by
    rw [← hfl, hh] at hc0; simpa using hc0
  subst hc1
  obtain ⟨f1, f2⟩ := goodStart_line (r := r) hw1 hw2
  have f := feed_plain E s h hi c ha (by rw [hh]; exact f1) (by rw [hh]; exact f2)
  have hm : RS.mark h { s with card := c } = { currentLine := h, inVCard := true, card := c, out := s.out } := by
    unfold RS.mark
    rw [if_neg, if_neg]
    · simp [hi]
    · intro hs
      have := startsWithCI_prefix _ _ ps.flatten hs
      rw [hfl, hg.noend] at this; cases this
    · intro hs
      have := startsWithCI_prefix _ _ ps.flatten hs
      rw [hfl, hg.nobegin] at this; cases this
  have rest : ∀ (ps : List QByteArray) (cl : QByteArray), (ps.map ((32 : UInt8) :: ·)).foldlM (feed E) { currentLine := cl, inVCard := true, card := c, out := s.out } =
      some { currentLine := cl ++ ps.flatten, inVCard := true, card := c, out := s.out } := by
    intro ps
    induction ps with
    | nil => intro cl; simp
    | cons p ps ih =>
      intro cl
      rw [List.map_cons, List.foldlM_cons]
      have : feed E { currentLine := cl, inVCard := true, card := c, out := s.out } (32 :: p) =
          some { currentLine := cl ++ p, inVCard := true, card := c, out := s.out } := by
        simp [feed, isFolded]
      rw [this]
      show List.foldlM _ _ _ = _
      rw [ih]
      simp
  unfold physList
  rw [List.foldlM_cons, f, hm]
  show List.foldlM _ _ _ = _
  rw [rest ps h, hfl]

/-- What the reader makes of a written line: nothing, or a line. -/
def Reads (E : Codecs) (l : VCardLine) : Option VCardLine → Prop
  | none => writeLine E l = []
  | some l' => ∃ ls t, writeLine E l = crlfText ls ∧ (∀ x ∈ ls, (10 : UInt8) ∉ x) ∧ t ≠ [] ∧ parsePure E t = some l' ∧
      ∀ (s : RS) (c : VCard), s.inVCard = true → absorb E s = some c →
        ls.foldlM (feed E) s = some { currentLine := t, inVCard := true, card := c, out := s.out }

theorem name_start (id : QString) (h : NameGood id) (sep : UInt8) (hsep : sep = c! ';' ∨ sep = c! ':') (rest : QByteArray) :
    GoodStart (toLatin1 id ++ sep :: rest) := by
  have n1 : (c! ';') ∉ toLatin1 id := not_mem_toLatin1 _ h.latin _ h.sep.1
  have n2 : (c! ':') ∉ toLatin1 id := not_mem_toLatin1 _ h.latin _ h.sep.2.1
  refine ⟨?_, ?_, ?_⟩
  · cases hn : toLatin1 id with
    | nil => refine ⟨sep, by simp, ?_, ?_⟩ <;> rcases hsep with rfl | rfl <;> decide
    | cons c r => exact ⟨c, by simp, head_ok id h.latin h.start c (by rw [hn]; rfl)⟩
  · cases hb : startsWithCI (b! "begin:vcard") (toLatin1 id ++ sep :: rest) with
    | false => rfl
    | true => exact absurd (marker_name (b! "begin") (b! "vcard") _ _ _ hsep ⟨n1, n2⟩ (by decide) hb) h.marker.1
  · cases hb : startsWithCI (b! "end:vcard") (toLatin1 id ++ sep :: rest) with
    | false => rfl
    | true => exact absurd (marker_name (b! "end") (b! "vcard") _ _ _ hsep ⟨n1, n2⟩ (by decide) hb) h.marker.2

theorem segBody_lf (kv : QString × QString) (h : SegGood kv) : (10 : UInt8) ∉ segBody kv := by
  have k1 := upper_sep kv.1 h.latinK 10 (by decide) h.sepK.2.2.2
  have v1 : (10 : UInt8) ∉ toLatin1 kv.2 := not_mem_toLatin1 _ h.latinV 10 h.lf
  unfold segBody
  split <;> simp [k1, v1]

/-- Reading a line whose value comes back as the bytes `dam`. -/
theorem reads_value (E : Codecs) (l r : VCardLine) (h : List (QString × QString)) (hg : l.group = []) (hname : NameGood l.identifier)
    (hp : l.params = paramsAfter h) (hok : ∀ p ∈ h, SegGood p) (hinv : l.value ≠ .invalid) (out dam : QByteArray) (mb : Bool)
    (hw : writeValue E l = (out, mb)) (hrem : removeEscapes (addEscapes out (excludesComma l)) = dam) (hon : dam ≠ [])
    (hval : ∀ q, SameCore q (addAll { line := { identifier := (nameRead l.identifier).2, group := (nameRead l.identifier).1 } }
        ((flatParams l.params).flatMap segRead)) → q.decodeValue E dam = r ∧ q.wantsMore dam = false) : Reads E l (some r) := by
  have hs : Sorted l.params := by rw [hp]; exact paramsAfter_sorted h
  have hseg : ∀ kv ∈ flatParams l.params, SegGood kv := by
    intro kv hkv; rw [hp] at hkv; exact hok kv (flatParams_mem hkv)
  have hhead : writeHead l = toLatin1 l.identifier ++ segsBytes (flatParams l.params) := by
    rw [writeHead_segs l hs]; simp [nameBytes, hg]
  obtain ⟨p, p1, p2, p3⟩ := scan_name l.identifier hname
  have hscan : ∀ val, ∃ q, PL.scan {} (writeHead l ++ c! ':' :: val) = (q, some val) ∧
      SameCore q (addAll { line := { identifier := (nameRead l.identifier).2, group := (nameRead l.identifier).1 } }
        ((flatParams l.params).flatMap segRead)) := by
    intro val
    obtain ⟨q, q1, q2⟩ := scan_segs (flatParams l.params) hseg p _ p2 p3 val
    exact ⟨q, by rw [hhead, List.append_assoc, p1, q1], q2⟩
  obtain ⟨q, hq1, hq2⟩ := hscan (addEscapes out (excludesComma l))
  obtain ⟨hdec, hmore⟩ := hval q hq2
  have hesc : addEscapes out (excludesComma l) ≠ [] := by
    intro e; rw [e] at hrem; exact hon (by rw [← hrem]; rfl)
  let t := writeHead l ++ c! ':' :: addEscapes out (excludesComma l)
  have hcontent : writeContent E l = some (t, mb) := by
    unfold writeContent; rw [hw]; simp [hesc, t]
  have hparse : parsePure E t = some r := by
    unfold parsePure
    rw [hq1]
    simp only [hrem, hmore, hdec]
    simp
  have hstart : GoodStart t := by
    show GoodStart (writeHead l ++ _)
    rw [hhead]
    cases hf : flatParams l.params with
    | nil => simpa [segsBytes] using name_start l.identifier hname (c! ':') (.inr rfl) _
    | cons kv r =>
      have := name_start l.identifier hname (c! ';') (.inl rfl) (segBody kv ++ segsBytes r ++ c! ':' :: addEscapes out (excludesComma l))
      simpa [segsBytes] using this
  have hnl : (10 : UInt8) ∉ t := by
    show (10 : UInt8) ∉ writeHead l ++ _
    have h1 : (10 : UInt8) ∉ toLatin1 l.identifier := not_mem_toLatin1 _ hname.latin _ hname.sep.2.2
    have h2 := (C01_escaped_is_single_line out (excludesComma l)).1
    have h3 : (10 : UInt8) ∉ segsBytes (flatParams l.params) := by
      simp only [segsBytes, List.mem_flatMap, List.mem_cons, not_exists, not_and, not_or]
      intro kv hkv
      exact ⟨by decide, segBody_lf kv (hseg kv hkv)⟩
    rw [hhead]
    simp [h1, h2, h3]
  obtain ⟨h0, ps, hpc, hfix⟩ := fixLineSize_eq t mb
  refine ⟨physList h0 ps, t, ?_, ?_, ?_, hparse, ?_⟩
  · unfold writeLine
    rw [← physical_eq, ← hfix]
    cases hv : l.value with
    | invalid => exact absurd hv hinv
    | str s => simp [hcontent]
    | bytes b => simp [hcontent]
  · have hfl := flatten_pieces t mb
    rw [hpc] at hfl
    intro x hx
    have hsub : ∀ y ∈ h0 :: ps, (10 : UInt8) ∉ y := by
      intro y hy hm
      apply hnl
      rw [← hfl]
      exact List.mem_flatten.2 ⟨y, hy, hm⟩
    simp only [physList, List.mem_cons, List.mem_map] at hx
    rcases hx with rfl | ⟨y, hy, rfl⟩
    · exact hsub _ (by simp)
    · have := hsub y (by simp [hy])
      simp [this]
  · intro e
    obtain ⟨c, hc, _⟩ := hstart.head
    rw [e] at hc; cases hc
  · intro s c hi ha
    exact feed_content E t mb hstart s hi c ha h0 ps hpc

theorem good_reads (E : Codecs) (l : VCardLine) (hl : LineGood E l) : Reads E l (some (lineRead l)) := by
  obtain ⟨h, hp, hok, hv⟩ := hl.params
  obtain ⟨out, mb, hw, hon, hosafe, -⟩ := value_reads E h l hp hok hv _ ⟨rfl, rfl, rfl⟩
  refine reads_value E l _ h hl.group hl.name hp hok (fun e => by rw [e] at hv; cases hv) out out mb hw (C01_escape_roundtrip_partial out _ hosafe) hon ?_
  intro q hq
  obtain ⟨out', mb', hw', -, -, h1, h2⟩ := value_reads E h l hp hok hv q hq
  rw [hw] at hw'
  obtain ⟨rfl, rfl⟩ := Prod.mk.inj hw'
  exact ⟨h1, h2⟩

theorem reads_lines_block (E : Codecs) (R : VCardLine → Option VCardLine) (L : List VCardLine) (hL : ∀ l ∈ L, Reads E l (R l)) :
    ∃ ls, L.flatMap (writeLine E) = crlfText ls ∧ (∀ x ∈ ls, (10 : UInt8) ∉ x) ∧
      ∀ (s : RS) (c : VCard), s.inVCard = true → absorb E s = some c →
        ∃ s', ls.foldlM (feed E) s = some s' ∧ s'.inVCard = true ∧ s'.out = s.out ∧ absorb E s' = some ((L.filterMap R).foldl VCard.addLine c) := by
  induction L with
  | nil => exact ⟨[], rfl, by simp, fun s c hi ha => ⟨s, rfl, hi, rfl, ha⟩⟩
  | cons l L ih =>
    obtain ⟨ls2, e2, n2, f2⟩ := ih (fun x hx => hL x (by simp [hx]))
    have h1 := hL l (by simp)
    cases hr : R l with
    | none =>
      rw [hr] at h1
      refine ⟨ls2, ?_, n2, ?_⟩
      · rw [List.flatMap_cons, show writeLine E l = [] from h1, e2]; rfl
      · intro s c hi ha
        obtain ⟨s', g⟩ := f2 s c hi ha
        exact ⟨s', by simpa [List.filterMap_cons, hr] using g⟩
    | some l' =>
      rw [hr] at h1
      obtain ⟨ls1, t, e1, n1, tne, hp, f1⟩ := h1
      refine ⟨ls1 ++ ls2, ?_, ?_, ?_⟩
      · rw [List.flatMap_cons, e1, e2, crlfText_append]
      · intro x hx
        simp only [List.mem_append] at hx
        rcases hx with h | h
        · exact n1 x h
        · exact n2 x h
      · intro s c hi ha
        obtain ⟨s', g1, g2, g3, g4⟩ := f2 { currentLine := t, inVCard := true, card := c, out := s.out } (c.addLine l') rfl
          (by simp [absorb, tne, hp])
        refine ⟨s', ?_, g2, g3, ?_⟩
        · rw [List.foldlM_append, f1 s c hi ha]; exact g1
        · rw [List.filterMap_cons, hr]; exact g4

theorem reads_card_block (E : Codecs) (R : VCardLine → Option VCardLine) (c : VCard) (hL : ∀ l ∈ (writeOrder c).flatMap c.lines, Reads E l (R l)) :
    ∃ ls, writeCard E c = crlfText ls ∧ (∀ x ∈ ls, (10 : UInt8) ∉ x) ∧
      ∀ out, ls.foldlM (feed E) { out := out } =
        some { out := out ++ [cardAfter (((writeOrder c).flatMap c.lines).filterMap R)] } := by
  obtain ⟨ls, e, n, f⟩ := reads_lines_block E R _ hL
  refine ⟨b! "BEGIN:VCARD" :: (ls ++ [b! "END:VCARD", []]), ?_, ?_, ?_⟩
  · unfold writeCard
    have e1 : (writeOrder c).flatMap (fun id => (c.lines id).flatMap (writeLine E)) = crlfText ls := by
      rw [← e, List.flatMap_assoc]
    rw [e1]
    show _ = b! "BEGIN:VCARD" ++ [13, 10] ++ crlfText (ls ++ [b! "END:VCARD", []])
    rw [crlfText_append]
    have : crlfText [b! "END:VCARD", []] = b! "END:VCARD\r\n" ++ b! "\r\n" := by decide
    rw [this]
    have e3 : b! "BEGIN:VCARD" ++ [13, 10] = b! "BEGIN:VCARD\r\n" := by decide
    rw [e3]
    simp only [List.append_assoc]
  · intro x hx
    simp only [List.mem_cons, List.mem_append, List.not_mem_nil, or_false] at hx
    rcases hx with rfl | h | rfl | rfl
    · decide
    · exact n x h
    · decide
    · decide
  · intro out
    rw [List.foldlM_cons]
    have f1 : feed E { out := out } (b! "BEGIN:VCARD") = some { inVCard := true, out := out } := by
      have h1 : isFolded (b! "BEGIN:VCARD") = false := by decide
      have h2 : isBlank (b! "BEGIN:VCARD") = false := by decide
      have h3 : startsWithCI (b! "begin:vcard") (b! "BEGIN:VCARD") = true := by decide
      simp only [feed, h1, h2, RS.mark, h3]
      simp
    rw [f1]
    obtain ⟨s', g1, g2, g3, g4⟩ := f { inVCard := true, out := out } [] rfl (by simp [absorb])
    show List.foldlM _ _ _ = _
    rw [List.foldlM_append, g1]
    show List.foldlM _ _ _ = _
    rw [List.foldlM_cons, feed_plain E s' (b! "END:VCARD") g2 _ g4 (by decide) (by decide)]
    show List.foldlM _ _ _ = _
    rw [List.foldlM_cons]
    have h3 : startsWithCI (b! "begin:vcard") (b! "END:VCARD") = false := by decide
    have h4 : startsWithCI (b! "end:vcard") (b! "END:VCARD") = true := by decide
    have h5 : isFolded [] = false := by decide
    have h6 : isBlank [] = true := by decide
    simp only [RS.mark, h3, h4, feed, h5, h6, g3]
    rfl

theorem reads_text (E : Codecs) (R : VCardLine → Option VCardLine) (cs : List VCard)
    (hL : ∀ c ∈ cs, ∀ l ∈ (writeOrder c).flatMap c.lines, Reads E l (R l)) :
    readText E (createVCardText E cs) = some (cs.map fun c => cardAfter (((writeOrder c).flatMap c.lines).filterMap R)) := by
  have block : ∃ ls, createVCardText E cs = crlfText ls ∧ (∀ x ∈ ls, (10 : UInt8) ∉ x) ∧ (cs ≠ [] → ls ≠ []) ∧
      ∀ out, ls.foldlM (feed E) { out := out } =
        some { out := out ++ cs.map fun c => cardAfter (((writeOrder c).flatMap c.lines).filterMap R) } := by
    induction cs with
    | nil => exact ⟨[], rfl, by simp, by simp, by intro out; simp⟩
    | cons c cs ih =>
      obtain ⟨ls2, e2, n2, _, f2⟩ := ih (fun x hx => hL x (by simp [hx]))
      obtain ⟨ls1, e1, n1, f1⟩ := reads_card_block E R c (hL c (by simp))
      refine ⟨ls1 ++ ls2, ?_, ?_, ?_, ?_⟩
      · unfold createVCardText at e2 ⊢
        rw [List.flatMap_cons, e1, e2, crlfText_append]
      · intro x hx
        simp only [List.mem_append] at hx
        rcases hx with h | h
        · exact n1 x h
        · exact n2 x h
      · intro _ e
        rw [List.append_eq_nil_iff] at e
        rw [e.1] at e1
        have := congrArg List.length e1
        simp [writeCard, crlfText] at this
      · intro out
        rw [List.foldlM_append, f1]
        show List.foldlM _ _ _ = _
        rw [f2]
        simp
  obtain ⟨ls, e, n, ne, f⟩ := block
  unfold readText
  rw [e, physLines_crlfText ls n]
  by_cases hc : cs = []
  · subst hc
    simp only [createVCardText, List.flatMap_nil] at e
    have : ls = [] := by
      cases ls with
      | nil => rfl
      | cons a t => simp [crlfText] at e
    subst this
    rfl
  · have hne := ne hc
    have : fedLines (ls ++ [[]]) = ls ++ [[]] := by
      unfold fedLines
      rw [if_neg]
      have := List.length_pos_iff.2 hne
      simp; omega
    rw [this, List.foldlM_append]
    have f0 := f []
    rw [show ({ out := [] } : RS) = {} from rfl] at f0
    rw [f0]
    rfl

end KC
