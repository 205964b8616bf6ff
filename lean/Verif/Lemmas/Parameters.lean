import Verif.Spec.Parameters
import Verif.Lemmas.LetterCase
import Verif.Lemmas.ReadBack
/-
  Reading a property whose parameters are written in any of the ways of `SpelledParameters`.
-/
namespace KC
open KC.Spec

/-- what of the scanner's state matters for the line -/
private def got (p : PL) : VCardLine × QByteArray × QByteArray := (p.line, p.enc, p.charset)

private def addGot (x : VCardLine × QByteArray × QByteArray) (kv : QByteArray × QByteArray) : VCardLine × QByteArray × QByteArray :=
  (x.1.addParameter (fromLatin1 kv.1) (fromLatin1 kv.2), if kv.1 = b! "encoding" then toLowerB kv.2 else x.2.1,
   if kv.1 = b! "encoding" then x.2.2 else if kv.1 = b! "charset" then toLowerB kv.2 else x.2.2)

private theorem got_add (p : PL) (k v : QByteArray) : got (p.addParameter k v) = addGot (got p) (k, v) := rfl

/-- the next ';' or ':' completes what was collected so far -/
private structure Pending (p : PL) (x : VCardLine × QByteArray × QByteArray) : Prop where
  semi : (p.step (c! ';')).st = .paramKey ∧ (p.step (c! ';')).tok = [] ∧ got (p.step (c! ';')) = x
  colon : (p.step (c! ':')).st = .value ∧ got (p.step (c! ':')) = x

/-- values with commas, without quotes -/
private theorem pending_list (vs : List QByteArray) (hv : ∀ v ∈ vs, PlainValue v) (hne : vs ≠ []) : ∀ (p : PL), p.st = .paramValue → p.tok = [] → ∀ t,
    ∃ q, PL.scan p (commaList vs ++ t) = PL.scan q t ∧ Pending q (vs.foldl (fun x v => addGot x (toLowerB p.key, v)) (got p)) := by
  induction vs with
  | nil => exact absurd rfl hne
  | cons v vs ih =>
    intro p hp ht t
    obtain ⟨h1, h2, h3, h4⟩ := hv v (by simp)
    cases vs with
    | nil =>
      refine ⟨{ p with tok := p.tok ++ v }, scan_paramValue p hp v t h1 h2 h3 h4, ?_⟩
      constructor
      · simp [PL.step, hp, ht, got, addGot, PL.addParameter]
      · simp [PL.step, hp, ht, got, addGot, PL.addParameter]
    | cons w ws =>
      have e : commaList (v :: w :: ws) ++ t = v ++ (c! ',' :: (commaList (w :: ws) ++ t)) := by simp [commaList]
      rw [e, scan_paramValue p hp v _ h1 h2 h3 h4]
      have es : ({ p with tok := p.tok ++ v } : PL).step (c! ',') = { p.addParameter (toLowerB p.key) v with tok := [], st := .paramValue } := by
        simp [PL.step, hp, ht, PL.addParameter]
      rw [scan_cons_of _ _ _ (by rw [es]; simp), es]
      obtain ⟨q, e1, e2⟩ := ih (fun u hu => hv u (by simp [hu])) (by simp) { p.addParameter (toLowerB p.key) v with tok := [], st := .paramValue } rfl rfl t
      exact ⟨q, e1, e2⟩

/-- plain values, each with a comma after it -/
private theorem scan_front (vs : List QByteArray) (hv : ∀ v ∈ vs, PlainValue v) : ∀ (p : PL), p.st = .paramValue → p.tok = [] → ∀ t,
    ∃ q, PL.scan p (vs.flatMap (· ++ [c! ',']) ++ t) = PL.scan q t ∧ q.st = .paramValue ∧ q.tok = [] ∧ q.key = p.key ∧
      got q = vs.foldl (fun x v => addGot x (toLowerB p.key, v)) (got p) := by
  induction vs with
  | nil => exact fun p hp ht t => ⟨p, rfl, hp, ht, rfl, rfl⟩
  | cons v vs ih =>
    intro p hp ht t
    obtain ⟨h1, h2, h3, h4⟩ := hv v (by simp)
    have e : (v :: vs).flatMap (· ++ [c! ',']) ++ t = v ++ (c! ',' :: (vs.flatMap (· ++ [c! ',']) ++ t)) := by simp
    rw [e, scan_paramValue p hp v _ h1 h2 h3 h4]
    have es : ({ p with tok := p.tok ++ v } : PL).step (c! ',') = { p.addParameter (toLowerB p.key) v with tok := [], st := .paramValue } := by
      simp [PL.step, hp, ht, PL.addParameter]
    rw [scan_cons_of _ _ _ (by rw [es]; simp), es]
    exact ih (fun u hu => hv u (by simp [hu])) { p.addParameter (toLowerB p.key) v with tok := [], st := .paramValue } rfl rfl t

/-- types with commas between quotes -/
private theorem pending_quoted (vs : List QByteArray) (hv : ∀ v ∈ vs, c! '"' ∉ v ∧ c! ',' ∉ v) (hne : vs ≠ []) : ∀ (p : PL), p.st = .quotedValue → p.tok = [] →
    toLowerB p.key = b! "type" → ∀ t, ∃ q, PL.scan p (commaList vs ++ c! '"' :: t) = PL.scan q t ∧ Pending q (vs.foldl (fun x v => addGot x (b! "type", v)) (got p)) := by
  induction vs with
  | nil => exact absurd rfl hne
  | cons v vs ih =>
    intro p hp ht hk t
    obtain ⟨h1, h2⟩ := hv v (by simp)
    cases vs with
    | nil =>
      have es : ({ p with tok := p.tok ++ v } : PL).step (c! '"') = { p.addParameter (b! "type") v with tok := [], st := .afterParamValue } := by
        simp only [PL.step, hp, ht, hk, List.nil_append, true_or, if_true]
        rfl
      refine ⟨{ p.addParameter (b! "type") v with tok := [], st := .afterParamValue }, ?_, ?_⟩
      · rw [show commaList [v] = v from rfl, scan_quoted p hp v _ h1 (fun _ => h2), scan_cons_of _ _ _ (by rw [es]; simp), es]
      · exact ⟨⟨rfl, rfl, rfl⟩, ⟨rfl, rfl⟩⟩
    | cons w ws =>
      have e : commaList (v :: w :: ws) ++ c! '"' :: t = v ++ (c! ',' :: (commaList (w :: ws) ++ c! '"' :: t)) := by simp [commaList]
      have es : ({ p with tok := p.tok ++ v } : PL).step (c! ',') = { p.addParameter (b! "type") v with tok := [], st := .quotedValue } := by
        simp [PL.step, hp, ht, hk, PL.addParameter]
      rw [e, scan_quoted p hp v _ h1 (fun _ => h2), scan_cons_of _ _ _ (by rw [es]; simp), es]
      obtain ⟨q, e1, e2⟩ := ih (fun u hu => hv u (by simp [hu])) (by simp) { p.addParameter (b! "type") v with tok := [], st := .quotedValue } rfl rfl hk t
      exact ⟨q, e1, e2⟩

private theorem key_name {p : PL} (hp : p.st = .paramKey) (ht : p.tok = []) (k : QByteArray) (hk : ParameterName k) (t : QByteArray) :
    PL.scan p (k ++ c! '=' :: t) = PL.scan { p with key := k, tok := [], st := .paramValue } t := by
  have es : ({ p with tok := p.tok ++ k } : PL).step (c! '=') = { p with key := k, tok := [], st := .paramValue } := by
    simp [PL.step, hp, ht]
  rw [scan_paramKey p hp k _ hk.1 hk.2.1 hk.2.2, scan_cons_of _ _ _ (by rw [es]; simp), es]

private theorem lower_bytes (k : QByteArray) : k.map lowerByte = toLowerB k := rfl

private theorem bare_pending {p : PL} (hp : p.st = .paramKey) (ht : p.tok = []) (v k : QByteArray) (hv : ParameterName v)
    (hk : k = if toLowerB v = b! "quoted-printable" ∨ toLowerB v = b! "base64" then b! "encoding" else b! "type") (t : QByteArray) :
    ∃ q, PL.scan p (v ++ t) = PL.scan q t ∧ Pending q (addGot (got p) (k, v)) := by
  subst hk
  refine ⟨_, scan_paramKey p hp v t hv.1 hv.2.1 hv.2.2, ?_⟩
  constructor
  · simp [PL.step, hp, ht, got, addGot, PL.addParameter]
  · simp [PL.step, hp, ht, got, addGot, PL.addParameter]

private theorem type_word {k : QByteArray} (h : k.map lowerByte = b! "type") : ParameterName k := by
  have key : ∀ c ∈ k, lowerByte c ∈ b! "type" := by
    intro c hc
    rw [← h]
    exact List.mem_map_of_mem hc
  refine ⟨fun hc => absurd (key _ hc) (by decide), fun hc => absurd (key _ hc) (by decide), fun hc => absurd (key _ hc) (by decide)⟩

private theorem encoding_word {v : QByteArray} (h : v.map lowerByte = b! "quoted-printable" ∨ v.map lowerByte = b! "base64") : ParameterName v := by
  have key : ∀ c ∈ v, lowerByte c ∈ b! "quoted-printable" ++ b! "base64" := by
    intro c hc
    rcases h with h | h <;> exact List.mem_append.2 (by rw [← h]; simp [List.mem_map_of_mem hc])
  refine ⟨fun hc => absurd (key _ hc) (by decide), fun hc => absurd (key _ hc) (by decide), fun hc => absurd (key _ hc) (by decide)⟩

/-- scanning spelled parameters -/
private theorem scan_spelled {l : List (QByteArray × QByteArray)} {s : QByteArray} (h : SpelledParameters l s) : ∀ (p : PL) (x : VCardLine × QByteArray × QByteArray),
    Pending p x → ∀ v, ∃ q, PL.scan p (s ++ c! ':' :: v) = (q, some v) ∧ got q = l.foldl addGot x := by
  -- the ';' in front of a parameter
  have start : ∀ (p : PL) (x : VCardLine × QByteArray × QByteArray), Pending p x → ∀ t, ∃ q, PL.scan p (c! ';' :: t) = PL.scan q t ∧ q.st = .paramKey ∧ q.tok = [] ∧ got q = x := by
    intro p x hp t
    exact ⟨_, scan_cons_of _ _ _ (by rw [hp.semi.1]; decide), hp.semi.1, hp.semi.2.1, hp.semi.2.2⟩
  induction h with
  | nil =>
    intro p x hp v
    refine ⟨p.step (c! ':'), ?_, hp.colon.2⟩
    rw [List.nil_append, PL.scan]
    exact if_pos hp.colon.1
  | @plain l t k vs hk hne hvs _ ih =>
    intro p x hp v
    have e : (c! ';' :: k ++ c! '=' :: commaList vs ++ t) ++ c! ':' :: v = c! ';' :: (k ++ c! '=' :: (commaList vs ++ (t ++ c! ':' :: v))) := by simp
    obtain ⟨q, e1, e2, e3, e4⟩ := start p x hp (k ++ c! '=' :: (commaList vs ++ (t ++ c! ':' :: v)))
    rw [e, e1, key_name e2 e3 k hk]
    obtain ⟨r, r1, r2⟩ := pending_list vs hvs hne { q with key := k, tok := [], st := .paramValue } rfl rfl (t ++ c! ':' :: v)
    rw [r1]
    obtain ⟨z, z1, z2⟩ := ih r _ r2 v
    refine ⟨z, z1, ?_⟩
    rw [z2, List.foldl_append, List.foldl_map, lower_bytes]
    congr 2
  | @quoted l t k us w hk hus hw ht _ ih =>
    intro p x hp v
    have e : (c! ';' :: k ++ c! '=' :: us.flatMap (· ++ [c! ',']) ++ c! '"' :: w ++ c! '"' :: t) ++ c! ':' :: v =
        c! ';' :: (k ++ c! '=' :: (us.flatMap (· ++ [c! ',']) ++ (c! '"' :: (w ++ c! '"' :: (t ++ c! ':' :: v))))) := by simp
    obtain ⟨q', e1, e2, e3, e4⟩ := start p x hp (k ++ c! '=' :: (us.flatMap (· ++ [c! ',']) ++ (c! '"' :: (w ++ c! '"' :: (t ++ c! ':' :: v)))))
    rw [e, e1, key_name e2 e3 k hk]
    obtain ⟨q, f1, f2, f3, f4, f5⟩ := scan_front us hus { q' with key := k, tok := [], st := .paramValue } rfl rfl (c! '"' :: (w ++ c! '"' :: (t ++ c! ':' :: v)))
    rw [f1]
    replace f4 : q.key = k := f4
    have es : q.step (c! '"') = { q with tok := [], st := .quotedValue } := by
      simp [PL.step, f2, f3]
    rw [scan_cons_of _ _ _ (by rw [es]; simp), es]
    rw [scan_quoted { q with tok := [], st := .quotedValue } rfl w _ hw (by rw [← lower_bytes]; simpa [f4] using ht)]
    have es2 : ({ q with tok := [] ++ w, st := .quotedValue } : PL).step (c! '"') =
        { ({ q with tok := [] ++ w, st := .quotedValue } : PL).addParameter (toLowerB q.key) w with tok := [], st := .afterParamValue } := by
      simp [PL.step]
    rw [scan_cons_of _ _ _ (by rw [es2]; simp), es2]
    obtain ⟨z, z1, z2⟩ := ih { ({ q with tok := [] ++ w, st := .quotedValue } : PL).addParameter (toLowerB q.key) w with tok := [], st := .afterParamValue } _
      ⟨⟨rfl, rfl, rfl⟩, ⟨rfl, rfl⟩⟩ v
    refine ⟨z, z1, ?_⟩
    rw [z2, List.foldl_append, List.foldl_cons, List.foldl_map, lower_bytes, ← e4, ← f4]
    congr 1
    show addGot (got q) (toLowerB q.key, w) = _
    rw [f5, f4]
    rfl
  | @quotedTypes l t k us vs hk hus hne hvs _ ih =>
    intro p x hp v
    have e : (c! ';' :: k ++ c! '=' :: us.flatMap (· ++ [c! ',']) ++ c! '"' :: commaList vs ++ c! '"' :: t) ++ c! ':' :: v =
        c! ';' :: (k ++ c! '=' :: (us.flatMap (· ++ [c! ',']) ++ (c! '"' :: (commaList vs ++ c! '"' :: (t ++ c! ':' :: v))))) := by simp
    obtain ⟨q', e1, e2, e3, e4⟩ := start p x hp (k ++ c! '=' :: (us.flatMap (· ++ [c! ',']) ++ (c! '"' :: (commaList vs ++ c! '"' :: (t ++ c! ':' :: v)))))
    rw [e, e1, key_name e2 e3 k (type_word hk)]
    obtain ⟨q, f1, f2, f3, f4, f5⟩ := scan_front us hus { q' with key := k, tok := [], st := .paramValue } rfl rfl
      (c! '"' :: (commaList vs ++ c! '"' :: (t ++ c! ':' :: v)))
    rw [f1]
    replace f4 : q.key = k := f4
    have es : q.step (c! '"') = { q with tok := [], st := .quotedValue } := by
      simp [PL.step, f2, f3]
    rw [scan_cons_of _ _ _ (by rw [es]; simp), es]
    obtain ⟨r, r1, r2⟩ := pending_quoted vs hvs hne { q with tok := [], st := .quotedValue } rfl rfl (by rw [← lower_bytes]; simpa [f4] using hk) (t ++ c! ':' :: v)
    rw [r1]
    obtain ⟨z, z1, z2⟩ := ih r _ r2 v
    refine ⟨z, z1, ?_⟩
    rw [z2, List.foldl_append, List.foldl_append, List.foldl_map, List.foldl_map, ← e4]
    congr 2
    show got q = _
    rw [f5]
    have hk' : toLowerB k = b! "type" := by rw [← lower_bytes]; exact hk
    simp only [hk']
    rfl
  | @bareType l t w hw h1 h2 _ ih =>
    intro p x hp v
    have e : (c! ';' :: w ++ t) ++ c! ':' :: v = c! ';' :: (w ++ (t ++ c! ':' :: v)) := by simp
    obtain ⟨q, e1, e2, e3, e4⟩ := start p x hp (w ++ (t ++ c! ':' :: v))
    obtain ⟨r, r1, r2⟩ := bare_pending e2 e3 w (b! "type") hw (by rw [← lower_bytes, if_neg (by simp [h1, h2])]) (t ++ c! ':' :: v)
    rw [e, e1, r1]
    obtain ⟨z, z1, z2⟩ := ih r _ r2 v
    exact ⟨z, z1, by rw [z2, e4]; rfl⟩
  | @bareEncoding l t w hw _ ih =>
    intro p x hp v
    have e : (c! ';' :: w ++ t) ++ c! ':' :: v = c! ';' :: (w ++ (t ++ c! ':' :: v)) := by simp
    obtain ⟨q, e1, e2, e3, e4⟩ := start p x hp (w ++ (t ++ c! ':' :: v))
    obtain ⟨r, r1, r2⟩ := bare_pending e2 e3 w (b! "encoding") (encoding_word hw) (by rw [← lower_bytes, if_pos hw]) (t ++ c! ':' :: v)
    rw [e, e1, r1]
    obtain ⟨z, z1, z2⟩ := ih r _ r2 v
    exact ⟨z, z1, by rw [z2, e4]; rfl⟩

/-! ### The name -/

private theorem scan_named (name : QByteArray) (h1 : c! ';' ∉ name) (h2 : c! ':' ∉ name) : ∀ (p : PL), p.st = .initial → p.line.params = [] →
    ∃ q, q.st = .initial ∧ q.line.params = [] ∧ q.enc = p.enc ∧ q.charset = p.charset ∧ ∀ t, PL.scan p (name ++ t) = PL.scan q t := by
  induction name with
  | nil => exact fun p hp hl => ⟨p, hp, hl, rfl, rfl, fun _ => rfl⟩
  | cons c name ih =>
    intro p hp hl
    simp only [List.mem_cons, not_or] at h1 h2
    have e : (p.step c).st = .initial ∧ (p.step c).line.params = [] ∧ (p.step c).enc = p.enc ∧ (p.step c).charset = p.charset := by
      simp only [PL.step, hp]
      rw [if_neg (Ne.symm h1.1), if_neg (Ne.symm h2.1)]
      split
      · exact ⟨rfl, hl, rfl, rfl⟩
      · exact ⟨rfl, hl, rfl, rfl⟩
    obtain ⟨q, q1, q2, q4, q5, q3⟩ := ih h1.2 h2.2 (p.step c) e.1 e.2.1
    refine ⟨q, q1, q2, q4.trans e.2.2.1, q5.trans e.2.2.2, fun t => ?_⟩
    rw [List.cons_append, scan_cons_of _ _ _ (by rw [e.1]; decide)]
    exact q3 t

private theorem pending_name {q : PL} (h : q.st = .initial) : Pending q ({ q.line with identifier := fromLatin1 q.tok }, q.enc, q.charset) := by
  constructor
  · simp [PL.step, h, got]
  · simp [PL.step, h, got]

/-! ### The order of the parameters -/

private theorem valuesOf_snoc {α β : Type} [DecidableEq α] (l : List (α × β)) (p : α × β) (k : α) :
    valuesOf (l ++ [p]) k = if p.1 = k then valuesOf l k ++ [p.2] else valuesOf l k := by
  by_cases e : p.1 = k <;> simp [valuesOf, e]

/-- parameters as the reader keeps them -/
def latin (l : List (QByteArray × QByteArray)) : List (QString × QString) := l.map fun p => (fromLatin1 p.1, fromLatin1 p.2)

private theorem fold_got (l : List (QByteArray × QByteArray)) (x : VCardLine × QByteArray × QByteArray) (hx : x.1.params = []) :
    l.foldl addGot x = ({ x.1 with params := paramsAfter (latin l) }, ((valuesOf l (b! "encoding")).getLast?.map toLowerB).getD x.2.1,
      ((valuesOf l (b! "charset")).getLast?.map toLowerB).getD x.2.2) := by
  induction l using rev_induction with
  | h0 =>
    obtain ⟨⟨a, b, c, d, e⟩, y, z⟩ := x
    simp only at hx
    subst hx
    rfl
  | hs l p ih =>
    rw [List.foldl_append, ih]
    simp only [List.foldl_cons, List.foldl_nil, addGot, valuesOf_snoc]
    have e : latin (l ++ [p]) = latin l ++ [(fromLatin1 p.1, fromLatin1 p.2)] := by simp [latin]
    rw [e, paramsAfter_snoc]
    refine Prod.ext ?_ (Prod.ext ?_ ?_)
    · simp only [VCardLine.addParameter]
      rw [ParameterMap.add_eq]
    · by_cases h : p.1 = b! "encoding" <;> simp [h]
    · by_cases h : p.1 = b! "encoding"
      · simp [h]
      · by_cases h' : p.1 = b! "charset" <;> simp [h, h']

theorem valuesOf_latin (l : List (QByteArray × QByteArray)) (k : QByteArray) : valuesOf (latin l) (fromLatin1 k) = (valuesOf l k).map fromLatin1 := by
  induction l with
  | nil => rfl
  | cons p l ih =>
    by_cases e : p.1 = k
    · have e' : fromLatin1 p.1 = fromLatin1 k := by rw [e]
      simp only [valuesOf, latin] at ih
      simp [valuesOf, latin, e, ih]
    · have e' : ¬ fromLatin1 p.1 = fromLatin1 k := fun h => e (fromLatin1_inj h)
      simp only [valuesOf, latin] at ih
      simp [valuesOf, latin, e, e', ih]

theorem latin_same (a b : List (QByteArray × QByteArray)) (h : ∀ k, valuesOf a k = valuesOf b k) : paramsAfter (latin a) = paramsAfter (latin b) := by
  have hs : ∀ h, Sorted (paramsAfter h) := by
    intro h
    induction h using rev_induction with
    | h0 => simp [paramsAfter, Sorted]
    | hs h p ih => rw [paramsAfter_snoc]; exact SMap.sorted_upsert ih
  apply SMap.ext_find (hs _) (hs _)
  intro k
  rw [params_find, params_find]
  have e : valuesOf (latin a) k = valuesOf (latin b) k := by
    by_cases hk : ∃ n, fromLatin1 n = k
    · obtain ⟨n, rfl⟩ := hk
      rw [valuesOf_latin, valuesOf_latin, h n]
    · have none : ∀ l, valuesOf (latin l) k = [] := by
        intro l
        simp only [valuesOf, List.map_eq_nil_iff, List.filter_eq_nil_iff, latin, List.mem_map]
        rintro _ ⟨p, _, rfl⟩
        simpa using fun e => hk ⟨p.1, e⟩
      rw [none, none]
  rw [e]

/-- the line of a property with this name and nothing else -/
def nameLine (name : QByteArray) : VCardLine := (PL.scan {} (name ++ [c! ':'])).1.line

/-- the last value of a parameter, in small letters -/
def lastLower (params : List (QByteArray × QByteArray)) (k : QByteArray) : QByteArray := ((valuesOf params k).getLast?.map toLowerB).getD []

/-- The line read from a property: a function of the name, the values of each parameter and the value. -/
theorem lineOf_says (E : Codecs) {p : WrittenProperty} {name value : QByteArray} {params : List (QByteArray × QByteArray)} (h : p.Says name params value) :
    lineOf E p.unfolded = PL.decodeValue E (.mk .value [] [] { nameLine name with params := paramsAfter (latin params) } (lastLower params (b! "encoding"))
      (lastLower params (b! "charset"))) (removeEscapes value) := by
  obtain ⟨h1, h2, s, hs, ep⟩ := h
  obtain ⟨r, r1, r2, r4, r5, r3⟩ := scan_named name h1 h2 {} rfl rfl
  obtain ⟨y, y1, y2⟩ := scan_spelled hs r _ (pending_name r1) value
  have hn : nameLine name = { r.line with identifier := fromLatin1 r.tok } := by
    unfold nameLine
    rw [r3]
    simp [PL.scan, PL.step, r1]
  rw [fold_got _ _ (by exact r2)] at y2
  have e1 : y.line = { nameLine name with params := paramsAfter (latin params) } := by rw [hn]; exact congrArg (·.1) y2
  have e2 : y.enc = lastLower params (b! "encoding") := by
    have : y.enc = _ := congrArg (·.2.1) y2
    rw [this, r4]; rfl
  have e3 : y.charset = lastLower params (b! "charset") := by
    have : y.charset = _ := congrArg (·.2.2) y2
    rw [this, r5]; rfl
  unfold lineOf
  rw [ep, List.append_assoc, r3, y1]
  simp only [PL.decodeValue, e1, e2, e3]

end KC
