import Verif.Lemmas.Fields1
import Verif.Lemmas.Ldif
import Verif.Spec.Contained
import Verif.Spec.Fold
import Verif.Props.C07
import Verif.Props.C01
/-
  Helper lemmas: the heads of written lines (name and parameters) keep to one line and to themselves, whatever the value.
-/
namespace KC
open KC.Spec

/-- a literal without line breaks, quotation marks and the letter q -/
def preLit (s : QString) : Bool := s.all fun u => u ≠ 10 && u ≠ 13 && u ≠ qc! '"' && u ≠ qc! 'q' && u ≠ qc! 'Q' && u.toNat < 256

/-- a literal without line breaks and quotation marks, and without the letter q or without the letter u -/
def plainLit (s : QString) : Bool :=
  preLit s || s.all fun u => u ≠ 10 && u ≠ 13 && u ≠ qc! '"' && u ≠ qc! 'u' && u ≠ qc! 'U' && u.toNat < 256

/-- what the proofs use of a condition on the texts in heads -/
structure HeadClass (P : QString → Prop) : Prop where
  lit : ∀ s, plainLit s = true → P s
  comma : ∀ a b, P a → P b → P (a ++ qc! ',' :: b)
  colon : ∀ a b, P a → P b → P (a ++ qc! ':' :: b)
  pre : ∀ a b, preLit a = true → P b → P (a ++ b)
  sub : ∀ a b, P (a ++ b) → P a ∧ P b
  line : ∀ s, P s → Unbroken s

/-- a parameter: texts of the class, or a quoted text under a plain name -/
def PairHead (P : QString → Prop) (p : QString × QString) : Prop :=
  P p.1 ∧ (P p.2 ∨ (p.1.all fun u => (65 ≤ u.toNat && u.toNat ≤ 90) || u.toNat = 45) = true ∧ ∃ w, p.2 = qc! '"' :: (w ++ [qc! '"']) ∧ P w)

def codingPairs : List (QString × QString) := [(q! "charset", q! "UTF-8"), (q! "encoding", q! "QUOTED-PRINTABLE")]

structure HeadOk (P : QString → Prop) (l : VCardLine) : Prop where
  group : l.group = []
  name : P l.identifier
  start : ∀ sep, sep = c! ';' ∨ sep = c! ':' → ∀ rest, GoodStart (toLatin1 l.identifier ++ sep :: rest)
  b64 : (10 : UInt8) ∉ l.base64Value ∧ (13 : UInt8) ∉ l.base64Value ∧ (58 : UInt8) ∉ l.base64Value
  params : ∃ k h, l.params = paramsAfter (k ++ h) ∧ (k = [] ∨ k = codingPairs) ∧ ∀ p ∈ h, PairHead P p

/-! ### bytes of texts -/

theorem latin1_avoid {s : QString} {b : UInt8} (hb : b ≠ 63) (h : UInt16.ofNat b.toNat ∉ s) : b ∉ toLatin1 s := by
  intro hm
  unfold toLatin1 at hm
  obtain ⟨u, hu, e⟩ := List.mem_map.1 hm
  split at e
  · rename_i hlt
    apply h
    have : b.toNat = u.toNat := by
      rw [← e]
      show (UInt8.ofNat u.toNat).toNat = u.toNat
      rw [UInt8.toNat_ofNat']; omega
    rw [this]
    simpa using hu
  · exact hb e.symm

theorem oneLine_latin {s : QString} (h : Unbroken s) : (10 : UInt8) ∉ toLatin1 s ∧ (13 : UInt8) ∉ toLatin1 s :=
  ⟨latin1_avoid (by decide) h.1, latin1_avoid (by decide) h.2⟩

theorem upper_avoid {s : QByteArray} {b : UInt8} (hb : ¬ (65 ≤ b ∧ b ≤ 90)) (h : b ∉ s) : b ∉ toUpperB s := by
  intro hm
  unfold toUpperB at hm
  obtain ⟨u, hu, e⟩ := List.mem_map.1 hm
  unfold upperB at e
  split at e
  · rename_i hr
    apply hb
    rw [← e]
    have h1 := UInt8.le_iff_toNat_le.1 hr.1
    have h2 := UInt8.le_iff_toNat_le.1 hr.2
    rw [UInt8.le_iff_toNat_le, UInt8.le_iff_toNat_le]
    have h1' : 97 ≤ u.toNat := h1
    have h2' : u.toNat ≤ 122 := h2
    have : (u - 32).toNat = u.toNat - 32 := by
      rw [UInt8.toNat_sub_of_le]
      · rfl
      · rw [UInt8.le_iff_toNat_le]; show 32 ≤ u.toNat; omega
    rw [this]
    constructor
    · show 65 ≤ u.toNat - 32; omega
    · show u.toNat - 32 ≤ 90; omega
  · exact h (e ▸ hu)

theorem seg_line {P : QString → Prop} (hP : HeadClass P) {p : QString × QString} (h : PairHead P p) : (10 : UInt8) ∉ segBody p ∧ (13 : UInt8) ∉ segBody p := by
  obtain ⟨k1, k2⟩ := oneLine_latin (hP.line _ h.1)
  have v : Unbroken p.2 := by
    rcases h.2 with h | ⟨_, w, e, hw⟩
    · exact hP.line _ h
    · have := hP.line _ hw
      rw [e]
      exact ⟨by simp [this.1], by simp [this.2]⟩
  obtain ⟨v1, v2⟩ := oneLine_latin v
  have u1 := upper_avoid (by decide) k1
  have u2 := upper_avoid (by decide) k2
  unfold segBody
  split
  · exact ⟨by simp [u1, v1], by simp [u2, v2]⟩
  · exact ⟨by simp [u1], by simp [u2]⟩

/-! ### the text of a line -/

/-- name and parameters as written -/
def headText (l : VCardLine) : QByteArray := toLatin1 l.identifier ++ segsBytes (flatParams l.params)

/-- the unfolded text of a line -/
def contentOf (E : Codecs) (l : VCardLine) : QByteArray :=
  match l.value with
  | .invalid => toLatin1 l.identifier ++ (b! ";base64," ++ l.base64Value)
  | _ => headText l ++ c! ':' :: addEscapes (writeValue E l).1 (excludesComma l)

variable {P : QString → Prop} {E : Codecs} {l : VCardLine}

theorem head_written (h : HeadOk P l) : writeHead l = headText l := by
  obtain ⟨k, x, hp, _, _⟩ := h.params
  have hs : Sorted l.params := by rw [hp]; exact paramsAfter_sorted _
  rw [writeHead_segs l hs]
  simp [nameBytes, h.group, headText]

/-- the parameters of a head -/
theorem head_pairs (h : HeadOk P l) : ∀ p ∈ flatParams l.params, PairHead P p ∨ p ∈ codingPairs := by
  obtain ⟨k, x, hp, hk, hx⟩ := h.params
  intro p hm
  rw [hp] at hm
  rcases List.mem_append.1 (flatParams_mem hm) with hm | hm
  · rcases hk with rfl | rfl
    · cases hm
    · exact Or.inr hm
  · exact Or.inl (hx p hm)

theorem head_line (hP : HeadClass P) (h : HeadOk P l) : (10 : UInt8) ∉ headText l ∧ (13 : UInt8) ∉ headText l := by
  obtain ⟨n1, n2⟩ := oneLine_latin (hP.line _ h.name)
  have hc : ∀ p ∈ codingPairs, (10 : UInt8) ∉ segBody p ∧ (13 : UInt8) ∉ segBody p := by decide
  have hs : ∀ p ∈ flatParams l.params, (10 : UInt8) ∉ segBody p ∧ (13 : UInt8) ∉ segBody p := fun p hp =>
    (head_pairs h p hp).elim (seg_line hP) (hc p)
  unfold headText segsBytes
  constructor
  · simp only [List.mem_append, not_or, List.mem_flatMap, not_exists, not_and, List.mem_cons]
    exact ⟨n1, fun p hp => ⟨by decide, (hs p hp).1⟩⟩
  · simp only [List.mem_append, not_or, List.mem_flatMap, not_exists, not_and, List.mem_cons]
    exact ⟨n2, fun p hp => ⟨by decide, (hs p hp).2⟩⟩

theorem content_line (hP : HeadClass P) (h : HeadOk P l) : (10 : UInt8) ∉ contentOf E l ∧ (13 : UInt8) ∉ contentOf E l := by
  obtain ⟨n1, n2⟩ := oneLine_latin (hP.line _ h.name)
  obtain ⟨h1, h2⟩ := head_line hP h
  obtain ⟨v1, v2⟩ := C01_escaped_is_single_line (writeValue E l).1 (excludesComma l)
  unfold contentOf
  split
  · simp [n1, n2, h.b64.1, h.b64.2.1]
  · simp [h1, h2, v1, v2]

/-- the line begins with its name -/
theorem content_name (E : Codecs) (l : VCardLine) : ∃ sep rest, (sep = c! ';' ∨ sep = c! ':') ∧ contentOf E l = toLatin1 l.identifier ++ sep :: rest := by
  unfold contentOf
  split
  · exact ⟨c! ';', b! "base64," ++ l.base64Value, Or.inl rfl, by simp⟩
  · unfold headText
    cases hf : flatParams l.params with
    | nil => exact ⟨c! ':', _, Or.inr rfl, by simp [segsBytes]; rfl⟩
    | cons p r => exact ⟨c! ';', _, Or.inl rfl, by simp [segsBytes]; rfl⟩

theorem contentOf_start (h : HeadOk P l) : GoodStart (contentOf E l) := by
  obtain ⟨sep, rest, hs, e⟩ := content_name E l
  rw [e]
  exact h.start sep hs rest

/-- what is written for a line: nothing, or its text in physical lines -/
theorem line_written (h : HeadOk P l) : writeLine E l = [] ∨
    ∃ h0 ps, writeLine E l = crlfText (physList h0 ps) ∧ h0 ++ ps.flatten = contentOf E l ∧ h0 ≠ [] := by
  unfold writeLine contentOf
  cases hv : l.value with
  | invalid =>
    simp only
    split
    · right
      obtain ⟨h0, ps, e1, e2⟩ := fixLineSize_eq (b! ";base64," ++ l.base64Value) false
      have hf := flatten_pieces (b! ";base64," ++ l.base64Value) false
      rw [e1, List.flatten_cons] at hf
      obtain ⟨c, r, hc, _⟩ := pieces_head _ _ (by simp) h0 ps e1
      refine ⟨toLatin1 l.identifier ++ h0, ps, ?_, ?_, ?_⟩
      · rw [e2, physical_eq]
        simp [crlfText, physList]
      · rw [List.append_assoc, hf]
      · rw [hc]; simp
    · left; rfl
  | str s =>
    simp only
    unfold writeContent
    split
    · rename_i t mb ht
      simp only at ht
      split at ht
      · right
        simp only [Option.some.injEq, Prod.mk.injEq] at ht
        obtain ⟨h0, ps, e1, e2⟩ := fixLineSize_eq t mb
        have hf := flatten_pieces t mb
        rw [e1, List.flatten_cons] at hf
        have hne : t ≠ [] := by rw [← ht.1]; simp
        obtain ⟨c, r, hc, _⟩ := pieces_head t mb hne h0 ps e1
        refine ⟨h0, ps, by rw [e2, physical_eq], ?_, by rw [hc]; simp⟩
        rw [hf, ← ht.1, head_written h]; simp
      · cases ht
    · left; rfl
  | bytes s =>
    simp only
    unfold writeContent
    split
    · rename_i t mb ht
      simp only at ht
      split at ht
      · right
        simp only [Option.some.injEq, Prod.mk.injEq] at ht
        obtain ⟨h0, ps, e1, e2⟩ := fixLineSize_eq t mb
        have hf := flatten_pieces t mb
        rw [e1, List.flatten_cons] at hf
        have hne : t ≠ [] := by rw [← ht.1]; simp
        obtain ⟨c, r, hc, _⟩ := pieces_head t mb hne h0 ps e1
        refine ⟨h0, ps, by rw [e2, physical_eq], ?_, by rw [hc]; simp⟩
        rw [hf, ← ht.1, head_written h]; simp
      · cases ht
    · left; rfl

/-! ### building lines -/

theorem headOk_text (hP : HeadClass P) {id s : QString} (h1 : P id) (h2 : ∀ sep, sep = c! ';' ∨ sep = c! ':' → ∀ rest, GoodStart (toLatin1 id ++ sep :: rest)) :
    HeadOk P (textLine id s) := ⟨rfl, h1, h2, ⟨by simp [textLine], by simp [textLine], by simp [textLine]⟩, [], [], rfl, Or.inl rfl, by simp⟩

theorem headOk_lit (hP : HeadClass P) {id : QString} (v : QVariant) (h1 : plainLit id = true) (h2 : nameLit id = true) : HeadOk P { identifier := id, value := v } :=
  ⟨rfl, hP.lit _ h1, fun sep hs rest => name_start id (nameGood_lit h2) sep hs rest, ⟨by simp, by simp, by simp⟩, [], [], rfl, Or.inl rfl, by simp⟩

theorem headOk_add {k v : QString} (h : HeadOk P l) (hp : PairHead P (k, v)) : HeadOk P (l.addParameter k v) := by
  obtain ⟨a, x, e, ha, hx⟩ := h.params
  refine ⟨h.group, h.name, h.start, h.b64, a, x ++ [(k, v)], ?_, ha, ?_⟩
  · show ParameterMap.add l.params k v = _
    rw [← List.append_assoc, paramsAfter_snoc, ← e, ParameterMap.add_eq]
  · intro p hm
    rcases List.mem_append.1 hm with hm | hm
    · exact hx p hm
    · rw [List.mem_singleton] at hm; subst hm; exact hp

theorem headOk_encoded {v : Version} {t id s : QString} (h : HeadOk P (textLine id s)) : HeadOk P (encoded v t (textLine id s)) := by
  rw [encoded_eq]
  refine ⟨rfl, h.name, h.start, h.b64, coding v t, [], by rw [List.append_nil]; rfl, ?_, by simp⟩
  unfold coding
  split
  · exact Or.inr rfl
  · exact Or.inl rfl

theorem join_class (hP : HeadClass P) : ∀ (m : List QString), (∀ t ∈ m, P t) → P (join [qc! ','] m)
  | [], _ => hP.lit _ (by decide)
  | [a], h => by simpa [join] using h a (by simp)
  | a :: b :: m, h => by
    have := hP.comma a _ (h a (by simp)) (join_class hP (b :: m) fun t ht => h t (by simp [ht]))
    simpa [join] using this

theorem pair_join (hP : HeadClass P) {k : QString} {m : List QString} (hk : P k) (h : ∀ t ∈ m, P t) : PairHead P (k, join [qc! ','] m) :=
  ⟨hk, Or.inl (join_class hP m h)⟩

theorem headOk_adds (hP : HeadClass P) (m : ParameterMap) (hm : ∀ t ∈ paramTexts m, P t) (h : HeadOk P l) : HeadOk P (l.addParameters m) := by
  unfold VCardLine.addParameters
  induction m generalizing l with
  | nil => exact h
  | cons p m ih =>
    rw [List.foldl_cons]
    refine ih (fun t ht => hm t ?_) (headOk_add h ?_)
    · simp only [paramTexts, List.flatMap_cons, List.mem_append] at ht ⊢
      exact Or.inr ht
    · exact pair_join hP (hm _ (by simp [paramTexts])) fun t ht => hm t (by simp [paramTexts, ht])

theorem headOk_foldl (m : ParameterMap) (f : VCardLine → QString × List QString → VCardLine) (h : HeadOk P l) (hf : ∀ l p, p ∈ m → HeadOk P l → HeadOk P (f l p)) :
    HeadOk P (m.foldl f l) := by
  induction m generalizing l with
  | nil => exact h
  | cons p m ih => exact ih (hf l p (by simp) h) fun l q hq => hf l q (by simp [hq])

theorem headOk_joined (hP : HeadClass P) (m : ParameterMap) (hm : ∀ t ∈ paramTexts m, P t) (p : QString × List QString) (hp : p ∈ m) (h : HeadOk P l) : HeadOk P (addJoined l p) := by
  have hk : ∀ t ∈ p.1 :: p.2, P t := fun t ht => hm t (List.mem_flatMap.2 ⟨p, hp, ht⟩)
  exact headOk_add h (pair_join hP (hk _ (by simp)) fun t ht => hk t (by simp [ht]))

/-- the parameters added by version -/
theorem headOk_tool (hP : HeadClass P) {v : Version} {key : QString} {values : List QString} (hk : P key)
    (hq : v = .v4_0 → (key.all fun u => (65 ≤ u.toNat && u.toNat ≤ 90) || u.toNat = 45) = true) (hv : ∀ t ∈ values, P t) (h : HeadOk P l) :
    HeadOk P (toolAddParameter l v key values) := by
  cases v with
  | v2_1 =>
    show HeadOk P (values.foldl _ l)
    induction values generalizing l with
    | nil => exact h
    | cons s values ih =>
      exact ih (fun t ht => hv t (by simp [ht])) (headOk_add h ⟨hv s (by simp), Or.inl (hP.lit [] rfl)⟩)
  | v3_0 => exact headOk_add h (pair_join hP hk hv)
  | v4_0 =>
    simp only [toolAddParameter]
    split
    · exact headOk_add h (pair_join hP hk hv)
    · exact headOk_add h ⟨hk, Or.inr ⟨hq rfl, _, rfl, join_class hP _ hv⟩⟩

end KC
