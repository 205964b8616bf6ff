import Verif.Spec.ToText
import Verif.Lemmas.Fields1
import Verif.Lemmas.Ldif
import Verif.Props.C10
/-
  Lemmas for C81: `arg` on the templates of the text representations, and the representations can be read back.
-/
namespace KC
open KC.Spec

theorem markerAt_other {c : UInt16} (t : QString) (h : c ≠ qc! '%') : markerAt (c :: t) = none := by
  simp only [markerAt, ne_eq, h, not_false_eq_true, if_true]

theorem lowest_plain {p : QString} (h : qc! '%' ∉ p) (r : QString) : lowestMarker (p ++ r) = lowestMarker r := by
  induction p with
  | nil => rfl
  | cons c t ih =>
    rw [List.mem_cons, not_or] at h
    rw [List.cons_append, lowestMarker, markerAt_other _ (Ne.symm h.1), ih h.2]

theorem replace_plain {p : QString} (h : qc! '%' ∉ p) (m : Nat) (a r : QString) : replaceMarkers m a 0 (p ++ r) = p ++ replaceMarkers m a 0 r := by
  induction p with
  | nil => rfl
  | cons c t ih =>
    rw [List.mem_cons, not_or] at h
    rw [List.cons_append, replaceMarkers, markerAt_other _ (Ne.symm h.1)]
    simp only [ih h.2, List.cons_append]

/-- The templates: a text without place markers, `%1` and a line break. -/
theorem arg_line {p : QString} (h : qc! '%' ∉ p) (a : QString) : arg (p ++ q! "%1\n") a = p ++ (a ++ [10]) := by
  have h1 : lowestMarker (p ++ q! "%1\n") = some 1 := by rw [lowest_plain h]; decide
  unfold arg
  rw [h1]
  simp only
  rw [replace_plain h]
  rfl

/-- A text without place markers, `%1` and a line break. -/
def Template (t : QString) : Prop := t = t.take (t.length - 3) ++ q! "%1\n" ∧ qc! '%' ∉ t.take (t.length - 3)

instance (t : QString) : Decidable (Template t) := inferInstanceAs (Decidable (_ ∧ _))

theorem arg_template {t : QString} (h : Template t) (a : QString) : arg t a = t.take (t.length - 3) ++ (a ++ [10]) := by
  have := arg_line h.2 a
  rwa [← h.1] at this

/-! ### reading back -/

/-- A representation that can be read from the front: what it shows and the text behind it are determined. -/
def TextReads {α : Type} (P : α → Prop) (f : α → QString) (R : α → α → Prop) : Prop :=
  ∀ a b r r', P a → P b → f a ++ r = f b ++ r' → R a b ∧ r = r'

section
variable {α β : Type} {P : α → Prop} {f g : α → QString} {R S : α → α → Prop}

theorem TextReads.lit (s : QString) : TextReads P (fun _ => s) fun _ _ => True := fun _ _ _ _ _ _ h => ⟨trivial, List.append_cancel_left h⟩

theorem TextReads.seq (hf : TextReads P f R) (hg : TextReads P g S) : TextReads P (fun a => f a ++ g a) fun a b => R a b ∧ S a b := by
  intro a b r r' ha hb h
  rw [List.append_assoc, List.append_assoc] at h
  obtain ⟨h1, h⟩ := hf a b _ _ ha hb h
  obtain ⟨h2, h⟩ := hg a b _ _ ha hb h
  exact ⟨⟨h1, h2⟩, h⟩

theorem TextReads.imp (hf : TextReads P f R) (h : ∀ a b, P a → P b → R a b → S a b) : TextReads P f S := fun a b r r' ha hb e =>
  have := hf a b r r' ha hb e
  ⟨h a b ha hb this.1, this.2⟩

theorem TextReads.of (hf : TextReads P f R) {Q : β → Prop} (g : β → α) (h : ∀ b, Q b → P (g b)) : TextReads Q (fun b => f (g b)) fun a b => R (g a) (g b) :=
  fun a b r r' ha hb e => hf _ _ r r' (h a ha) (h b hb) e

theorem oneLine_cancel {v w r r' : QString} (hv : SingleLine v) (hw : SingleLine w) (h : v ++ [10] ++ r = w ++ [10] ++ r') : v = w ∧ r = r' := by
  induction v generalizing w with
  | nil =>
    cases w with
    | nil => exact ⟨rfl, List.append_cancel_left h⟩
    | cons y w =>
      simp only [List.nil_append, List.cons_append, List.cons.injEq] at h
      exact absurd (h.1 ▸ List.mem_cons_self) hw
  | cons x v ih =>
    cases w with
    | nil =>
      simp only [List.nil_append, List.cons_append, List.cons.injEq] at h
      exact absurd (h.1 ▸ List.mem_cons_self) hv
    | cons y w =>
      simp only [List.cons_append, List.cons.injEq] at h
      obtain ⟨e, h⟩ := h
      obtain ⟨e2, h⟩ := ih (fun hm => hv (List.mem_cons_of_mem _ hm)) (fun hm => hw (List.mem_cons_of_mem _ hm)) h
      exact ⟨by rw [e, e2], h⟩

/-- A line with a value. -/
theorem TextReads.line {t : QString} (hp : Template t) (get : α → QString) (hg : ∀ a, P a → SingleLine (get a)) :
    TextReads P (fun a => arg t (get a)) fun a b => get a = get b := by
  intro a b r r' ha hb h
  simp only [arg_template hp] at h
  rw [List.append_assoc (t.take _), List.append_assoc (t.take _)] at h
  exact oneLine_cancel (hg a ha) (hg b hb) (List.append_cancel_left h)

/-- A line with a representation. -/
theorem TextReads.nested {t : QString} (hp : Template t) (hf : TextReads P f R) : TextReads P (fun a => arg t (f a)) R := by
  intro a b r r' ha hb h
  simp only [arg_template hp] at h
  rw [List.append_assoc, List.append_assoc, List.append_assoc, List.append_assoc] at h
  obtain ⟨h1, h⟩ := hf a b _ _ ha hb (List.append_cancel_left h)
  exact ⟨h1, List.append_cancel_left h⟩

/-- A list of representations in front of a text that cannot be mistaken for one. -/
theorem TextReads.list {s : α → β} (hf : TextReads P f fun a b => s a = s b) {stop : QString} (hs : ∀ a r r', f a ++ r ≠ stop ++ r') :
    TextReads (fun l : List α => ∀ a ∈ l, P a) (fun l => l.flatMap f ++ stop) fun l l' => l.map s = l'.map s := by
  intro l
  induction l with
  | nil =>
    intro l' r r' _ _ h
    cases l' with
    | nil => exact ⟨rfl, List.append_cancel_left h⟩
    | cons b t =>
      simp only [List.flatMap_nil, List.nil_append, List.flatMap_cons, List.append_assoc] at h
      exact absurd h.symm (hs b _ _)
  | cons a l ih =>
    intro l' r r' hl hl' h
    cases l' with
    | nil =>
      simp only [List.flatMap_nil, List.nil_append, List.flatMap_cons, List.append_assoc] at h
      exact absurd h (hs a _ _)
    | cons b t =>
      simp only [List.flatMap_cons, List.append_assoc] at h
      obtain ⟨e, h⟩ := hf a b _ _ (hl a List.mem_cons_self) (hl' b List.mem_cons_self) h
      simp only [← List.append_assoc] at h
      obtain ⟨e2, h⟩ := ih t r r' (fun x hx => hl x (List.mem_cons_of_mem _ hx)) (fun x hx => hl' x (List.mem_cons_of_mem _ hx)) h
      exact ⟨by simp only [List.map_cons, e, e2], h⟩

end

/-! ### values on one line -/

theorem oneLine_append {s t : QString} (hs : SingleLine s) (ht : SingleLine t) : SingleLine (s ++ t) := fun h =>
  (List.mem_append.1 h).elim hs ht

theorem oneLine_dec (n : Nat) : SingleLine (dec n) := fun h => absurd (dec_chars n 10 h).1 (by decide)

theorem oneLine_int (n : Int) : SingleLine (intText n) := by
  unfold intText
  split
  · intro h
    rcases List.mem_cons.1 h with e | h
    · exact absurd e (by decide)
    · exact oneLine_dec _ h
  · exact oneLine_dec _

theorem oneLine_bool (b : Bool) : SingleLine (boolText b) := by cases b <;> decide

theorem boolText_inj {a b : Bool} (h : boolText a = boolText b) : a = b := by
  revert h
  cases a <;> cases b <;> decide

theorem oneLine_latin1 (s : QByteArray) : SingleLine (fromLatin1 (toBase64 s)) := by
  intro h
  obtain ⟨b, hb, e⟩ := List.mem_map.1 h
  have hlt : b.toNat < 256 := b.toNat_lt
  have : b.toNat = 10 := by
    have := congrArg UInt16.toNat e
    simp only [UInt16.toNat_ofNat'] at this
    rw [Nat.mod_eq_of_lt (by omega)] at this
    exact this
  have hb10 : b = 10 := UInt8.toNat_inj.1 this
  exact (toBase64_clean s).1 (hb10 ▸ hb)

theorem fromLatin1_inj {s t : QByteArray} (h : fromLatin1 s = fromLatin1 t) : s = t := by
  refine List.map_injective_iff.2 ?_ h
  intro a b e
  have := congrArg UInt16.toNat e
  simp only [UInt16.toNat_ofNat'] at this
  have h1 : a.toNat < 256 := a.toNat_lt
  have h2 : b.toNat < 256 := b.toNat_lt
  rw [Nat.mod_eq_of_lt (by omega), Nat.mod_eq_of_lt (by omega)] at this
  exact UInt8.toNat_inj.1 this

theorem base64Text_inj {s t : QByteArray} (h : fromLatin1 (toBase64 s) = fromLatin1 (toBase64 t)) : s = t := by
  rw [← C10_base64_roundtrip s, fromLatin1_inj h, C10_base64_roundtrip]

/-- The number a text of digits stands for. -/
def digitsValue (s : QString) : Nat := s.foldl (fun n c => 10 * n + (c.toNat - 48)) 0

theorem decAux_value (k : Nat) : ∀ n, n < k → digitsValue (decAux k n) = n := by
  induction k with
  | zero => intro n h; omega
  | succ k ih =>
    intro n h
    have hd : ∀ d : Nat, d < 10 → (UInt16.ofNat (48 + d)).toNat - 48 = d := by
      intro d hd
      simp only [UInt16.toNat_ofNat']
      rw [Nat.mod_eq_of_lt (by omega)]
      omega
    rw [decAux]
    split
    · rename_i hn
      simp only [digitsValue, List.foldl_cons, List.foldl_nil, hd n hn]
      omega
    · have := ih (n / 10) (by omega)
      simp only [digitsValue] at this ⊢
      rw [List.foldl_append, this]
      simp only [List.foldl_cons, List.foldl_nil, hd _ (Nat.mod_lt n (by decide))]
      omega

theorem dec_injective {m n : Nat} (h : dec m = dec n) : m = n := by
  have := congrArg digitsValue h
  unfold dec at this
  rwa [decAux_value _ _ (Nat.lt_succ_self _), decAux_value _ _ (Nat.lt_succ_self _)] at this

theorem intText_inj {m n : Int} (h : intText m = intText n) : m = n := by
  have key : ∀ (a b : Nat), qc! '-' :: dec a ≠ dec b := fun a b e => by
    have := dec_chars b (qc! '-') (e ▸ List.mem_cons_self)
    exact absurd this.1 (by decide)
  unfold intText at h
  split at h <;> split at h
  · have := dec_injective (List.cons.inj h).2
    omega
  · exact absurd h (key _ _)
  · exact absurd h.symm (key _ _)
  · have := dec_injective h
    omega

theorem oneLine_join {ls : List QString} (h : ∀ l ∈ ls, SingleLine l) : SingleLine (join [qc! ','] ls) := by
  induction ls with
  | nil => exact List.not_mem_nil
  | cons x t ih =>
    cases t with
    | nil => exact h x List.mem_cons_self
    | cons y t =>
      rw [join]
      exact oneLine_append (oneLine_append (h x List.mem_cons_self) (by decide)) (ih fun l hl => h l (List.mem_cons_of_mem _ hl))

theorem oneLine_params {m : ParameterMap} (h : OneLineParams m) : SingleLine (m.flatMap fun p => p.1 ++ qc! ' ' :: join [qc! ','] p.2) := by
  intro hm
  obtain ⟨p, hp, hx⟩ := List.mem_flatMap.1 hm
  rcases List.mem_append.1 hx with hx | hx
  · exact (h p hp).1 hx
  · rcases List.mem_cons.1 hx with e | hx
    · exact absurd e (by decide)
    · exact oneLine_join (h p hp).2 hx

theorem oneLine_addressLabel {E : TextEnv} (hE : PlainEnv E) (t : Nat) : SingleLine (addressTypeLabel E.tr t) := by
  have hf : ∀ f, SingleLine (addressFlagLabel E.tr f) := by
    intro f
    unfold addressFlagLabel
    repeat' split
    all_goals exact hE.tr _ _ (by decide)
  have hl : ∀ (l : List Nat) (acc : QString), SingleLine acc →
      SingleLine (l.foldl (fun label flag => if t &&& flag ≠ 0 then label ++ (qc! '/' :: addressFlagLabel E.tr flag) else label) acc) := by
    intro l
    induction l with
    | nil => exact fun _ h => h
    | cons f l ih =>
      intro acc h
      rw [List.foldl_cons]
      apply ih
      split
      · exact oneLine_append h fun hm => (List.mem_cons.1 hm).elim (fun e => absurd e (by decide)) (hf f)
      · exact h
  have := hl addressTypeList [] List.not_mem_nil
  unfold addressTypeLabel
  simp only
  split
  · exact fun hm => this (List.mem_of_mem_drop hm)
  · exact this

theorem oneLine_secrecy {E : TextEnv} (hE : PlainEnv E) (s : Secrecy) : SingleLine (secrecyLabel E.tr s) := by
  cases s <;> exact hE.tr _ _ (by decide)

theorem oneLine_keyType {E : TextEnv} (hE : PlainEnv E) (k : KeyType) : SingleLine (keyTypeLabel E.tr k) := by
  cases k <;> exact hE.tr _ _ (by decide)

/-! ### the classes -/

/-- Parameters in front of a text that cannot be mistaken for parameters. -/
theorem params_reads {α : Type} {P : α → Prop} (get : α → ParameterMap) (hg : ∀ a, P a → OneLineParams (get a)) {g : α → QString} {R : α → α → Prop}
    (hr : TextReads P g R) (hs : ∀ a r r', g a ++ r ≠ q! "    parameters: " ++ r') :
    TextReads P (fun a => paramsText (get a) ++ g a) fun a b => paramsText (get a) = paramsText (get b) ∧ R a b := by
  intro a b r r' ha hb h
  have hc : ∀ m : ParameterMap, paramsText m = [] ∨
      paramsText m = q! "    parameters: " ++ ((m.flatMap fun p => p.1 ++ qc! ' ' :: join [qc! ','] p.2) ++ [10]) := by
    intro m
    unfold paramsText
    split
    · exact .inl rfl
    · exact .inr (List.append_assoc _ _ _)
  show (paramsText (get a) = paramsText (get b) ∧ R a b) ∧ r = r'
  have h : paramsText (get a) ++ g a ++ r = paramsText (get b) ++ g b ++ r' := h
  rcases hc (get a) with h1 | h1 <;> rcases hc (get b) with h2 | h2 <;> rw [h1, h2] at h <;> rw [h1, h2]
  · have := hr a b r r' ha hb h
    exact ⟨⟨rfl, this.1⟩, this.2⟩
  · rw [List.nil_append, List.append_assoc, List.append_assoc] at h
    exact absurd h (hs a _ _)
  · rw [List.nil_append, List.append_assoc, List.append_assoc] at h
    exact absurd h.symm (hs b _ _)
  · rw [List.append_assoc, List.append_assoc (q! "    parameters: "), List.append_assoc _ (g b), List.append_assoc (q! "    parameters: ")] at h
    obtain ⟨e, h⟩ := oneLine_cancel (oneLine_params (hg a ha)) (oneLine_params (hg b hb)) (List.append_cancel_left h)
    have := hr a b r r' ha hb h
    exact ⟨⟨by rw [e], this.1⟩, this.2⟩

theorem email_reads : TextReads (fun e : Email => SingleLine e.mail ∧ OneLineParams e.params) Email.toText
    fun a b => (a.mail, paramsText a.params) = (b.mail, paramsText b.params) := by
  have h := ((TextReads.lit (P := fun e : Email => SingleLine e.mail ∧ OneLineParams e.params) (q! "Email {\n")).seq
    (TextReads.line (t := q! "    mail: %1\n") (by decide) (fun e => e.mail) fun _ h => h.1)).seq
    (params_reads (fun e => e.params) (fun _ h => h.2) (TextReads.lit (q! "}\n")) fun _ _ _ e => absurd (List.cons.inj e).1 (by decide))
  refine TextReads.imp (f := Email.toText) ?_ fun a b _ _ (h : (True ∧ a.mail = b.mail) ∧ paramsText a.params = paramsText b.params ∧ True) => by
    rw [h.1.2, h.2.1]
  intro a b r r' ha hb e
  refine h a b r r' ha hb ?_
  simpa only [Email.toText, List.append_assoc] using e

theorem lang_reads : TextReads (fun t : ParamText => SingleLine t.text ∧ OneLineParams t.params) langText
    fun a b => (a.text, paramsText a.params) = (b.text, paramsText b.params) := by
  have h := ((TextReads.lit (P := fun t : ParamText => SingleLine t.text ∧ OneLineParams t.params) (q! "Lang {\n")).seq
    (TextReads.line (t := q! "    language: %1\n") (by decide) (fun e => e.text) fun _ h => h.1)).seq
    (params_reads (fun e => e.params) (fun _ h => h.2) (TextReads.lit (q! "}\n")) fun _ _ _ e => absurd (List.cons.inj e).1 (by decide))
  refine TextReads.imp (f := langText) ?_ fun a b _ _ (h : (True ∧ a.text = b.text) ∧ paramsText a.params = paramsText b.params ∧ True) => by
    rw [h.1.2, h.2.1]
  intro a b r r' ha hb e
  refine h a b r r' ha hb ?_
  simpa only [langText, List.append_assoc] using e

theorem phone_reads : TextReads (fun p : PhoneNumber => SingleLine p.number ∧ OneLineParams p.params) PhoneNumber.toText
    fun a b => (a.number, paramsText a.params) = (b.number, paramsText b.params) := by
  have h := params_reads (P := fun p : PhoneNumber => SingleLine p.number ∧ OneLineParams p.params) (fun p => p.params) (fun _ h => h.2)
    ((TextReads.line (t := q! "    Number: %1\n") (by decide) (fun p => p.number) fun _ h => h.1).seq (TextReads.lit (q! "}\n"))) (by
      intro a r r' e
      simp only [arg_template (t := q! "    Number: %1\n") (by decide)] at e
      exact absurd (show some (78 : UInt16) = some 112 from congrArg (fun s => (s.drop 4).head?) e) (by decide))
  refine TextReads.imp (f := PhoneNumber.toText) ?_ fun a b _ _ (h : paramsText a.params = paramsText b.params ∧ a.number = b.number ∧ True) => by
    rw [h.1, h.2.1]
  intro a b r r' ha hb e
  refine h a b r r' ha hb ?_
  simpa only [PhoneNumber.toText, List.append_assoc] using e

theorem geo_reads {E : TextEnv} (hE : PlainEnv E) : TextReads (fun _ : Geo => True) (Geo.toText E) fun a b => shownGeo E a = shownGeo E b :=
  (((((TextReads.lit (q! "Geo {\n")).seq
    (TextReads.line (t := q! "  Valid: %1\n") (by decide) (fun g : Geo => boolText g.isValid) fun _ _ => oneLine_bool _)).seq
    (TextReads.line (t := q! "  Latitude: %1\n") (by decide) (fun g : Geo => E.fltText g.latitude) fun _ _ => hE.flt _)).seq
    (TextReads.line (t := q! "  Longitude: %1\n") (by decide) (fun g : Geo => E.fltText g.longitude) fun _ _ => hE.flt _)).seq
    (TextReads.lit (q! "}\n"))).imp fun a b _ _ h => by
      unfold shownGeo
      rw [boolText_inj h.1.1.1.2, h.1.1.2, h.1.2]

theorem timeZone_reads : TextReads (fun _ : TimeZone => True) TimeZone.toText fun a b => a.offset = b.offset :=
  (((TextReads.lit (q! "TimeZone {\n")).seq
    (TextReads.line (t := q! "  Offset: %1\n") (by decide) (fun t : TimeZone => intText t.offset) fun _ _ => oneLine_int _)).seq
    (TextReads.lit (q! "}\n"))).imp fun _ _ _ _ h => intText_inj h.1.2

theorem gender_reads : TextReads (fun g : Gender => SingleLine g.gender ∧ SingleLine g.comment) Gender.toText
    fun a b => a.gender = b.gender ∧ a.comment = b.comment :=
  ((((TextReads.lit (q! "Gender {\n")).seq
    (TextReads.line (t := q! "    gender: %1\n") (by decide) (fun g : Gender => g.gender) fun _ h => h.1)).seq
    (TextReads.line (t := q! "    comment: %1\n") (by decide) (fun g : Gender => g.comment) fun _ h => h.2)).seq
    (TextReads.lit (q! "}\n"))).imp fun _ _ _ _ h => ⟨h.1.1.2, h.1.2⟩

theorem secrecy_reads {E : TextEnv} (hE : PlainEnv E) : TextReads (fun _ : Secrecy => True) (Secrecy.toText E)
    fun a b => secrecyLabel E.tr a = secrecyLabel E.tr b :=
  (((TextReads.lit (q! "Secrecy {\n")).seq
    (TextReads.line (t := q! "  Type: %1\n") (by decide) (fun s : Secrecy => secrecyLabel E.tr s) fun _ _ => oneLine_secrecy hE _)).seq
    (TextReads.lit (q! "}\n"))).imp fun _ _ _ _ h => h.1.2

/-- Data or a text, behind a line that says which. -/
theorem data_reads {α : Type} {P : α → Prop} {t td tu : QString} (hp : Template t) (hd : Template td) (hu : Template tu)
    (isData : α → Bool) (data : α → QByteArray) (text : α → QString) (ht : ∀ a, P a → SingleLine (text a)) :
    TextReads P (fun a => arg t (boolText (isData a)) ++
        (if isData a then arg td (fromLatin1 (toBase64 (data a))) else arg tu (text a)))
      fun a b => (if isData a then Sum.inl (data a) else Sum.inr (text a) : QByteArray ⊕ QString) = if isData b then .inl (data b) else .inr (text b) := by
  intro a b r r' ha hb h
  rw [List.append_assoc, List.append_assoc] at h
  obtain ⟨e, h⟩ := TextReads.line hp (fun a => boolText (isData a)) (fun _ _ => oneLine_bool _) a b _ _ ha hb h
  have e := boolText_inj e
  beta_reduce at h ⊢
  rw [e] at h ⊢
  cases hc : isData b with
  | true =>
    rw [hc] at h
    simp only [if_true] at h ⊢
    obtain ⟨e2, h⟩ := TextReads.line hd (fun a => fromLatin1 (toBase64 (data a))) (fun _ _ => oneLine_latin1 _) a b _ _ ha hb h
    exact ⟨by rw [base64Text_inj e2], h⟩
  | false =>
    rw [hc] at h
    simp only [Bool.false_eq_true, if_false] at h ⊢
    obtain ⟨e2, h⟩ := TextReads.line hu text ht a b _ _ ha hb h
    exact ⟨by rw [e2], h⟩

theorem picture_reads {E : TextEnv} : TextReads (fun p : Picture => SingleLine p.type ∧ SingleLine p.url) (Picture.toText E)
    fun a b => shownPicture E a = shownPicture E b := by
  have h := ((TextReads.lit (q! "Picture {\n")).seq
    (TextReads.line (t := q! "  Type: %1\n") (by decide) (fun p : Picture => p.type) fun _ (h : SingleLine _ ∧ SingleLine _) => h.1)).seq
    ((data_reads (t := q! "  IsIntern: %1\n") (td := q! "  Data: %1\n") (tu := q! "  Url: %1\n") (by decide) (by decide) (by decide)
      (fun p : Picture => p.isIntern) (fun p => p.rawBytes E.toToolEnv) (fun p => p.url) fun _ h => h.2).seq (TextReads.lit (q! "}\n")))
  intro a b r r' ha hb e
  have := h a b r r' ha hb (by simpa only [Picture.toText, List.append_assoc] using e)
  exact ⟨by simp only [shownPicture, this.1.1.2, this.1.2.1], this.2⟩

theorem sound_reads : TextReads (fun p : Sound => SingleLine p.type ∧ SingleLine p.url) Sound.toText fun a b => shownSound a = shownSound b := by
  have h := ((TextReads.lit (q! "Sound {\n")).seq
    (TextReads.line (t := q! "  Type: %1\n") (by decide) (fun p : Sound => p.type) fun _ (h : SingleLine _ ∧ SingleLine _) => h.1)).seq
    ((data_reads (t := q! "  IsIntern: %1\n") (td := q! "  Data: %1\n") (tu := q! "  Url: %1\n") (by decide) (by decide) (by decide)
      (fun p : Sound => p.isIntern) (fun p => p.data) (fun p => p.url) fun _ h => h.2).seq (TextReads.lit (q! "}\n")))
  intro a b r r' ha hb e
  have := h a b r r' ha hb (by simpa only [Sound.toText, List.append_assoc] using e)
  exact ⟨by simp only [shownSound, this.1.1.2, this.1.2.1], this.2⟩

/-- The texts of a key on one line. -/
abbrev OneLineKey (k : Key) : Prop := SingleLine k.id ∧ SingleLine k.customTypeString ∧ SingleLine k.textData

theorem key_reads {E : TextEnv} (hE : PlainEnv E) : TextReads OneLineKey (Key.toText E) fun a b => shownKey E a = shownKey E b := by
  have h1 := ((TextReads.lit (P := OneLineKey) (q! "Key {\n")).seq
    (TextReads.line (t := q! "  Id: %1\n") (by decide) (fun k : Key => k.id) fun _ h => h.1)).seq
    (TextReads.line (t := q! "  Type: %1\n") (by decide) (fun k : Key => keyTypeLabel E.tr k.type) fun _ _ => oneLine_keyType hE _)
  have h3 := (data_reads (P := OneLineKey) (t := q! "  IsBinary: %1\n") (td := q! "  Binary: %1\n") (tu := q! "  Text: %1\n") (by decide) (by decide) (by decide)
    (fun k : Key => k.isBinary) (fun k => k.binaryData) (fun k => k.textData) fun _ h => h.2.2).seq (TextReads.lit (q! "}\n"))
  have hc := TextReads.line (P := OneLineKey) (t := q! "  CustomType: %1\n") (by decide) (fun k : Key => k.customTypeString) fun _ h => h.2.1
  have hne : ∀ (u v : QString) (r r' : QString), arg (q! "  CustomType: %1\n") u ++ r ≠ arg (q! "  IsBinary: %1\n") v ++ r' := by
    intro u v r r' e
    rw [arg_template (t := q! "  CustomType: %1\n") (by decide), arg_template (t := q! "  IsBinary: %1\n") (by decide)] at e
    exact absurd (show some (67 : UInt16) = some 73 from congrArg (fun s => (s.drop 2).head?) e) (by decide)
  intro a b r r' ha hb e
  simp only [Key.toText, List.append_assoc] at e
  simp only [← List.append_assoc] at e
  simp only [List.append_assoc] at e
  obtain ⟨⟨⟨_, e1⟩, e2⟩, e⟩ := h1 a b _ _ ha hb (by simpa only [List.append_assoc] using e)
  have hend : ∀ {r r' : QString}, (arg (q! "  IsBinary: %1\n") (boolText a.isBinary) ++
      ((if a.isBinary then arg (q! "  Binary: %1\n") (fromLatin1 (toBase64 a.binaryData)) else arg (q! "  Text: %1\n") a.textData) ++ (q! "}\n" ++ r))) =
      (arg (q! "  IsBinary: %1\n") (boolText b.isBinary) ++
      ((if b.isBinary then arg (q! "  Binary: %1\n") (fromLatin1 (toBase64 b.binaryData)) else arg (q! "  Text: %1\n") b.textData) ++ (q! "}\n" ++ r'))) →
      (if a.isBinary then Sum.inl a.binaryData else Sum.inr a.textData : QByteArray ⊕ QString) =
        (if b.isBinary then .inl b.binaryData else .inr b.textData) ∧ r = r' := by
    intro r r' e
    have := h3 a b r r' ha hb (by simpa only [List.append_assoc] using e)
    exact ⟨this.1.1, this.2⟩
  unfold shownKey
  beta_reduce
  rw [e1, e2]
  by_cases ca : a.type = .custom <;> by_cases cb : b.type = .custom
  · rw [if_pos ca, if_pos cb] at e ⊢
    obtain ⟨e3, e⟩ := hc a b _ _ ha hb e
    obtain ⟨e4, e⟩ := hend e
    exact ⟨by rw [e3, e4], e⟩
  · rw [if_pos ca, if_neg cb, List.nil_append] at e
    exact absurd e (hne _ _ _ _)
  · rw [if_neg ca, if_pos cb, List.nil_append] at e
    exact absurd e.symm (hne _ _ _ _)
  · rw [if_neg ca, if_neg cb, List.nil_append, List.nil_append] at e
    rw [if_neg ca, if_neg cb]
    obtain ⟨e4, e⟩ := hend e
    exact ⟨by rw [e4], e⟩

/-- The texts of an address on one line. -/
abbrev OneLineAddress (a : Address) : Prop :=
  ∀ t ∈ [a.id, a.postOfficeBox, a.extended, a.street, a.locality, a.region, a.postalCode, a.country, a.label], SingleLine t

theorem address_reads {E : TextEnv} (hE : PlainEnv E) : TextReads OneLineAddress (Address.toText E) fun a b => shownAddress E a = shownAddress E b :=
  ((((((((((((((TextReads.lit (P := OneLineAddress) (q! "Address {\n")).seq
    (TextReads.line (t := q! "  IsEmpty: %1\n") (by decide) (fun a : Address => boolText a.empty) fun _ _ => oneLine_bool _)).seq
    (TextReads.line (t := q! "  Id: %1\n") (by decide) (fun a : Address => a.id) fun _ h => h _ (by simp))).seq
    (TextReads.line (t := q! "  Type: %1\n") (by decide) (fun a : Address => addressTypeLabel E.tr a.type) fun _ _ => oneLine_addressLabel hE _)).seq
    (TextReads.line (t := q! "  Post office box: %1\n") (by decide) (fun a : Address => a.postOfficeBox) fun _ h => h _ (by simp))).seq
    (TextReads.line (t := q! "  Extended: %1\n") (by decide) (fun a : Address => a.extended) fun _ h => h _ (by simp))).seq
    (TextReads.line (t := q! "  Street: %1\n") (by decide) (fun a : Address => a.street) fun _ h => h _ (by simp))).seq
    (TextReads.line (t := q! "  Locality: %1\n") (by decide) (fun a : Address => a.locality) fun _ h => h _ (by simp))).seq
    (TextReads.line (t := q! "  Region: %1\n") (by decide) (fun a : Address => a.region) fun _ h => h _ (by simp))).seq
    (TextReads.line (t := q! "  Postal code: %1\n") (by decide) (fun a : Address => a.postalCode) fun _ h => h _ (by simp))).seq
    (TextReads.line (t := q! "  Country: %1\n") (by decide) (fun a : Address => a.country) fun _ h => h _ (by simp))).seq
    (TextReads.line (t := q! "  Label: %1\n") (by decide) (fun a : Address => a.label) fun _ h => h _ (by simp))).seq
    (TextReads.nested (t := q! "  Geo: %1\n") (by decide) ((geo_reads hE).of (fun a : Address => a.geo) fun _ _ => trivial))).seq
    (TextReads.lit (q! "}\n"))).imp fun a b _ _ h => by
      obtain ⟨⟨⟨⟨⟨⟨⟨⟨⟨⟨⟨⟨⟨_, e1⟩, e2⟩, e3⟩, e4⟩, e5⟩, e6⟩, e7⟩, e8⟩, e9⟩, e10⟩, e11⟩, e12⟩, _⟩ := h
      unfold shownAddress
      rw [boolText_inj e1, e2, e3, e4, e5, e6, e7, e8, e9, e10, e11, e12]

/-- Two contacts agree on the single fields that are shown. -/
structure SameFields (E : TextEnv) (c d : Contact) : Prop where
  texts : shownTexts c = shownTexts d
  birthday : E.dateText c.birthday = E.dateText d.birthday
  revision : E.dateText c.revision = E.dateText d.revision
  offset : c.timeZone.offset = d.timeZone.offset
  geo : shownGeo E c.geo = shownGeo E d.geo
  secrecy : secrecyLabel E.tr c.secrecy = secrecyLabel E.tr d.secrecy
  logo : shownPicture E c.logo = shownPicture E d.logo
  photo : shownPicture E c.photo = shownPicture E d.photo
  sound : shownSound c.sound = shownSound d.sound
  gender : c.gender.gender = d.gender.gender ∧ c.gender.comment = d.gender.comment

set_option maxRecDepth 4000 in
theorem fields_reads {E : TextEnv} (hE : PlainEnv E) : TextReads OneLineContact (Contact.fieldsText E) (SameFields E) :=
  (((((((((((((((((((((((((((((TextReads.line (P := OneLineContact) (t := q! "  Uid: %1\n") (by decide) (fun c : Contact => c.uid) fun c h => h.texts (q! "Uid", c.uid) (by simp [shownTexts])).seq
    (TextReads.line (P := OneLineContact) (t := q! "  Name: %1\n") (by decide) (fun c : Contact => c.name) fun c h => h.texts (q! "Name", c.name) (by simp [shownTexts]))).seq
    (TextReads.line (P := OneLineContact) (t := q! "  FormattedName: %1\n") (by decide) (fun c : Contact => c.formattedName) fun c h => h.texts (q! "FormattedName", c.formattedName) (by simp [shownTexts]))).seq
    (TextReads.line (P := OneLineContact) (t := q! "  FamilyName: %1\n") (by decide) (fun c : Contact => c.familyName) fun c h => h.texts (q! "FamilyName", c.familyName) (by simp [shownTexts]))).seq
    (TextReads.line (P := OneLineContact) (t := q! "  GivenName: %1\n") (by decide) (fun c : Contact => c.givenName) fun c h => h.texts (q! "GivenName", c.givenName) (by simp [shownTexts]))).seq
    (TextReads.line (P := OneLineContact) (t := q! "  AdditionalName: %1\n") (by decide) (fun c : Contact => c.additionalName) fun c h => h.texts (q! "AdditionalName", c.additionalName) (by simp [shownTexts]))).seq
    (TextReads.line (P := OneLineContact) (t := q! "  Prefix: %1\n") (by decide) (fun c : Contact => c.prefix_) fun c h => h.texts (q! "Prefix", c.prefix_) (by simp [shownTexts]))).seq
    (TextReads.line (P := OneLineContact) (t := q! "  Suffix: %1\n") (by decide) (fun c : Contact => c.suffix) fun c h => h.texts (q! "Suffix", c.suffix) (by simp [shownTexts]))).seq
    (TextReads.line (P := OneLineContact) (t := q! "  NickName: %1\n") (by decide) (fun c : Contact => c.text .nickName) fun c h => h.texts (q! "NickName", c.text .nickName) (by simp [shownTexts]))).seq
    (TextReads.line (P := OneLineContact) (t := q! "  Birthday: %1\n") (by decide) (fun c : Contact => E.dateText c.birthday) fun _ _ => hE.date _)).seq
    (TextReads.line (P := OneLineContact) (t := q! "  Mailer: %1\n") (by decide) (fun c : Contact => c.mailer) fun c h => h.texts (q! "Mailer", c.mailer) (by simp [shownTexts]))).seq
    (TextReads.nested (P := OneLineContact) (t := q! "  TimeZone: %1\n") (by decide) (timeZone_reads.of (fun c : Contact => c.timeZone) fun _ _ => trivial))).seq
    (TextReads.nested (P := OneLineContact) (t := q! "  Geo: %1\n") (by decide) ((geo_reads hE).of (fun c : Contact => c.geo) fun _ _ => trivial))).seq
    (TextReads.line (P := OneLineContact) (t := q! "  Title: %1\n") (by decide) (fun c : Contact => c.text .title) fun c h => h.texts (q! "Title", c.text .title) (by simp [shownTexts]))).seq
    (TextReads.line (P := OneLineContact) (t := q! "  Role: %1\n") (by decide) (fun c : Contact => c.text .role) fun c h => h.texts (q! "Role", c.text .role) (by simp [shownTexts]))).seq
    (TextReads.line (P := OneLineContact) (t := q! "  Organization: %1\n") (by decide) (fun c : Contact => c.text .organization) fun c h => h.texts (q! "Organization", c.text .organization) (by simp [shownTexts]))).seq
    (TextReads.line (P := OneLineContact) (t := q! "  Department: %1\n") (by decide) (fun c : Contact => c.department) fun c h => h.texts (q! "Department", c.department) (by simp [shownTexts]))).seq
    (TextReads.line (P := OneLineContact) (t := q! "  Note: %1\n") (by decide) (fun c : Contact => c.note) fun c h => h.texts (q! "Note", c.note) (by simp [shownTexts]))).seq
    (TextReads.line (P := OneLineContact) (t := q! "  ProductId: %1\n") (by decide) (fun c : Contact => c.productId) fun c h => h.texts (q! "ProductId", c.productId) (by simp [shownTexts]))).seq
    (TextReads.line (P := OneLineContact) (t := q! "  Revision: %1\n") (by decide) (fun c : Contact => E.dateText c.revision) fun _ _ => hE.date _)).seq
    (TextReads.line (P := OneLineContact) (t := q! "  SortString: %1\n") (by decide) (fun c : Contact => c.sortString) fun c h => h.texts (q! "SortString", c.sortString) (by simp [shownTexts]))).seq
    (TextReads.line (P := OneLineContact) (t := q! "  Url: %1\n") (by decide) (fun c : Contact => c.url.url) fun c h => h.texts (q! "Url", c.url.url) (by simp [shownTexts]))).seq
    (TextReads.nested (P := OneLineContact) (t := q! "  Secrecy: %1\n") (by decide) ((secrecy_reads hE).of (fun c : Contact => c.secrecy) fun _ _ => trivial))).seq
    (TextReads.nested (P := OneLineContact) (t := q! "  Logo: %1\n") (by decide) ((picture_reads (E := E)).of (fun c : Contact => c.logo) fun _ h => h.logo))).seq
    (TextReads.nested (P := OneLineContact) (t := q! "  Photo: %1\n") (by decide) ((picture_reads (E := E)).of (fun c : Contact => c.photo) fun _ h => h.photo))).seq
    (TextReads.nested (P := OneLineContact) (t := q! "  Sound: %1\n") (by decide) (sound_reads.of (fun c : Contact => c.sound) fun _ h => h.sound))).seq
    (TextReads.nested (P := OneLineContact) (t := q! "  Gender: %1\n") (by decide) (gender_reads.of (fun c : Contact => c.gender) fun _ h => h.gender))).seq
    (TextReads.line (P := OneLineContact) (t := q! "  Kind: %1\n") (by decide) (fun c : Contact => c.kind) fun c h => h.texts (q! "Kind", c.kind) (by simp [shownTexts])))).imp fun a b _ _ h => by
      obtain ⟨⟨⟨⟨⟨⟨⟨⟨⟨⟨⟨⟨⟨⟨⟨⟨⟨⟨⟨⟨⟨⟨⟨⟨⟨⟨⟨e1, e2⟩, e3⟩, e4⟩, e5⟩, e6⟩, e7⟩, e8⟩, e9⟩, e10⟩, e11⟩, e12⟩, e13⟩, e14⟩, e15⟩, e16⟩, e17⟩, e18⟩, e19⟩, e20⟩, e21⟩, e22⟩, e23⟩, e24⟩, e25⟩, e26⟩, e27⟩, e28⟩ := h
      exact ⟨by unfold shownTexts; rw [e1, e2, e3, e4, e5, e6, e7, e8, e9, e11, e14, e15, e16, e17, e18, e19, e21, e22, e28], e10, e20, e12, e13, e23, e24, e25, e26, e27⟩

theorem contact_reads {E : TextEnv} (hE : PlainEnv E) : TextReads OneLineContact (Contact.toText E) (SameShown E) := by
  have h1 := (TextReads.list email_reads (stop := q! "  }\n") (by
    intro a r r' e
    exact absurd (show some (69 : UInt16) = some 32 from congrArg List.head? e) (by decide))).of (fun c : Contact => c.emails) fun c (h : OneLineContact c) => h.emails
  have h2 := (TextReads.list lang_reads (stop := q! "  }\n") (by
    intro a r r' e
    exact absurd (show some (76 : UInt16) = some 32 from congrArg List.head? e) (by decide))).of (fun c : Contact => c.langs) fun c (h : OneLineContact c) => h.langs
  have h3 := (TextReads.list phone_reads (stop := q! "  }\n") (by
    intro a r r' e
    have hh : ∀ s : QString, ((paramsText a.params ++ arg (q! "    Number: %1\n") a.number ++ s).drop 2).head? = some 32 := by
      intro s
      rw [arg_template (t := q! "    Number: %1\n") (by decide)]
      unfold paramsText
      split <;> rfl
    have := congrArg (fun s => (s.drop 2).head?) e
    simp only [PhoneNumber.toText, List.append_assoc] at this
    rw [← List.append_assoc (paramsText _), hh] at this
    exact absurd (show some (32 : UInt16) = some 125 from this) (by decide))).of (fun c : Contact => c.phoneNumbers) fun c (h : OneLineContact c) => h.phones
  have h4 := (TextReads.list (address_reads hE) (stop := q! "  }\n") (by
    intro a r r' e
    exact absurd (show some (65 : UInt16) = some 32 from congrArg List.head? e) (by decide))).of (fun c : Contact => c.addresses) fun c (h : OneLineContact c) => h.addresses
  have h5 := (TextReads.list (key_reads hE) (stop := q! "  }\n") (by
    intro a r r' e
    exact absurd (show some (75 : UInt16) = some 32 from congrArg List.head? e) (by decide))).of (fun c : Contact => c.keys) fun c (h : OneLineContact c) => h.keys
  intro a b r r' ha hb e
  simp only [Contact.toText, List.append_assoc] at e
  have e := List.append_cancel_left e
  obtain ⟨f0, e⟩ := fields_reads hE a b _ _ ha hb e
  obtain ⟨f1, e⟩ := h1 a b _ _ ha hb (by simpa only [List.append_assoc] using List.append_cancel_left e)
  obtain ⟨f2, e⟩ := h2 a b _ _ ha hb (by simpa only [List.append_assoc] using List.append_cancel_left e)
  obtain ⟨f3, e⟩ := h3 a b _ _ ha hb (by simpa only [List.append_assoc] using List.append_cancel_left e)
  obtain ⟨f4, e⟩ := h4 a b _ _ ha hb (by simpa only [List.append_assoc] using List.append_cancel_left e)
  obtain ⟨f5, e⟩ := h5 a b _ _ ha hb (by simpa only [List.append_assoc] using List.append_cancel_left e)
  exact ⟨⟨f0.texts, f0.birthday, f0.revision, f0.offset, f0.geo, f0.secrecy, f0.logo, f0.photo, f0.sound, f0.gender, f1, f2, f3, f4, f5⟩,
    List.append_cancel_left e⟩

end KC
