import Verif.Lemmas.SecNames
import Verif.Props.C02
import Verif.Props.C15
/- Helper lemmas: the fields of a contact after writing and reading, part 1: texts, names, dates, place, gender, categories. -/
namespace KC
open Spec

/-! ### tools -/

/-- a literal line name -/
def nameLit (k : QString) : Bool :=
  (k.all fun u => u.toNat < 256) && (qc! ';' ∉ k && qc! ':' ∉ k && (10 : UInt16) ∉ k) && qc! '.' ∉ k &&
    (k.head?.all fun c => c.toNat ≠ 32 && !(9 ≤ c.toNat && c.toNat ≤ 13)) && (toLowerB (toLatin1 k) ≠ b! "begin" && toLowerB (toLatin1 k) ≠ b! "end")

theorem nameGood_lit {k : QString} (h : nameLit k = true) : NameGood k := by
  simp only [nameLit, Bool.and_eq_true, List.all_eq_true, decide_eq_true_eq] at h
  obtain ⟨⟨⟨⟨h1, ⟨h2, h3⟩, h4⟩, h5⟩, h6⟩, h7, h8⟩ := h
  refine ⟨h1, ⟨h2, h3, h4⟩, by rw [splitOn_of_not_mem _ _ h5]; simp, ?_, ⟨h7, h8⟩⟩
  intro c hc
  rw [hc] at h6
  simp only [Option.all_some, Bool.and_eq_true, Bool.not_eq_true', Bool.and_eq_false_iff, decide_eq_false_iff_not, decide_eq_true_eq] at h6
  exact ⟨h6.1, fun h => by rcases h6.2 with h' | h' <;> omega⟩

theorem nameRead_lit {k : QString} (h : nameLit k = true) : nameRead k = ([], k) := by
  simp only [nameLit, Bool.and_eq_true, decide_eq_true_eq] at h
  exact nameRead_plain h.1.1.2

theorem coding_nil (v : Version) : coding v [] = [] := by unfold coding needsEncoding; simp

theorem fine_text (E : Codecs) {id s : QString} {h : List (QString × QString)} (hn : NameGood id) (hs : SafeText s) (hp : ∀ p ∈ h, PairOK p) :
    LineFine E (mkLine id (.str s) h) := by
  by_cases he : s = []
  · subst he; exact .empty _ _ fun p hm => (hp p hm).key
  · exact .good _ (good_text E id hn s hs he h hp) (by simp [mkLine, he])

theorem fine_coded (E : Codecs) {v : Version} {id s : QString} {h : List (QString × QString)} (hn : NameGood id) (hs : CodedText E v s) (hp : ∀ p ∈ h, PairOK p) :
    LineFine E (mkLine id (.str s) (coding v s ++ h)) := by
  by_cases he : s = []
  · subst he
    rw [coding_nil]; exact .empty _ _ fun p hm => (hp p hm).key
  · exact .good _ (good_coded E v id hn s hs he h hp) (by simp [mkLine, he])

theorem fine_coded0 (E : Codecs) {v : Version} {id s : QString} (hn : NameGood id) (hs : CodedText E v s) :
    LineFine E (mkLine id (.str s) (coding v s)) := by
  have := fine_coded E (h := []) hn hs (by simp)
  rwa [List.append_nil] at this

/-- a line as it is read back -/
def rdLine (id : QString) (val : QVariant) (h : List (QString × QString)) : VCardLine :=
  { identifier := id, value := val, params := paramsAfter (readPairs h) }

theorem readBack_text {id : QString} (hn : nameLit id = true) (s : QString) (h : List (QString × QString)) :
    readBack (mkLine id (.str s) h) = if s = [] then none else some (rdLine id (.str s) h) := by
  unfold readBack
  by_cases he : s = []
  · rw [if_pos he, if_pos (.inr (by simp [mkLine, he]))]
  · rw [if_neg he, if_neg (by simp [mkLine, he]), lineRead_mk, nameRead_lit hn]; rfl

theorem readBack_bytes {id : QString} (hn : nameLit id = true) (b : QByteArray) (h : List (QString × QString)) :
    readBack (mkLine id (.bytes b) h) = some (rdLine id (.bytes b) h) := by
  unfold readBack
  rw [if_neg (by simp [mkLine]), lineRead_mk, nameRead_lit hn]; rfl

theorem rd_parameter (id : QString) (val : QVariant) (h : List (QString × QString)) (k : QString) :
    (rdLine id val h).parameter k = (valuesOf (readPairs h) k).head?.getD [] := parameter_of _ _ rfl k
theorem rd_parameters (id : QString) (val : QVariant) (h : List (QString × QString)) (k : QString) :
    (rdLine id val h).parameters k = distinct (valuesOf (readPairs h) k) := parameters_of _ _ rfl k
theorem rd_parameterList (id : QString) (val : QVariant) (h : List (QString × QString)) (k : QString) :
    k ∈ (rdLine id val h).parameterList ↔ valuesOf (readPairs h) k ≠ [] := parameterList_of _ _ rfl k

/-- a section of one line with a text -/
theorem fold_one {α : Type} {id : QString} (hn : nameLit id = true) (s : QString) (h : List (QString × QString)) (f : α → VCardLine → α) (a : α) :
    ([mkLine id (.str s) h].filterMap readBack).foldl f a = if s = [] then a else f a (rdLine id (.str s) h) := by
  rw [List.filterMap_cons, readBack_text hn]
  by_cases he : s = []
  · simp [he]
  · simp [he]

theorem text_field {id : QString} (hn : nameLit id = true) (s : QString) (h : List (QString × QString)) (a : QString) (ha : a = [] ∨ s ≠ []) :
    ([mkLine id (.str s) h].filterMap readBack).foldl (fun _ l => l.value.toString) a = s := by
  rw [fold_one hn]
  split
  · rename_i e
    rcases ha with ha | ha
    · rw [ha, e]
    · exact absurd e ha
  · rfl

theorem fold_filter_noop {α β : Type} (f : α → β → α) (L : List β) (P Q : β → Bool) (h : ∀ a, ∀ l ∈ L, P l = true → Q l = false → f a l = a) (a : α) :
    (L.filter P).foldl f a = (L.filter fun l => P l && Q l).foldl f a := by
  induction L generalizing a with
  | nil => rfl
  | cons l L ih =>
    have ih := ih fun a l hl => h a l (List.mem_cons_of_mem _ hl)
    rw [List.filter_cons, List.filter_cons]
    by_cases hp : P l = true
    · by_cases hq : Q l = true
      · simp only [hp, hq, Bool.and_self, if_true, List.foldl_cons]; exact ih _
      · rw [Bool.not_eq_true] at hq
        simp only [hp, hq, Bool.and_false, if_true, Bool.false_eq_true, if_false, List.foldl_cons]
        rw [h a l (by simp) hp hq]; exact ih _
    · rw [Bool.not_eq_true] at hp
      simp only [hp, Bool.false_and, Bool.false_eq_true, if_false]
      exact ih _

/-! ### plain texts -/

theorem safe_ascii {s : QString} (h : ∀ u ∈ s, u.toNat < 128 ∧ u ≠ 92) : SafeText s := by
  refine ⟨wf_ascii fun u hu => (h u hu).1, ?_, ?_⟩
  · intro e
    have := (h _ (List.mem_of_mem_head? e)).1
    exact absurd this (by decide)
  · intro pre post c e
    exact absurd rfl (h 92 (by rw [e]; simp)).2

theorem dig_plain (n : Nat) (h : n < 10) : 48 ≤ (dig n).toNat ∧ (dig n).toNat ≤ 57 := by
  have : ∀ n : Fin 10, 48 ≤ (dig n.val).toNat ∧ (dig n.val).toNat ≤ 57 := by decide
  exact this ⟨n, h⟩

theorem dec_chars (n : Nat) : ∀ u ∈ dec n, 48 ≤ u.toNat ∧ u.toNat ≤ 57 := by
  have : ∀ k n, ∀ u ∈ decAux k n, 48 ≤ u.toNat ∧ u.toNat ≤ 57 := by
    intro k
    induction k with
    | zero => intro n u hu; simp [decAux] at hu
    | succ k ih =>
      intro n u hu
      unfold decAux at hu
      split at hu
      · rename_i hn
        rw [List.mem_singleton] at hu; subst hu; exact dig_plain n hn
      · rcases List.mem_append.1 hu with hu | hu
        · exact ih _ _ hu
        · rw [List.mem_singleton] at hu; subst hu; exact dig_plain _ (Nat.mod_lt _ (by decide))
  exact this _ _

theorem padded_chars (w n : Nat) : ∀ u ∈ padded w n, 48 ≤ u.toNat ∧ u.toNat ≤ 57 := by
  intro u hu
  unfold padded at hu
  rcases List.mem_append.1 hu with hu | hu
  · have := List.eq_of_mem_replicate hu; subst this; decide
  · exact dec_chars n u hu

/-- ASCII without backslash -/
def Bare (s : QString) : Prop := ∀ u ∈ s, u.toNat < 128 ∧ u ≠ 92

theorem Bare.append {a b : QString} (ha : Bare a) (hb : Bare b) : Bare (a ++ b) := fun u hu => by
  rcases List.mem_append.1 hu with hu | hu
  · exact ha u hu
  · exact hb u hu
theorem Bare.cons {x : UInt16} {b : QString} (hx : x.toNat < 128 ∧ x ≠ 92) (hb : Bare b) : Bare (x :: b) := fun u hu => by
  rcases List.mem_cons.1 hu with rfl | hu
  · exact hx
  · exact hb u hu
theorem Bare.nil : Bare [] := fun _ hu => by simp at hu
theorem Bare.digits {s : QString} (h : ∀ u ∈ s, 48 ≤ u.toNat ∧ u.toNat ≤ 57) : Bare s := fun u hu => by
  have := h u hu
  refine ⟨by omega, ?_⟩
  rintro rfl
  exact absurd this.2 (by decide)
theorem Bare.padded (w n : Nat) : Bare (padded w n) := .digits (padded_chars w n)
theorem Bare.ite {P : Prop} [Decidable P] {a b : QString} (ha : Bare a) (hb : Bare b) : Bare (if P then a else b) := by
  split
  · exact ha
  · exact hb

theorem date_bare (d : Int × Nat × Nat) (v4 : Bool) : Bare (createDate d v4) := by
  unfold createDate
  exact (((Bare.ite ((Bare.padded _ _).append (Bare.ite .nil (.cons (by decide) .nil))) (.cons (by decide) (.cons (by decide) .nil))).append
    (Bare.padded _ _)).append (Bare.ite .nil (.cons (by decide) .nil))).append (Bare.padded _ _)

theorem time_bare (t : Nat × Nat × Nat × Nat) (v4 : Bool) : Bare (createTime t v4) := by
  unfold createTime
  exact .cons (by decide) (((((Bare.padded _ _).append (Bare.ite .nil (.cons (by decide) .nil))).append
    (Bare.padded _ _)).append (Bare.ite .nil (.cons (by decide) .nil))).append (Bare.padded _ _))

theorem datetime_bare (d : QDateTime) (v4 w : Bool) : Bare (createDateTime d v4 w) := by
  unfold createDateTime
  cases d with
  | none => exact .nil
  | some d =>
    simp only
    split
    · exact date_bare _ _
    · cases d.zone with
      | none => exact (date_bare _ _).append (time_bare _ _)
      | some o =>
        simp only
        split
        · exact ((date_bare _ _).append (time_bare _ _)).append (.cons (by decide) .nil)
        · refine (((((date_bare _ _).append (time_bare _ _)).append (.cons ?_ .nil)).append (Bare.padded _ _)).append
            (Bare.ite .nil (.cons (by decide) .nil))).append (Bare.padded _ _)
          split <;> decide

theorem datetime_safe (d : QDateTime) (v4 w : Bool) : SafeText (createDateTime d v4 w) := safe_ascii (datetime_bare d v4 w)

/-! ### compound texts -/

theorem mem_escapeSep {sep u : UInt16} {s : QString} : (u ∈ s → u ∈ escapeSep sep s) ∧ (u ∈ escapeSep sep s → u ∈ s ∨ u = 92) := by
  induction s with
  | nil => simp [escapeSep_nil]
  | cons x s ih =>
    rw [escapeSep_cons]
    simp only [List.mem_cons, List.mem_append]
    by_cases hx : x = sep
    · subst hx
      simp only [if_true, List.mem_cons, List.not_mem_nil, or_false]
      constructor
      · rintro (h | h)
        · left; right; exact h
        · right; exact ih.1 h
      · rintro ((h | h) | h)
        · right; exact h
        · left; left; exact h
        · rcases ih.2 h with h | h
          · left; right; exact h
          · right; exact h
    · simp only [if_neg hx, List.mem_cons, List.not_mem_nil, or_false]
      constructor
      · rintro (h | h)
        · left; exact h
        · right; exact ih.1 h
      · rintro (h | h)
        · left; left; exact h
        · rcases ih.2 h with h | h
          · left; right; exact h
          · right; exact h

theorem mem_join_of {sep : QString} {vs : List QString} {v : QString} {u : UInt16} (hv : v ∈ vs) (hu : u ∈ v) : u ∈ join sep vs := by
  induction vs with
  | nil => cases hv
  | cons w vs ih =>
    cases vs with
    | nil =>
      rw [List.mem_singleton] at hv; subst hv; exact hu
    | cons x vs =>
      rw [join_cons_cons]
      rcases List.mem_cons.1 hv with rfl | hv
      · simp [hu]
      · exact List.mem_append_right _ (ih hv)

theorem plain_joinEscaped {sep : UInt16} (hs : 32 ≤ sep.toNat ∧ sep.toNat ≤ 126) (cs : List QString) :
    PlainAscii (joinEscaped sep cs) ↔ ∀ s ∈ cs, PlainAscii s := by
  unfold joinEscaped
  constructor
  · intro h s hsm u hu
    exact h u (mem_join_of (List.mem_map_of_mem hsm) (mem_escapeSep.1 hu))
  · intro h u hu
    rcases mem_join hu with hu | ⟨w, hw, hu⟩
    · rw [List.mem_singleton] at hu; subst hu; exact hs
    · obtain ⟨s, hsm, rfl⟩ := List.mem_map.1 hw
      rcases mem_escapeSep.2 hu with hu | rfl
      · exact h s hsm u hu
      · decide

theorem joinEscaped_eq_nil {sep : UInt16} {cs : List QString} (h : joinEscaped sep cs = []) : cs = [] ∨ cs = [[]] := by
  cases cs with
  | nil => exact .inl rfl
  | cons a cs =>
    cases cs with
    | nil =>
      have : escapeSep sep a = [] := by simpa [joinEscaped, join] using h
      rw [escapeSep_eq_nil] at this
      exact .inr (by rw [this])
    | cons b cs => rw [joinEscaped_cons_cons] at h; simp at h

theorem Joined.coded {E : Codecs} {v : Version} {sep : UInt16} {cs : List QString} (hs : sep = qc! ';' ∨ sep = qc! ',') (h : Joined E v sep cs) :
    CodedText E v (joinEscaped sep cs) := by
  have hp : 32 ≤ sep.toNat ∧ sep.toNat ≤ 126 := by rcases hs with rfl | rfl <;> decide
  have ht := h
  unfold Joined at ht
  unfold CodedText
  have e : (v = .v2_1 ∧ ¬ PlainAscii (joinEscaped sep cs)) ↔ (v = .v2_1 ∧ ∃ s ∈ cs, ¬ PlainAscii s) := by
    rw [plain_joinEscaped hp]; simp
  by_cases hc : v = .v2_1 ∧ ∃ s ∈ cs, ¬ PlainAscii s
  · rw [if_pos hc] at ht; rw [if_pos (e.2 hc)]; exact ht
  · rw [if_neg hc] at ht; rw [if_neg (fun h => hc (e.1 h))]
    exact joinEscaped_safe sep (by rcases hs with rfl | rfl <;> decide) (by rcases hs with rfl | rfl <;> decide) (by omega) cs ht

theorem split_merged {sep : UInt16} {cs : List QString} (hs : sep = qc! ';' ∨ sep = qc! ',') (hne : cs ≠ []) : splitString sep (joinEscaped sep cs) = merged sep cs :=
  C02_split_join_exact sep (by rcases hs with rfl | rfl <;> decide) cs hne

theorem merged_ne {sep : UInt16} {cs : List QString} (h : cs ≠ []) : merged sep cs ≠ [] := by
  induction cs with
  | nil => exact absurd rfl h
  | cons a t ih =>
    cases t with
    | nil => simp [merged]
    | cons b t =>
      rw [merged]
      split
      · split
        · rename_i e; exact absurd e (ih (by simp))
        · simp
      · simp

theorem some_getD {l : List QString} (k : Nat) {d : QString} (h : d = []) : (if l.length > k then l.getD k [] else d) = l.getD k [] := by
  split
  · rfl
  · rename_i hk
    rw [h, List.getD_eq_getElem?_getD, List.getElem?_eq_none (by omega)]; rfl

/-! ### single parameters -/

theorem pair_single {K k w : QString} (hK : keyLit K = true) (hk : lowerName K = k) (h : ParamOK k w) : PairOK (K, w) ∧ segRead (K, w) = [(k, w)] := by
  have hr : segRead (K, w) = [(k, w)] := by
    unfold segRead
    simp only
    rw [if_neg h.neV, if_neg h.quoteV, splitOn_of_not_mem _ _ h.sepV.2.2.1, hk]
    rfl
  refine ⟨pairOK_lit hK h.latinV h.sepV.2.2.2 (.inr ⟨h.sepV.1, h.sepV.2.1, ?_⟩) ?_, hr⟩
  · rw [splitOn_of_not_mem _ _ h.sepV.2.2.1]
    intro p hp
    rw [List.mem_singleton] at hp; subst hp; exact h.quoteV
  · rw [hr]
    intro r hr'
    rw [List.mem_singleton] at hr'; subst hr'
    simp only [keyLit, Bool.and_eq_true, decide_eq_true_eq] at hK
    rw [← hk]; exact hK.2

instance (k v : QString) : Decidable (ParamOK k v) :=
  decidable_of_iff ((∀ u ∈ k, u.toNat < 256) ∧ (∀ u ∈ v, u.toNat < 256) ∧ (∀ u ∈ k, ¬ (65 ≤ u.toNat ∧ u.toNat ≤ 90)) ∧
    (qc! ';' ∉ k ∧ qc! ':' ∉ k ∧ qc! '=' ∉ k ∧ (10 : UInt16) ∉ k) ∧ v ≠ [] ∧ (qc! ';' ∉ v ∧ qc! ':' ∉ v ∧ qc! ',' ∉ v ∧ (10 : UInt16) ∉ v) ∧
    v.head? ≠ some (qc! '"')) ⟨fun ⟨a, b, c, d, e, f, g⟩ => ⟨a, b, c, d, e, f, g⟩, fun ⟨a, b, c, d, e, f, g⟩ => ⟨a, b, c, d, e, f, g⟩⟩

theorem coding_values (v : Version) (s k : QString) (hk : k ≠ q! "charset" ∧ k ≠ q! "encoding") : valuesOf (readPairs (coding v s)) k = [] := by
  unfold coding
  split
  · have : readPairs [(q! "charset", q! "UTF-8"), (q! "encoding", q! "QUOTED-PRINTABLE")] =
        [(q! "charset", q! "UTF-8"), (q! "encoding", q! "QUOTED-PRINTABLE")] := by decide +kernel
    rw [this]
    apply valuesOf_none
    intro p hp
    simp only [List.mem_cons, List.not_mem_nil, or_false] at hp
    rcases hp with rfl | rfl
    · exact hk.1.symm
    · exact hk.2.symm
  · rfl

/-! ### the fields -/

variable {E : ToolEnv} {v : Version} {c : Contact}

/-- the state after reading the lines of a written contact -/
def back (E : ToolEnv) (v : Version) (ids : IdKind → Nat → QString) (c : Contact) (s : RState) : RState :=
  (seen (contactLines E v false c)).foldl (readLine E ids) s

/-- every line of the section is left out or read back -/
def Fine (E : ToolEnv) (sec : List VCardLine) : Prop := ∀ l ∈ sec, LineFine E.toCodecs l

theorem fine_one {l : VCardLine} (h : LineFine E.toCodecs l) : Fine E [l] := fun x hx => by rw [List.mem_singleton] at hx; subst hx; exact h
theorem fine_nil : Fine E [] := fun x hx => by cases hx
theorem fine_ite {P : Prop} [Decidable P] {a b : List VCardLine} (ha : P → Fine E a) (hb : ¬ P → Fine E b) : Fine E (if P then a else b) := by
  split
  · rename_i h; exact ha h
  · rename_i h; exact hb h
theorem fine_map {α : Type} {f : α → VCardLine} {m : List α} (h : ∀ x ∈ m, LineFine E.toCodecs (f x)) : Fine E (m.map f) := fun l hl => by
  obtain ⟨x, hx, rfl⟩ := List.mem_map.1 hl; exact h x hx

/-- the lines of section `i`, all of one name -/
theorem sec_lines (hR : Carriable E v c) (i : Nat) {T : List Tag} (n : QString) (hi : secTags[i]? = some T)
    (hd : (secTags.eraseIdx i).all (fun ts => ts.all fun t => decide (t ∉ T)) = true) (hn : Named ((contactSections E v false c).getD i []) n) :
    (seen (contactLines E v false c)).filter (fun r => tagOf r ∈ T) = ((contactSections E v false c).getD i []).filterMap readBack :=
  seen_section (secOK hR) n hi hd hn

section
variable (hR : Carriable E v c) (ids : IdKind → Nat → QString) (s : RState)
include hR

theorem back_uid : (back E v ids c s).c.uid = c.uid := by
  rw [back, comp_uid, sec_lines hR 31 (q! "UID") rfl (by decide) (named_uid c)]
  show ((uidLines c).filterMap readBack).foldl _ _ = _
  unfold uidLines
  rw [textLine_eq, text_field (by decide) _ _ _ (.inr hR.uid.2)]

theorem fine_uid : Fine E (uidLines c) := fine_one (by rw [textLine_eq]; exact fine_text _ (nameGood_lit (by decide)) hR.uid.1 (by simp))

theorem back_formattedName (h0 : s.c.formattedName = []) : (back E v ids c s).c.formattedName = c.formattedName := by
  rw [back, comp_formattedName, sec_lines hR 12 (q! "FN") rfl (by decide) (named_fn v c)]
  show ((fnLines v c).filterMap readBack).foldl _ _ = _
  unfold fnLines
  rw [encoded_eq, text_field (by decide) _ _ _ (.inl h0)]

theorem fine_fn : Fine E (fnLines v c) := fine_one (by rw [encoded_eq]; exact fine_coded0 _ (nameGood_lit (by decide)) hR.formattedName)

theorem back_note (h0 : s.c.note = []) : (back E v ids c s).c.note = c.note := by
  rw [back, comp_note, sec_lines hR 20 (q! "NOTE") rfl (by decide) (named_note v c)]
  show ((noteLines v c).filterMap readBack).foldl _ _ = _
  unfold noteLines
  rw [encoded_eq, text_field (by decide) _ _ _ (.inl h0)]

theorem fine_note : Fine E (noteLines v c) := fine_one (by rw [encoded_eq]; exact fine_coded0 _ (nameGood_lit (by decide)) hR.note)

theorem back_mailer (h0 : s.c.mailer = []) : (back E v ids c s).c.mailer = if v = .v4_0 then [] else c.mailer := by
  rw [back, comp_mailer, sec_lines hR 16 (q! "MAILER") rfl (by decide) (named_mailer v c)]
  show ((mailerLines v c).filterMap readBack).foldl _ _ = _
  unfold mailerLines
  split
  · exact h0
  · rw [encoded_eq, text_field (by decide) _ _ _ (.inl h0)]

theorem fine_mailer : Fine E (mailerLines v c) := fine_ite (fun _ => fine_nil) fun h =>
  fine_one (by rw [encoded_eq]; exact fine_coded0 _ (nameGood_lit (by decide)) (hR.mailer h))

theorem back_name (h0 : s.c.name = []) : (back E v ids c s).c.name = if v = .v4_0 then [] else c.name := by
  rw [back, comp_name, sec_lines hR 18 (q! "NAME") rfl (by decide) (named_name v c)]
  show ((nameLines v c).filterMap readBack).foldl _ _ = _
  unfold nameLines
  split
  · exact h0
  · rw [encoded_eq, text_field (by decide) _ _ _ (.inl h0)]

theorem fine_name : Fine E (nameLines v c) := fine_ite (fun _ => fine_nil) fun h =>
  fine_one (by rw [encoded_eq]; exact fine_coded0 _ (nameGood_lit (by decide)) (hR.name h))

theorem back_productId (h0 : s.c.productId = []) : (back E v ids c s).c.productId = if v = .v2_1 then [] else c.productId := by
  rw [back, comp_productId, sec_lines hR 23 (q! "PRODID") rfl (by decide) (named_prodid v c)]
  show ((prodidLines v c).filterMap readBack).foldl _ _ = _
  unfold prodidLines
  by_cases e : v = .v2_1
  · rw [if_neg (by simp [e]), if_pos e]; exact h0
  · rw [if_pos e, if_neg e, textLine_eq, text_field (by decide) _ _ _ (.inl h0)]

theorem fine_prodid : Fine E (prodidLines v c) := fine_ite (fun h =>
  fine_one (by rw [textLine_eq]; exact fine_text _ (nameGood_lit (by decide)) (hR.productId h) (by simp))) fun _ => fine_nil

theorem back_kind (h0 : s.c.kind = []) : (back E v ids c s).c.kind = if v = .v4_0 then c.kind else [] := by
  rw [back, comp_kind, sec_lines hR 34 (q! "KIND") rfl (by decide) (named_kind v c)]
  show ((kindLines v c).filterMap readBack).foldl _ _ = _
  unfold kindLines
  by_cases e : v = .v4_0
  · rw [if_pos e]
    by_cases hk : c.kind = []
    · rw [if_neg (by simp [hk]), hk]; exact h0
    · rw [if_pos (by simp [e, hk]), textLine_eq, text_field (by decide) _ _ _ (.inl h0)]
  · rw [if_neg (by simp [e]), if_neg e]; exact h0

theorem fine_kind : Fine E (kindLines v c) := fine_ite (fun h =>
  fine_one (by rw [textLine_eq]; exact fine_text _ (nameGood_lit (by decide)) (hR.kind (by simp at h; exact h.1)) (by simp))) fun _ => fine_nil

theorem back_secrecy (h0 : s.c.secrecy = .invalid) : (back E v ids c s).c.secrecy = if v = .v3_0 then c.secrecy else .invalid := by
  rw [back, comp_secrecy, sec_lines hR 8 (q! "CLASS") rfl (by decide) (named_class v c)]
  show ((classLines v c).filterMap readBack).foldl _ _ = _
  unfold classLines
  split
  · rw [h0]
    cases c.secrecy <;> decide +kernel
  · exact h0

theorem fine_class : Fine E (classLines v c) := by
  have h : ∀ t, LineFine E.toCodecs (createSecrecy t) := by
    intro t
    cases t with
    | invalid => exact .invalid _ rfl rfl
    | pub => exact fine_text _ (nameGood_lit (by decide)) (asciiSafe_safe (by decide)) (h := []) (by simp)
    | priv => exact fine_text _ (nameGood_lit (by decide)) (asciiSafe_safe (by decide)) (h := []) (by simp)
    | confidential => exact fine_text _ (nameGood_lit (by decide)) (asciiSafe_safe (by decide)) (h := []) (by simp)
  exact fine_ite (fun _ => fine_one (h _)) fun _ => fine_nil

/-! names -/

/-- the N line -/
theorem nLines_eq : nLines v c = [mkLine (q! "N") (.str (joinEscaped (qc! ';') c.nameParts))
    (coding v (joinEscaped (qc! ';') c.nameParts) ++ if v = .v4_0 ∧ c.sortString ≠ [] then [(q! "SORT-AS", c.sortString)] else [])] := by
  unfold nLines Contact.nameParts
  simp only
  rw [encoded_eq]
  by_cases h : v = .v4_0 ∧ c.sortString ≠ []
  · rw [if_pos (by simp [h.1, h.2]), if_pos h, mkLine_add]
  · rw [if_neg (by simpa using h), if_neg h, List.append_nil]

theorem n_pairs : ∀ p ∈ (if v = .v4_0 ∧ c.sortString ≠ [] then [(q! "SORT-AS", c.sortString)] else []), PairOK p := by
  split
  · rename_i h
    intro p hp
    rw [List.mem_singleton] at hp; subst hp
    exact (pair_single (by decide) (by decide) (hR.sortAs h.1 h.2)).1
  · simp

theorem fine_n : Fine E (nLines v c) := by
  rw [nLines_eq hR]
  exact fine_one (fine_coded _ (nameGood_lit (by decide)) (hR.nameParts.coded (.inl rfl)) (n_pairs hR))

theorem parts_ne : joinEscaped (qc! ';') c.nameParts ≠ [] := by
  intro h
  rcases joinEscaped_eq_nil h with h | h <;> simp [Contact.nameParts] at h

theorem back_names (h0 : namesOf s.c = ([], [], [], [], [])) : namesOf (back E v ids c s).c = namesOf c.merged := by
  rw [back, comp_names, sec_lines hR 17 (q! "N") rfl (by decide) (named_n v c)]
  show ((nLines v c).filterMap readBack).foldl _ _ = _
  rw [nLines_eq hR, fold_one (by decide), if_neg (parts_ne hR)]
  unfold nameAfter
  have : splitString (qc! ';') (rdLine (q! "N") (.str (joinEscaped (qc! ';') c.nameParts))
      (coding v (joinEscaped (qc! ';') c.nameParts) ++ if v = .v4_0 ∧ c.sortString ≠ [] then [(q! "SORT-AS", c.sortString)] else [])).value.toString = merged (qc! ';') c.nameParts :=
    split_merged (.inl rfl) (by simp [Contact.nameParts])
  simp only [this, h0, some_getD]
  rfl

/-- ORG lines carry no sort string -/
theorem org_no_sort : ∀ l ∈ (orgLines v c).filterMap readBack, l.parameter (q! "sort-as") = [] := by
  intro l hl
  obtain ⟨l0, hl0, hr⟩ := List.mem_filterMap.1 hl
  obtain ⟨o, ho, rfl⟩ := List.mem_map.1 hl0
  obtain ⟨ht, hs, hc, hp⟩ := hR.organizations o ho
  unfold orgLine at hr
  simp only at hr
  generalize (if c.department.isEmpty then [o.text] else [o.text, c.department]) = ps at hr
  rw [encoded_eq, mkLine_addAll, readBack_text (by decide)] at hr
  by_cases he : joinEscaped (qc! ';') ps = []
  · rw [if_pos he] at hr; cases hr
  · rw [if_neg he] at hr
    cases hr
    rw [rd_parameter]
    have : valuesOf (readPairs (coding v (joinEscaped (qc! ';') ps) ++ joinedParams o.params)) (q! "sort-as") = [] := by
      rw [read_left _ _ ?_ (q! "sort-as") ?_]
      · exact coding_values _ _ _ (by decide)
      · intro p hp' q hq e
        obtain ⟨r, hr, rfl⟩ := List.mem_map.1 hq
        have h2 := ht.params.coding r hr
        unfold coding at hp'
        split at hp'
        · simp only [List.mem_cons, List.not_mem_nil, or_false] at hp'
          rcases hp' with rfl | rfl
          · exact h2.2 e.symm
          · exact h2.1 e.symm
        · cases hp'
      · intro p hp' r hr e
        obtain ⟨q, hq, rfl⟩ := List.mem_map.1 hp'
        have h2 := (joined_ok (ht.params.values q hq).1 (ht.params.coding q hq) (ht.params.writable q hq)).2
        rw [h2] at hr
        obtain ⟨w, _, rfl⟩ := List.mem_map.1 hr
        exact hs q hq e
    rw [this]; rfl

theorem back_sortString (h0 : s.c.sortString = []) : (back E v ids c s).c.sortString = if v = .v2_1 then [] else c.sortString := by
  have hN := sec_lines hR 17 (q! "N") rfl (by decide) (named_n v c)
  have hO := sec_lines hR 21 (q! "ORG") rfl (by decide) (named_org v c)
  have hS := sec_lines hR 26 (q! "SORT-STRING") rfl (by decide) (named_sort v c)
  change _ = (nLines v c).filterMap readBack at hN
  change _ = (orgLines v c).filterMap readBack at hO
  change _ = (sortLines v c).filterMap readBack at hS
  have hNs : ∀ l ∈ (nLines v c).filterMap readBack, l.parameter (q! "sort-as") = if v = .v4_0 then c.sortString else [] := by
    intro l hl
    rw [nLines_eq hR, List.filterMap_cons, readBack_text (by decide), if_neg (parts_ne hR)] at hl
    simp only [List.filterMap_nil, List.mem_singleton] at hl
    subst hl
    rw [rd_parameter]
    by_cases hv : v = .v4_0
    · have e : coding v (joinEscaped (qc! ';') c.nameParts) = [] := by unfold coding; simp [hv]
      rw [e, if_pos hv, List.nil_append]
      by_cases hs : c.sortString = []
      · rw [if_neg (by simp [hs]), hs]; rfl
      · rw [if_pos ⟨hv, hs⟩, readPairs_one, (pair_single (by decide) (by decide) (hR.sortAs hv hs)).2]; rfl
    · rw [if_neg (by simp [hv]), if_neg hv, List.append_nil, coding_values _ _ _ (by decide)]; rfl
  rw [back, comp_sortString]
  by_cases hv : v = .v4_0
  · rw [fold_filter_noop _ _ _ (fun l => decide (tagOf l ∈ [Tag.n]))]
    · have : (fun l => decide (tagOf l ∈ [Tag.n, Tag.org, Tag.sortString]) && decide (tagOf l ∈ [Tag.n])) = fun l => decide (tagOf l ∈ [Tag.n]) := by
        funext l; cases tagOf l <;> rfl
      rw [this, hN]
      rw [if_neg (by simp [hv])]
      have hl : (nLines v c).filterMap readBack = [rdLine (q! "N") (.str (joinEscaped (qc! ';') c.nameParts)) (coding v (joinEscaped (qc! ';') c.nameParts) ++
          if v = .v4_0 ∧ c.sortString ≠ [] then [(q! "SORT-AS", c.sortString)] else [])] := by
        rw [nLines_eq hR, List.filterMap_cons, readBack_text (by decide), if_neg (parts_ne hR)]; rfl
      have := hNs _ (by rw [hl]; exact List.mem_singleton.2 rfl)
      rw [hl, List.foldl_cons, List.foldl_nil]
      unfold sortAfter
      rw [if_neg, this, if_pos hv]
      · split
        · rename_i e; rw [h0]; simpa using e.symm
        · rfl
      · show nameTag (q! "N") ≠ _
        decide +kernel
    · intro a l hl hp hq
      have hq' : tagOf l ∉ [Tag.n] := by simpa using hq
      have hp' : tagOf l ∈ [Tag.n, Tag.org, Tag.sortString] := by simpa using hp
      rcases List.mem_cons.1 hp' with h | h
      · exact absurd (by rw [h]; simp) hq'
      · rcases List.mem_cons.1 h with h | h
        · have hm : l ∈ (seen (contactLines E v false c)).filter (fun r => tagOf r ∈ [Tag.org]) := List.mem_filter.2 ⟨hl, by simp [h]⟩
          rw [hO] at hm
          unfold sortAfter
          rw [if_neg (by rw [h]; decide), org_no_sort hR l hm]; rfl
        · have hm : l ∈ (seen (contactLines E v false c)).filter (fun r => tagOf r ∈ [Tag.sortString]) := List.mem_filter.2 ⟨hl, by simpa using h⟩
          rw [hS] at hm
          unfold sortLines at hm
          rw [if_neg (by simp [hv])] at hm
          cases hm
  · rw [fold_filter_noop _ _ _ (fun l => decide (tagOf l ∈ [Tag.sortString]))]
    · have : (fun l => decide (tagOf l ∈ [Tag.n, Tag.org, Tag.sortString]) && decide (tagOf l ∈ [Tag.sortString])) = fun l => decide (tagOf l ∈ [Tag.sortString]) := by
        funext l; cases tagOf l <;> rfl
      rw [this, hS]
      unfold sortLines
      by_cases h3 : v = .v3_0
      · rw [if_pos h3, if_neg (by simp [h3]), textLine_eq, fold_one (by decide)]
        split
        · rename_i e; rw [h0, e]
        · unfold sortAfter
          rw [if_pos]; · rfl
          show nameTag (q! "SORT-STRING") = _
          decide +kernel
      · have : v = .v2_1 := by cases v <;> simp_all
        rw [if_neg h3, if_pos this]; exact h0
    · intro a l hl hp hq
      have hq' : tagOf l ∉ [Tag.sortString] := by simpa using hq
      have hp' : tagOf l ∈ [Tag.n, Tag.org, Tag.sortString] := by simpa using hp
      rcases List.mem_cons.1 hp' with h | h
      · have hm : l ∈ (seen (contactLines E v false c)).filter (fun r => tagOf r ∈ [Tag.n]) := List.mem_filter.2 ⟨hl, by simp [h]⟩
        rw [hN] at hm
        unfold sortAfter
        rw [if_neg (by rw [h]; decide), hNs l hm, if_neg hv]; rfl
      · rcases List.mem_cons.1 h with h | h
        · have hm : l ∈ (seen (contactLines E v false c)).filter (fun r => tagOf r ∈ [Tag.org]) := List.mem_filter.2 ⟨hl, by simp [h]⟩
          rw [hO] at hm
          unfold sortAfter
          rw [if_neg (by rw [h]; decide), org_no_sort hR l hm]; rfl
        · exact absurd h hq'

theorem fine_sort : Fine E (sortLines v c) := fine_ite (fun h =>
  fine_one (by rw [textLine_eq]; exact fine_text _ (nameGood_lit (by decide)) (hR.sortString h) (by simp))) fun _ => fine_nil

end

end KC
