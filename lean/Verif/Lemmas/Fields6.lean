import Verif.Lemmas.Fields5
/- Helper lemmas: the fields of a contact after writing and reading, part 6: calendar addresses, field groups, custom fields. -/
namespace KC
open Spec

variable {E : ToolEnv} {v : Version} {c : Contact}

/-! ### the same field groups -/

theorem Regrouped.refl (g : List FieldGroup) : Regrouped g g := fun _ => rfl
theorem Regrouped.symm {g h : List FieldGroup} (e : Regrouped g h) : Regrouped h g := fun n => (e n).symm
theorem Regrouped.trans {g h k : List FieldGroup} (e : Regrouped g h) (f : Regrouped h k) : Regrouped g k := fun n => (e n).trans (f n)
theorem Regrouped.mem_iff {g h : List FieldGroup} (e : Regrouped g h) {x : FieldGroup} : x ∈ g ↔ x ∈ h := by
  have : x ∈ g.filter (·.fieldGroupName = x.fieldGroupName) ↔ x ∈ h.filter (·.fieldGroupName = x.fieldGroupName) := by rw [e]
  simpa using this
theorem Regrouped.perm {g h : List FieldGroup} (e : Regrouped g h) : g.Perm h := by
  apply List.perm_iff_count.2
  intro x
  have : ∀ l : List FieldGroup, l.count x = (l.filter (·.fieldGroupName = x.fieldGroupName)).count x := fun l => (List.count_filter (by simp)).symm
  rw [this g, this h, e]

theorem FieldGroup.notAfter_refl (a : FieldGroup) : a.notAfter a := by
  unfold FieldGroup.notAfter; rw [if_pos rfl]; exact qlt_irrefl _

theorem FieldGroup.notAfter_antisymm {a b : FieldGroup} (h1 : a.notAfter b) (h2 : b.notAfter a) : a.fieldGroupName = b.fieldGroupName := by
  unfold FieldGroup.notAfter at h1 h2
  by_cases h : a.field = b.field
  · rw [if_pos h] at h1; rw [if_pos h.symm] at h2
    by_contra hne
    have := qlt_total h2 hne
    rw [h1] at this; cases this
  · rw [if_neg h] at h1; rw [if_neg (Ne.symm h)] at h2
    have := qlt_asymm h1
    rw [h2] at this; cases this

theorem qlt_neg_trans {a b c : QString} (h1 : qlt b a = false) (h2 : qlt c b = false) : qlt c a = false := by
  by_cases e : a = b
  · subst e; exact h2
  by_cases e2 : b = c
  · subst e2; exact h1
  · exact qlt_asymm (qlt_trans (qlt_total h1 (Ne.symm e)) (qlt_total h2 (Ne.symm e2)))

theorem FieldGroup.notAfter_trans {a b c : FieldGroup} (h1 : a.notAfter b) (h2 : b.notAfter c) : a.notAfter c := by
  unfold FieldGroup.notAfter at *
  by_cases e1 : a.field = b.field
  · rw [if_pos e1] at h1
    by_cases e2 : b.field = c.field
    · rw [if_pos e2] at h2; rw [if_pos (e1.trans e2)]; exact qlt_neg_trans h1 h2
    · rw [if_neg e2] at h2; rw [if_neg (by rw [e1]; exact e2), e1]; exact h2
  · rw [if_neg e1] at h1
    by_cases e2 : b.field = c.field
    · rw [if_neg (by rw [← e2]; exact e1), ← e2]; exact h1
    · rw [if_neg e2] at h2
      have h3 := qlt_trans h1 h2
      rw [if_neg (by intro e; rw [e, qlt_irrefl] at h3; cases h3)]; exact h3

theorem FieldGroup.notAfter_total (a b : FieldGroup) : a.notAfter b ∨ b.notAfter a := by
  unfold FieldGroup.notAfter
  by_cases e : a.field = b.field
  · rw [if_pos e, if_pos e.symm]
    cases h : qlt b.fieldGroupName a.fieldGroupName
    · exact .inl rfl
    · exact .inr (qlt_asymm h)
  · rw [if_neg e, if_neg (Ne.symm e)]
    cases h : qlt a.field b.field
    · exact .inr (qlt_total h e)
    · exact .inl rfl

theorem byField_sorted (g : List FieldGroup) : (byField g).Pairwise FieldGroup.notAfter := by
  haveI : Std.Total FieldGroup.notAfter := ⟨FieldGroup.notAfter_total⟩
  haveI : IsTrans FieldGroup FieldGroup.notAfter := ⟨fun _ _ _ => FieldGroup.notAfter_trans⟩
  exact List.pairwise_insertionSort FieldGroup.notAfter g

theorem regrouped_byField (g : List FieldGroup) : Regrouped (byField g) g := by
  have ins : ∀ (x : FieldGroup) (l : List FieldGroup), Regrouped (l.orderedInsert FieldGroup.notAfter x) (x :: l) := by
    intro x l n
    induction l with
    | nil => rfl
    | cons y l ih =>
      rw [List.orderedInsert_cons]
      split
      · rfl
      · rename_i h
        have hne : ¬ (x.fieldGroupName = n ∧ y.fieldGroupName = n) := by
          rintro ⟨h1, h2⟩
          apply h
          have e : x.fieldGroupName = y.fieldGroupName := h1.trans h2.symm
          unfold FieldGroup.notAfter FieldGroup.field
          rw [e, if_pos rfl]; exact qlt_irrefl _
        rw [List.filter_cons, ih, List.filter_cons, List.filter_cons, List.filter_cons]
        by_cases h1 : x.fieldGroupName = n <;> by_cases h2 : y.fieldGroupName = n <;> simp [h1, h2]
        exact absurd ⟨h1, h2⟩ hne
  induction g with
  | nil => intro n; rfl
  | cons x g ih =>
    refine (ins x (byField g)).trans fun n => ?_
    rw [List.filter_cons, List.filter_cons, ih n]

/-- field groups in order are determined by what they are under each name -/
theorem regrouped_sorted {g h : List FieldGroup} (e : Regrouped g h) (hg : g.Pairwise FieldGroup.notAfter) (hh : h.Pairwise FieldGroup.notAfter) : g = h := by
  induction g generalizing h with
  | nil =>
    cases h with
    | nil => rfl
    | cons y h => have := e.mem_iff.2 (List.mem_cons_self (a := y) (l := h)); cases this
  | cons x g ih =>
    cases h with
    | nil => have := e.mem_iff.1 (List.mem_cons_self (a := x) (l := g)); cases this
    | cons y h =>
      have hxy : x.fieldGroupName = y.fieldGroupName := by
        have h1 : x.notAfter y := by
          rcases List.mem_cons.1 (e.mem_iff.2 (List.mem_cons_self (a := y) (l := h))) with k | k
          · rw [k]; exact FieldGroup.notAfter_refl _
          · exact (List.pairwise_cons.1 hg).1 y k
        have h2 : y.notAfter x := by
          rcases List.mem_cons.1 (e.mem_iff.1 (List.mem_cons_self (a := x) (l := g))) with k | k
          · rw [k]; exact FieldGroup.notAfter_refl _
          · exact (List.pairwise_cons.1 hh).1 x k
        exact FieldGroup.notAfter_antisymm h1 h2
      have hx : x = y := by
        have := e x.fieldGroupName
        rw [List.filter_cons, List.filter_cons, if_pos (by simp), if_pos (by simp [hxy])] at this
        exact (List.cons.inj this).1
      subst hx
      rw [ih (h := h) _ (List.pairwise_cons.1 hg).2 (List.pairwise_cons.1 hh).2]
      intro n
      have := e n
      rw [List.filter_cons, List.filter_cons] at this
      split at this
      · exact (List.cons.inj this).2
      · exact this

theorem byField_eq {g h : List FieldGroup} (e : Regrouped g h) : byField g = byField h :=
  regrouped_sorted ((regrouped_byField g).trans (e.trans (regrouped_byField h).symm)) (byField_sorted g) (byField_sorted h)

theorem byField_byField (g : List FieldGroup) : byField (byField g) = byField g := byField_eq (regrouped_byField g)

/-- the order of the lines of a card when they are written -/
theorem written_sorted (L : List VCardLine) : ((writeOrder (cardAfter L)).flatMap (cardAfter L).lines).Pairwise
    fun a b => a.identifier = q! "VERSION" ∨ qlt b.identifier a.identifier = false := by
  have hasc : (cardAfter L).identifiers.Pairwise fun a b => qlt a b = true := SMap.sorted_iff_keys.1 (cardAfter_sorted L)
  have hw : (writeOrder (cardAfter L)).Pairwise fun a b => a = q! "VERSION" ∨ qlt a b = true := by
    unfold writeOrder
    simp only
    split
    · exact List.pairwise_cons.2 ⟨fun _ _ => .inl rfl, (hasc.sublist List.erase_sublist).imp .inr⟩
    · exact hasc.imp .inr
  rw [List.pairwise_flatMap]
  refine ⟨fun n _ => List.pairwise_of_forall_mem_list fun a ha b hb => .inr ?_, hw.imp fun {n m} h a ha b hb => ?_⟩
  · rw [lines_id L n a ha, lines_id L n b hb]; exact qlt_irrefl _
  · rw [lines_id L n a ha, lines_id L m b hb]
    exact h.imp_right qlt_asymm

/-- the order of the lines of a card when they are read -/
theorem reading_sorted {R : VCardLine → VCardLine → Prop} (M : List VCardLine) (hM : M.Pairwise fun a b => a.identifier = b.identifier → R a b)
    (hlt : ∀ a ∈ M, ∀ b ∈ M, qlt a.identifier b.identifier = true → R a b) : (readingOrder (cardAfter M)).Pairwise R := by
  unfold readingOrder
  have hasc : (cardAfter M).identifiers.Pairwise fun a b => qlt a b = true := SMap.sorted_iff_keys.1 (cardAfter_sorted M)
  rw [List.pairwise_flatMap]
  constructor
  · intro n _
    rw [C13_lines]
    refine (hM.filter _).imp_of_mem fun {a b} ha hb h => h ?_
    rw [of_decide_eq_true (List.mem_filter.1 ha).2, of_decide_eq_true (List.mem_filter.1 hb).2]
  · refine hasc.imp fun {n m} h a ha b hb => hlt a ?_ b ?_ ?_
    · rw [C13_lines] at ha; exact (List.mem_filter.1 ha).1
    · rw [C13_lines] at hb; exact (List.mem_filter.1 hb).1
    · rw [lines_id M n a ha, lines_id M m b hb]; exact h

/-- the lines of one name in a section of several names -/
theorem sec_named (hR : Carriable E v c) (i : Nat) {T : List Tag} (n : QString) (ns : List QString) (hi : secTags[i]? = some T)
    (hd : (secTags.eraseIdx i).all (fun ts => ts.all fun t => decide (t ∉ T)) = true)
    (hn : ∀ l ∈ (contactSections E v false c).getD i [], l.identifier ∈ ns) (hlit : ∀ m ∈ ns, nameLit m = true) (hmem : n ∈ ns) :
    ((seen (contactLines E v false c)).filter (fun r => tagOf r ∈ T)).filter (fun r => r.identifier = n) =
      (((contactSections E v false c).getD i []).filterMap readBack).filter (fun r => r.identifier = n) := by
  have hrd : ∀ l ∈ (contactSections E v false c).flatten, ∀ r, readBack l = some r → tagOf r ∈ T → l.identifier ∈ ns ∧ r.identifier = l.identifier := by
    intro l hl r hr ht
    rw [tagOf_readBack hr] at ht
    have h1 := hn l (mem_section (secOK hR) hi hd hl ht)
    refine ⟨h1, ?_⟩
    unfold readBack at hr
    split at hr
    · cases hr
    · cases hr
      show (nameRead l.identifier).2 = _
      rw [nameRead_lit (hlit _ h1)]
  rw [List.filter_filter]
  have h1 := seen_filter (contactSections E v false c).flatten (fun r => decide (r.identifier = n) && decide (tagOf r ∈ T)) n n (by
    intro l hl r hr hp
    simp only [Bool.and_eq_true, decide_eq_true_eq] at hp
    obtain ⟨h1, h2⟩ := hrd l hl r hr hp.2
    exact ⟨h2.symm.trans hp.1, hp.1⟩)
  have h2 := filter_section (secOK hR) T i hi hd
  unfold contactLines
  rw [h1, ← List.filter_filter, filterMap_tags, h2]

/-- a section of several names is read in alphabetical order of the names -/
theorem sec_sorted (hR : Carriable E v c) (i : Nat) {T : List Tag} (ns : List QString) (hi : secTags[i]? = some T)
    (hd : (secTags.eraseIdx i).all (fun ts => ts.all fun t => decide (t ∉ T)) = true) (hns : ns.Pairwise (fun a b => qlt a b = true))
    (hn : ∀ l ∈ (contactSections E v false c).getD i [], l.identifier ∈ ns) (hlit : ∀ m ∈ ns, nameLit m = true) :
    (seen (contactLines E v false c)).filter (fun r => tagOf r ∈ T) =
      ns.flatMap fun n => (((contactSections E v false c).getD i []).filterMap readBack).filter fun r => r.identifier = n := by
  refine (seen_sorted (contactLines E v false c) (fun r => tagOf r ∈ T) ns hns ?_).trans ?_
  · intro l hl r hr ht
    simp only [decide_eq_true_eq] at ht
    rw [tagOf_readBack hr] at ht
    have h1 := hn l (mem_section (secOK hR) hi hd hl ht)
    unfold readBack at hr
    split at hr
    · cases hr
    · cases hr
      show (nameRead l.identifier).2 ∈ _
      rw [nameRead_lit (hlit _ h1)]; exact h1
  · apply List.flatMap_congr
    intro n hm
    exact sec_named hR i n ns hi hd hn hlit hm

/-! ### calendar addresses -/

theorem calendar_ok {u : CalendarUrl} (hv : u.isValid E.toQtEnv = true) (ht : u.type ≤ 3) : calendarName u.type ∈ [q! "CALADRURI", q! "CALURI", q! "FBURL"] ∧ nameLit (calendarName u.type) = true := by
  have h0 : u.type ≠ 0 := by
    intro e; simp [CalendarUrl.isValid, e] at hv
  have : u.type = 1 ∨ u.type = 2 ∨ u.type = 3 := by omega
  rcases this with h | h | h <;> rw [h] <;> decide

section
variable (hR : Carriable E v c) (ids : IdKind → Nat → QString) (s : RState)
include hR

theorem calendarLines_eq (hv : v = .v4_0) : calendarLines E v c = c.calendarUrls.map fun u => paramTextLine (calendarName u.type) { params := u.params, text := E.urlDisplay u.url } := by
  unfold calendarLines
  rw [if_pos hv, List.filter_eq_self.2]
  · rfl
  · intro u hu
    obtain ⟨h1, h2, h3, -⟩ := hR.calendarUrls hv u hu
    have := calendar_ok h2 h3
    rw [h2, Bool.true_and, Bool.not_eq_true', List.isEmpty_eq_false_iff]
    intro e; rw [e] at this; revert this; decide

theorem calendar_text (hv : v = .v4_0) {u : CalendarUrl} (hu : u ∈ c.calendarUrls) : TextOK { params := u.params, text := E.urlDisplay u.url } := by
  obtain ⟨h1, h2, h3, h4, h5, -⟩ := hR.calendarUrls hv u hu
  exact ⟨⟨h4, h5⟩, h1⟩

theorem back_calendarUrls (h0 : s.c.calendarUrls = []) : (back E v ids c s).c.calendarUrls =
    if v = .v4_0 then c.calendarUrls.filter (·.type = 3) ++ c.calendarUrls.filter (·.type = 2) ++ c.calendarUrls.filter (·.type = 1) else [] := by
  rw [back, comp_calendarUrls, sec_sorted hR 35 [q! "CALADRURI", q! "CALURI", q! "FBURL"] rfl (by decide) (by decide) (names_calendar E v c) (by decide), h0]
  show ([q! "CALADRURI", q! "CALURI", q! "FBURL"].flatMap fun n => ((calendarLines E v c).filterMap readBack).filter fun r => r.identifier = n).foldl _ _ = _
  by_cases hv : v = .v4_0
  · rw [if_pos hv]
    have hf : (calendarLines E v c).filterMap readBack = c.calendarUrls.map fun u => ptLine (calendarName u.type) (E.urlDisplay u.url) u.params := by
      rw [calendarLines_eq hR hv]
      exact map_readBack fun u hu => (calendar_text hR hv hu).back (calendar_ok (hR.calendarUrls hv u hu).2.1 (hR.calendarUrls hv u hu).2.2.1).2
    have one : ∀ n, ((calendarLines E v c).filterMap readBack).filter (fun r => r.identifier = n) =
        (c.calendarUrls.filter fun u => calendarName u.type = n).map fun u => ptLine (calendarName u.type) (E.urlDisplay u.url) u.params := by
      intro n
      rw [hf, List.filter_map]; rfl
    simp only [one]
    have e : ([q! "CALADRURI", q! "CALURI", q! "FBURL"].flatMap fun n => (c.calendarUrls.filter fun u => decide (calendarName u.type = n)).map fun u => ptLine (calendarName u.type) (E.urlDisplay u.url) u.params) =
        (c.calendarUrls.filter (·.type = 3) ++ c.calendarUrls.filter (·.type = 2) ++ c.calendarUrls.filter (·.type = 1)).map fun u => ptLine (calendarName u.type) (E.urlDisplay u.url) u.params := by
      have ft : ∀ n t, (∀ u : CalendarUrl, u ∈ c.calendarUrls → (calendarName u.type = n ↔ u.type = t)) →
          (c.calendarUrls.filter fun u => decide (calendarName u.type = n)) = c.calendarUrls.filter (·.type = t) := by
        intro n t h
        apply List.filter_congr
        intro u hu
        simp only [h u hu]
      have ty : ∀ u ∈ c.calendarUrls, u.type = 1 ∨ u.type = 2 ∨ u.type = 3 := by
        intro u hu
        obtain ⟨-, h2, h3, -⟩ := hR.calendarUrls hv u hu
        have h0 : u.type ≠ 0 := by
          intro e; simp [CalendarUrl.isValid, e] at h2
        omega
      rw [List.flatMap_cons, List.flatMap_cons, List.flatMap_cons, List.flatMap_nil, ft _ 3, ft _ 2, ft _ 1]
      · simp
      all_goals
        intro u hu
        rcases ty u hu with h | h | h <;> rw [h] <;> decide
    rw [e]
    refine (fold_append _ _ (fun u => u) _ ?_).trans (List.map_id' _)
    intro a u hu
    have hm : u ∈ c.calendarUrls := by
      simp only [List.mem_append, List.mem_filter] at hu
      rcases hu with (h | h) | h <;> exact h.1
    obtain ⟨h1, h2, h3, h4, h5, h6⟩ := hR.calendarUrls hv u hm
    have ht : calendarType (tagOf (ptLine (calendarName u.type) (E.urlDisplay u.url) u.params)) = u.type := by
      have h0 : u.type ≠ 0 := by
        intro e; simp [CalendarUrl.isValid, e] at h2
      have : u.type = 1 ∨ u.type = 2 ∨ u.type = 3 := by omega
      have key : ∀ t, t = 1 ∨ t = 2 ∨ t = 3 → ∀ x m, calendarType (tagOf (ptLine (calendarName t) x m)) = t := by
        rintro t (rfl | rfl | rfl) x m <;> rfl
      exact key _ this _ _
    have hv' : (ptLine (calendarName u.type) (E.urlDisplay u.url) u.params).value.toString = E.urlDisplay u.url := rfl
    have hp' : (ptLine (calendarName u.type) (E.urlDisplay u.url) u.params).params = u.params := rfl
    simp only [ht, hv', hp', h6]
    rw [if_pos h2]
  · rw [if_neg hv]
    have : calendarLines E v c = [] := by unfold calendarLines; rw [if_neg hv]
    rw [this]; rfl

theorem fine_calendar : Fine E (calendarLines E v c) := by
  by_cases hv : v = .v4_0
  · rw [calendarLines_eq hR hv]
    exact fine_map fun u hu => (calendar_text hR hv hu).fine (calendar_ok (hR.calendarUrls hv u hu).2.1 (hR.calendarUrls hv u hu).2.2.1).2
  · unfold calendarLines; rw [if_neg hv]; exact fine_nil

/-! ### field groups -/

theorem group_line {g : FieldGroup} (hg : g ∈ c.fieldGroups) : readBack ((textLine g.fieldGroupName g.value).addParameters g.params) =
      some { identifier := (nameRead g.fieldGroupName).2, group := (nameRead g.fieldGroupName).1, value := .str g.value, params := g.params } ∧
    LineFine E.toCodecs ((textLine g.fieldGroupName g.value).addParameters g.params) := by
  have h := hR.fieldGroups g hg
  have e := paramLine_eq g.fieldGroupName { params := g.params, text := g.value }
  unfold paramTextLine at e
  simp only at e
  rw [e]
  refine ⟨?_, fine_text _ (groupOK_name h).2.1 h.value.1 h.params.pairs⟩
  unfold readBack
  rw [if_neg (by simp [mkLine, h.value.2]), lineRead_mk, params_roundtrip h.params]

theorem back_fieldGroups (h0 : s.c.fieldGroups = []) : Regrouped (back E v ids c s).c.fieldGroups c.fieldGroups := by
  intro n
  rw [back, comp_fieldGroups, h0]
  have hfold : ∀ (f : VCardLine → FieldGroup) (m : List VCardLine) (a : List FieldGroup), m.foldl (fun m l => m ++ [f l]) a = a ++ m.map f := by
    intro f m
    induction m with
    | nil => intro a; simp
    | cons l m ih => intro a; rw [List.foldl_cons, ih]; simp
  rw [hfold, List.nil_append, List.filter_map, List.filter_filter]
  have h1 := seen_filter (contactSections E v false c).flatten (fun r => decide (r.group ++ qc! '.' :: r.identifier = n) && decide (tagOf r ∈ [Tag.fieldGroup])) n (nameRead n).2 (by
    intro l hl r hr hp
    simp only [Bool.and_eq_true, decide_eq_true_eq] at hp
    have ht := hp.2
    rw [tagOf_readBack hr] at ht
    have hm : l ∈ groupLines c := mem_section (secOK hR) (i := 36) (T := [.fieldGroup]) rfl (by decide) hl ht
    unfold groupLines at hm
    obtain ⟨g, hg, rfl⟩ := List.mem_map.1 hm
    rw [(group_line hR hg).1] at hr
    cases hr
    have hn := hp.1
    simp only [(groupOK_name (hR.fieldGroups g hg)).2.2] at hn
    subst hn
    exact ⟨by rw [id_adds, id_text], rfl⟩)
  change (List.map _ ((seen (contactSections E v false c).flatten).filter _)) = _
  refine (congrArg _ h1).trans ?_
  rw [← List.filter_filter, filterMap_tags, filter_section (secOK hR) [.fieldGroup] 36 rfl (by decide)]
  change List.map _ (List.filter _ ((groupLines c).filterMap readBack)) = _
  unfold groupLines
  rw [map_readBack fun g hg => (group_line hR hg).1, List.filter_map, List.map_map]
  have hname : ∀ g ∈ c.fieldGroups, (nameRead g.fieldGroupName).1 ++ qc! '.' :: (nameRead g.fieldGroupName).2 = g.fieldGroupName := fun g hg =>
    (groupOK_name (hR.fieldGroups g hg)).2.2
  rw [List.filter_congr (q := fun g => decide (g.fieldGroupName = n))]
  · conv => rhs; rw [← List.map_id (c.fieldGroups.filter _)]
    apply List.map_congr_left
    intro g hg
    simp only [Function.comp, QVariant.toString, hname g (List.mem_filter.1 hg).1]; rfl
  · intro g hg
    simp only [Function.comp, hname g hg]

theorem back_byField (h0 : s.c.fieldGroups = []) : (back E v ids c s).c.fieldGroups = byField c.fieldGroups := by
  have hreg := back_fieldGroups hR ids s h0
  refine regrouped_sorted (hreg.trans (regrouped_byField _).symm) ?_ (byField_sorted _)
  rw [back, comp_fieldGroups, h0]
  have hfold : ∀ (f : VCardLine → FieldGroup) (m : List VCardLine) (a : List FieldGroup), m.foldl (fun m l => m ++ [f l]) a = a ++ m.map f := by
    intro f m
    induction m with
    | nil => intro a; simp
    | cons l m ih => intro a; rw [List.foldl_cons, ih]; simp
  rw [hfold, List.nil_append, List.pairwise_map]
  -- a line that is read as a field of a group
  have from_ : ∀ l ∈ contactLines E v false c, ∀ r, readBack l = some r → tagOf r ∈ [Tag.fieldGroup] →
      l.identifier = r.group ++ qc! '.' :: r.identifier ∧ qc! '.' ∉ r.group := by
    intro l hl r hr ht
    rw [tagOf_readBack hr] at ht
    have hm : l ∈ groupLines c := mem_section (secOK hR) (i := 36) (T := [.fieldGroup]) rfl (by decide) hl ht
    unfold groupLines at hm
    obtain ⟨g, hg, rfl⟩ := List.mem_map.1 hm
    rw [(group_line hR hg).1] at hr
    cases hr
    have hn := (groupOK_name (hR.fieldGroups g hg)).2.2
    refine ⟨by rw [id_adds, id_text]; exact hn.symm, ?_⟩
    obtain ⟨a, b, hab, ha, na, nb, -⟩ := (hR.fieldGroups g hg).name
    have hsp : splitOn (qc! '.') g.fieldGroupName = [a, b] := by
      rw [hab, splitOn_append _ _ _ na.sep.2.2.1, splitOn_of_not_mem _ _ nb.sep.2.2.1]
    have hnr : nameRead g.fieldGroupName = (a, b) := by unfold nameRead; rw [hsp]
    show qc! '.' ∉ (nameRead g.fieldGroupName).1
    rw [hnr]
    exact na.sep.2.2.1
  have fieldOf : ∀ (a b : QString) (p : ParameterMap) (x : QString), qc! '.' ∉ a → FieldGroup.field { params := p, fieldGroupName := a ++ qc! '.' :: b, value := x } = b := by
    intro a b p x h
    unfold FieldGroup.field
    simp only
    rw [List.dropWhile_append_of_pos (by intro y hy; simp only [decide_eq_true_eq, ne_eq]; rintro rfl; exact h hy)]
    simp
  have key : (seen (contactLines E v false c)).Pairwise fun a b => tagOf a ∈ [Tag.fieldGroup] → tagOf b ∈ [Tag.fieldGroup] →
      FieldGroup.notAfter { params := a.params, fieldGroupName := a.group ++ qc! '.' :: a.identifier, value := a.value.toString }
        { params := b.params, fieldGroupName := b.group ++ qc! '.' :: b.identifier, value := b.value.toString } := by
    refine reading_sorted _ ?_ ?_
    · unfold writtenBack
      rw [List.pairwise_filterMap]
      refine (written_sorted (contactLines E v false c)).imp_of_mem fun {l m} hl hm h r hr r' hr' he ta tb => ?_
      obtain ⟨e1, n1⟩ := from_ l (mem_flatMap_lines _ _ _ hl) r hr ta
      obtain ⟨e2, n2⟩ := from_ m (mem_flatMap_lines _ _ _ hm) r' hr' tb
      unfold FieldGroup.notAfter
      rw [fieldOf _ _ _ _ n1, fieldOf _ _ _ _ n2, if_pos he]
      rcases h with h | h
      · rw [e1] at h
        have : qc! '.' ∈ q! "VERSION" := by rw [← h]; simp
        exact absurd this (by decide)
      · rw [e1, e2] at h
        exact h
    · intro r hr r' hr' hlt ta tb
      obtain ⟨l, hl, hlr⟩ := (mem_writtenBack _ r).1 hr
      obtain ⟨m, hm, hmr⟩ := (mem_writtenBack _ r').1 hr'
      have n1 := (from_ l hl r hlr ta).2
      have n2 := (from_ m hm r' hmr tb).2
      unfold FieldGroup.notAfter
      rw [fieldOf _ _ _ _ n1, fieldOf _ _ _ _ n2, if_neg (by intro e; rw [e, qlt_irrefl] at hlt; cases hlt)]
      exact hlt
  refine (key.filter _).imp_of_mem fun {a b} ha hb h => h ?_ ?_
  · exact of_decide_eq_true (List.mem_filter.1 ha).2
  · exact of_decide_eq_true (List.mem_filter.1 hb).2

theorem fine_group : Fine E (groupLines c) := fine_map fun g hg => (group_line hR hg).2

end

/-! ### custom fields -/

/-- inserting entries with different names, in any order -/
theorem fold_upsert {m : List (QString × QString)} (t : SMap QString) (hs : Sorted t) :
    Sorted (m.foldl (fun t p => SMap.upsert t p.1 p.2 fun _ => p.2) t) ∧
    ∀ k, SMap.find (m.foldl (fun t p => SMap.upsert t p.1 p.2 fun _ => p.2) t) k = ((m.reverse.find? fun p => p.1 = k).map (·.2)).or (SMap.find t k) := by
  induction m generalizing t with
  | nil => exact ⟨hs, fun k => by simp⟩
  | cons p m ih =>
    obtain ⟨h1, h2⟩ := ih (SMap.upsert t p.1 p.2 fun _ => p.2) (SMap.sorted_upsert hs)
    refine ⟨h1, fun k => ?_⟩
    rw [List.foldl_cons, h2, SMap.find_upsert, List.reverse_cons, List.find?_append]
    cases m.reverse.find? fun p => decide (p.1 = k) with
    | some q => rfl
    | none =>
      by_cases e : p.1 = k
      · simp only [if_pos e, List.find?_cons, e, decide_true]
        cases SMap.find t k <;> rfl
      · simp [e]

theorem fold_upsert_perm {m : List (QString × QString)} {t : SMap QString} (hp : m.Perm t) (hs : Sorted t) :
    m.foldl (fun t p => SMap.upsert t p.1 p.2 fun _ => p.2) [] = t := by
  obtain ⟨h1, h2⟩ := fold_upsert (m := m) [] List.Pairwise.nil
  apply SMap.ext_find h1 hs
  intro k
  rw [h2]
  have hnil : SMap.find ([] : SMap QString) k = none := rfl
  rw [hnil, Option.or_none]
  cases hf : m.reverse.find? fun p => decide (p.1 = k) with
  | none =>
    cases hg : SMap.find t k with
    | none => rfl
    | some w =>
      have := List.find?_eq_none.1 hf (k, w) (List.mem_reverse.2 (hp.mem_iff.2 (find_mem hg)))
      simp at this
  | some q =>
    have h3 := List.find?_some hf
    have h4 := find_of_mem hs (hp.mem_iff.1 (List.mem_reverse.1 (List.mem_of_find?_eq_some hf)))
    simp only [decide_eq_true_eq] at h3
    rw [h3] at h4
    rw [h4]; rfl

theorem iso_roundtrip {d : Int × Nat × Nat} (hd : DateOK d) (h1 : 1 ≤ d.1) : isoDateOf E (isoDate (some d)) = some d := by
  obtain ⟨y, m, d⟩ := d
  have hy : y.toNat < 10000 ∧ (y.toNat : Int) = y := by
    have := hd.year
    simp only at this h1
    omega
  have hv := hd.valid
  have hm : m < 100 ∧ d < 100 := by
    have := hd.bounds
    simp only at this
    omega
  unfold isoDate
  simp only at h1 ⊢
  rw [if_pos (by simp; omega), padded4 _ hy.1, padded2 _ hm.1, padded2 _ hm.2]
  unfold isoDateOf
  simp only [List.cons_append, List.nil_append]
  have hp : E.isPunct (qc! '-') = true := rfl
  have dg : ∀ n, n < 10 → (decide (48 ≤ dig n) && decide (dig n ≤ 57)) = true := by
    intro n hn
    have := (dig_facts n hn).2.2.2.2.2.1
    simp only [Bool.or_eq_true, decide_eq_true_eq, not_or, UInt16.not_lt] at this
    simp [this]
  have dn : ∀ n, n < 10 → (dig n).toNat - 48 = n := fun n hn => (dig_facts n hn).2.2.2.2.2.2.1
  simp only [List.getD_cons_succ, List.getD_cons_zero, hp, List.length_cons, List.length_nil, mid, List.drop_succ_cons, List.drop_zero,
    List.take_succ_cons, List.take_zero, List.all_cons, List.all_nil, dg _ (show y.toNat / 1000 < 10 by omega), dg _ (show y.toNat / 100 % 10 < 10 by omega),
    dg _ (show y.toNat / 10 % 10 < 10 by omega), dg _ (show y.toNat % 10 < 10 by omega), dg _ (show m / 10 < 10 by omega), dg _ (show m % 10 < 10 by omega),
    dg _ (show d / 10 < 10 by omega), dg _ (show d % 10 < 10 by omega), List.foldl_cons, List.foldl_nil,
    dn _ (show y.toNat / 1000 < 10 by omega), dn _ (show y.toNat / 100 % 10 < 10 by omega),
    dn _ (show y.toNat / 10 % 10 < 10 by omega), dn _ (show y.toNat % 10 < 10 by omega), dn _ (show m / 10 < 10 by omega), dn _ (show m % 10 < 10 by omega),
    dn _ (show d / 10 < 10 by omega), dn _ (show d % 10 < 10 by omega)]
  have e1 : 10 * (10 * (10 * (10 * 0 + y.toNat / 1000) + y.toNat / 100 % 10) + y.toNat / 10 % 10) + y.toNat % 10 = y.toNat := by omega
  have e2 : 10 * (10 * 0 + m / 10) + m % 10 = m := by omega
  have e3 : 10 * (10 * 0 + d / 10) + d % 10 = d := by omega
  have hv' : validDate (y.toNat : Int) (m : Int) (d : Int) = true := by rw [hy.2]; exact hv
  have h0 : decide (0 < y.toNat) = true := by simp; omega
  have h9 : decide (y.toNat ≤ 9999) = true := by simp; omega
  simp only [e1, e2, e3, Bool.and_true, if_true, decide_true, Bool.true_or, h0, h9, hv', Nat.reduceAdd, Nat.zero_add, Nat.le_refl]
  simp only [if_true, hy.2]

/-- the custom field in a line -/
def kv (l : VCardLine) : QString × QString :=
  if tagOf l = .anniversary then (q! "KADDRESSBOOK-X-Anniversary", isoDate ((parseDateTime l.value.toString).1.map (·.date)))
  else (customKey l, l.value.toString)

theorem custom_step {E : Codecs} {key value : QString} (h : CustomOK E v key value) (m : List (QString × QString)) (t : SMap QString) :
    customAfter t (rdLine (q! "X-" ++ key) (.str value) m) = SMap.upsert t key value fun _ => value := by
  have ht : tagOf (rdLine (q! "X-" ++ key) (.str value) m) = .x := by
    rw [tagOf_readBack (custom_readBack h m)]; exact customOK_tag h
  obtain ⟨app, n, hk, ha, hn, hd⟩ := h.name
  unfold customAfter
  rw [ht, if_neg (by decide), custom_key h]
  have hi : indexQ (qc! '-') key = app.length := by rw [hk]; exact indexQ_append _ _ _ hd
  rw [hi, if_neg (by omega)]
  have e1 : key.take (app.length : Int).toNat = app := by rw [hk]; simp
  have e2 : key.drop ((app.length : Int) + 1).toNat = n := by
    rw [hk, show ((app.length : Int) + 1).toNat = app.length + 1 by omega, List.drop_append]; simp
  have e3 : (rdLine (q! "X-" ++ key) (.str value) m).value.toString = value := rfl
  rw [e1, e2, e3]
  unfold addCustom
  rw [if_neg (by simp [ha, hn, h.text.2])]
  have : qualifiedName app n = key := by rw [hk]; simp [qualifiedName]
  rw [this]

section
variable (hR : Carriable E v c) (ids : IdKind → Nat → QString) (s : RState)
include hR

/-- the line of one custom field -/
theorem custom_line {p : QString × QString} (hp : p ∈ c.customs) :
    ∃ l, readBack (if v = .v4_0 ∧ p.1 = q! "KADDRESSBOOK-X-Anniversary" then
        { ({ identifier := q! "ANNIVERSARY" } : VCardLine).addParameter (q! "VALUE") (q! "DATE") with
           value := .str (createDateTime ((isoDateOf E p.2).map fun d => { date := d, time := (0, 0, 0, 0), zone := none }) true true) }
      else encoded v p.2 (textLine (q! "X-" ++ p.1) p.2)) = some l ∧ kv l = p ∧ (∀ t, customAfter t l = SMap.upsert t p.1 p.2 fun _ => p.2) ∧
      LineFine E.toCodecs (if v = .v4_0 ∧ p.1 = q! "KADDRESSBOOK-X-Anniversary" then
        { ({ identifier := q! "ANNIVERSARY" } : VCardLine).addParameter (q! "VALUE") (q! "DATE") with
           value := .str (createDateTime ((isoDateOf E p.2).map fun d => { date := d, time := (0, 0, 0, 0), zone := none }) true true) }
      else encoded v p.2 (textLine (q! "X-" ++ p.1) p.2)) := by
  have h := hR.customs.2 p hp
  by_cases ha : v = .v4_0 ∧ p.1 = q! "KADDRESSBOOK-X-Anniversary"
  · simp only [if_pos ha]
    obtain ⟨d, hd, h1, hval⟩ := h.anniversary ha.1 ha.2
    rw [hval, iso_roundtrip hd h1]
    simp only [Option.map_some]
    have hT : TimeOK (0, 0, 0, 0) none := ⟨by decide, by decide, by decide, rfl, by simp⟩
    have hpd := C15_datetime { date := d, time := (0, 0, 0, 0), zone := none } true hd hT
    generalize hx : createDateTime (some { date := d, time := (0, 0, 0, 0), zone := none }) true = x at hpd
    have hxne : x ≠ [] := by
      rintro rfl
      have e : parseDateTime [] = (none, false) := by decide +kernel
      rw [e] at hpd; cases hpd
    have hxs : SafeText x := by
      rw [← hx]; exact datetime_safe _ _ _
    have hpair : PairOK (q! "VALUE", q! "DATE") := (pair_single (by decide) (show lowerName (q! "VALUE") = q! "value" by decide) (by decide)).1
    refine ⟨rdLine (q! "ANNIVERSARY") (.str x) [(q! "VALUE", q! "DATE")], ?_, ?_, ?_, ?_⟩
    · refine (readBack_text (id := q! "ANNIVERSARY") (by decide) x [(q! "VALUE", q! "DATE")]).trans ?_
      rw [if_neg hxne]
    · unfold kv
      rw [if_pos (by rfl)]
      simp only [rdLine, QVariant.toString, hpd, Option.map_some]
      rw [← hval, ← ha.2]
    · intro t
      unfold customAfter
      rw [if_pos (by rfl)]
      simp only [rdLine, QVariant.toString, hpd, Option.map_some]
      rw [← hval, ha.2]
      unfold addCustom
      rw [if_neg (by simp [h.text.2])]
      rfl
    · exact fine_text _ (nameGood_lit (by decide)) hxs (h := [(q! "VALUE", q! "DATE")]) (by
        intro q hq; rw [List.mem_singleton] at hq; subst hq; exact hpair)
  · simp only [if_neg ha]
    rw [encoded_eq]
    refine ⟨_, custom_readBack h _, ?_, fun t => custom_step h _ t, fine_coded0 _ (customOK_good h) h.text.1⟩
    unfold kv
    have ht : tagOf (rdLine (q! "X-" ++ p.1) (.str p.2) (coding v p.2)) = .x := by
      rw [tagOf_readBack (custom_readBack h _)]; exact customOK_tag h
    rw [ht, if_neg (by decide), custom_key h]; rfl

theorem back_customs (h0 : s.c.customs = []) : (back E v ids c s).c.customs = c.customs := by
  rw [back, comp_customs _ _ _ _ (no_messaging hR), h0]
  have hp := seen_section_perm (secOK hR) (i := 38) (T := [.x, .anniversary]) rfl (by decide)
  change List.Perm ((seen (contactLines E v false c)).filter _) ((customLines E v false c).filterMap readBack) at hp
  rw [customs_section hR.customs.2] at hp
  generalize (seen (contactLines E v false c)).filter _ = L at hp ⊢
  have hs : Sorted c.customs := SMap.sorted_iff_keys.2 (hR.customs.1.imp fun hl => (qlt_iff_less _ _).2 hl)
  have hL : ∀ l ∈ L, ∀ t, customAfter t l = SMap.upsert t (kv l).1 (kv l).2 fun _ => (kv l).2 := by
    intro l hl t
    obtain ⟨l0, hl0, hr⟩ := List.mem_filterMap.1 (hp.mem_iff.1 hl)
    obtain ⟨p, hpm, rfl⟩ := List.mem_map.1 hl0
    obtain ⟨l', e1, e2, e3, -⟩ := custom_line hR hpm
    rw [e1] at hr
    cases hr
    rw [e3, e2]
  have hkv : (L.map kv).Perm c.customs := by
    refine (hp.map kv).trans (List.Perm.of_eq ?_)
    have : ∀ m : List (QString × QString), (∀ p ∈ m, p ∈ c.customs) → ((m.map fun p =>
        if v = .v4_0 ∧ p.1 = q! "KADDRESSBOOK-X-Anniversary" then
          { ({ identifier := q! "ANNIVERSARY" } : VCardLine).addParameter (q! "VALUE") (q! "DATE") with
             value := .str (createDateTime ((isoDateOf E p.2).map fun d => { date := d, time := (0, 0, 0, 0), zone := none }) true true) }
        else encoded v p.2 (textLine (q! "X-" ++ p.1) p.2)).filterMap readBack).map kv = m := by
      intro m
      induction m with
      | nil => intro _; rfl
      | cons p m ih =>
        intro hm
        obtain ⟨l', e1, e2, -⟩ := custom_line hR (hm p (by simp))
        rw [List.map_cons, List.filterMap_cons, e1]
        simp only [List.map_cons]
        rw [e2, ih fun q hq => hm q (by simp [hq])]
    exact this _ fun p hp => hp
  rw [← fold_upsert_perm hkv hs, List.foldl_map]
  have : ∀ (L : List VCardLine) (t : SMap QString), (∀ l ∈ L, ∀ t, customAfter t l = SMap.upsert t (kv l).1 (kv l).2 fun _ => (kv l).2) →
      L.foldl customAfter t = L.foldl (fun t l => SMap.upsert t (kv l).1 (kv l).2 fun _ => (kv l).2) t := by
    intro L
    induction L with
    | nil => intro t _; rfl
    | cons l L ih => intro t h; rw [List.foldl_cons, List.foldl_cons, h l (by simp), ih _ fun x hx => h x (by simp [hx])]
  exact this L [] hL

theorem fine_custom : Fine E (customLines E v false c) := by
  rw [customs_section hR.customs.2]
  exact fine_map fun p hp => by
    obtain ⟨_, _, _, _, h⟩ := custom_line hR hp
    exact h

end
end KC
