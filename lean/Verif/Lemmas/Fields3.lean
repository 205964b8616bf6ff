import Verif.Lemmas.Fields2
import Verif.Lemmas.Keyed
/- Helper lemmas: the fields of a contact after writing and reading, part 3: lists of texts and URLs, organisations, e-mail addresses. -/
namespace KC
open Spec

/-! ### folds over lists -/

theorem map_readBack {α : Type} {f : α → VCardLine} {g : α → VCardLine} {m : List α} (h : ∀ x ∈ m, readBack (f x) = some (g x)) :
    (m.map f).filterMap readBack = m.map g := by
  induction m with
  | nil => rfl
  | cons x m ih =>
    rw [List.map_cons, List.filterMap_cons, h x (by simp), List.map_cons]
    simp only
    rw [ih fun y hy => h y (by simp [hy])]

/-- a fold whose state is a function of the entries gone through -/
theorem fold_states {α β σ : Type} (step : σ → β → σ) (g : α → β) (S : List α → σ) (m : List α)
    (h : ∀ pre x post, m = pre ++ x :: post → step (S pre) (g x) = S (pre ++ [x])) : (m.map g).foldl step (S []) = S m := by
  have key : ∀ post pre, m = pre ++ post → (post.map g).foldl step (S pre) = S m := by
    intro post
    induction post with
    | nil => intro pre e; rw [e, List.append_nil]; rfl
    | cons x post ih =>
      intro pre e
      rw [List.map_cons, List.foldl_cons, h pre x post e]
      exact ih _ (by rw [e]; simp)
  exact key m [] rfl

theorem fold_append {α β γ : Type} (step : List γ → β → List γ) (g : α → β) (h : α → γ) (m : List α)
    (hs : ∀ a, ∀ x ∈ m, step a (g x) = a ++ [h x]) : (m.map g).foldl step [] = m.map h :=
  fold_states step g (fun pre => pre.map h) m fun pre x post e => by rw [hs _ x (by rw [e]; simp), List.map_append]; rfl

/-! ### lines of texts with parameters -/

theorem paramLine_eq (id : QString) (t : ParamText) : paramTextLine id t = mkLine id (.str t.text) (joinedParams t.params) := by
  unfold paramTextLine; rw [textLine_eq, mkLine_addAll, List.nil_append]

theorem TextOK.fine {E : ToolEnv} {t : ParamText} (h : TextOK t) {id : QString} (hn : nameLit id = true) : LineFine E.toCodecs (paramTextLine id t) := by
  rw [paramLine_eq]; exact fine_text _ (nameGood_lit hn) h.text.1 h.params.pairs

/-- a line of a text with its parameters, as read -/
def ptLine (id : QString) (text : QString) (m : ParameterMap) : VCardLine := { identifier := id, value := .str text, params := m }

theorem rd_params {id : QString} {val : QVariant} {m : ParameterMap} (h : ParamsOK m) :
    rdLine id val (joinedParams m) = { identifier := id, value := val, params := m } := by
  unfold rdLine; rw [params_roundtrip h]

theorem TextOK.back {t : ParamText} (h : TextOK t) {id : QString} (hn : nameLit id = true) :
    readBack (paramTextLine id t) = some (ptLine id t.text t.params) := by
  rw [paramLine_eq, readBack_text hn, if_neg h.text.2, rd_params h.params]; rfl

theorem codedLine_eq (v : Version) (id : QString) (t : ParamText) (h : v = .v2_1 → PlainAscii t.text) : codedTextLine v id t = paramTextLine id t := by
  unfold codedTextLine
  rw [encoded_eq, paramLine_eq]
  have : coding v t.text = [] := by
    unfold coding
    rw [if_neg]
    simp only [Bool.and_eq_true, decide_eq_true_eq, not_and]
    intro hv hn
    exact (needsEncoding_iff _).1 hn (h hv)
  rw [this, mkLine_addAll, List.nil_append]

variable {E : ToolEnv} {v : Version} {c : Contact}

theorem texts_fold {id : QString} (hn : nameLit id = true) {m : List ParamText} (h : ∀ t ∈ m, TextOK t) :
    ((m.map (paramTextLine id)).filterMap readBack).foldl
      (fun m l => if ({ params := l.params, text := l.value.toString } : ParamText).isValid then m ++ [({ params := l.params, text := l.value.toString } : ParamText)] else m) [] = m := by
  rw [map_readBack (g := fun t => ptLine id t.text t.params) fun t ht => (h t ht).back hn]
  refine (fold_append _ _ (fun t => t) m ?_).trans (List.map_id' _)
  intro a t ht
  have : (!t.text.isEmpty) = true := by
    cases e : t.text with
    | nil => exact absurd e (h t ht).text.2
    | cons _ _ => rfl
  simp only [ptLine, QVariant.toString, ParamText.isValid, this, if_true]

section
variable (hR : Carriable E v c) (ids : IdKind → Nat → QString) (s : RState)
include hR

theorem back_nickNames (h0 : s.c.nickNames = []) : (back E v ids c s).c.nickNames = if v = .v2_1 then [] else c.nickNames := by
  rw [back, comp_nickNames, sec_lines hR 19 (q! "NICKNAME") rfl (by decide) (named_nick v c), h0]
  show ((nickLines v c).filterMap readBack).foldl _ _ = _
  unfold nickLines
  by_cases hv : v = .v2_1
  · rw [if_neg (by simp [hv]), if_pos hv]; rfl
  · rw [if_pos hv, if_neg hv]; exact texts_fold (by decide) (hR.nickNames hv)

theorem fine_nick : Fine E (nickLines v c) := fine_ite (fun hv => fine_map fun t ht => (hR.nickNames hv t ht).fine (by decide)) fun _ => fine_nil

theorem back_clientPidMaps (h0 : s.c.clientPidMaps = []) : (back E v ids c s).c.clientPidMaps = if v = .v4_0 then c.clientPidMaps else [] := by
  rw [back, comp_clientPidMaps, sec_lines hR 10 (q! "CLIENTPIDMAP") rfl (by decide) (named_pid v c), h0]
  show ((pidLines v c).filterMap readBack).foldl _ _ = _
  unfold pidLines
  by_cases hv : v = .v4_0
  · rw [if_pos hv, if_pos hv]; exact texts_fold (by decide) (hR.clientPidMaps hv)
  · rw [if_neg hv, if_neg hv]; rfl

theorem fine_pid : Fine E (pidLines v c) := fine_ite (fun hv => fine_map fun t ht => (hR.clientPidMaps hv t ht).fine (by decide)) fun _ => fine_nil

theorem titleLines_eq : titleLines v c = c.titles.map (paramTextLine (q! "TITLE")) :=
  List.map_congr_left fun t ht => codedLine_eq v _ t (hR.titles t ht).2
theorem roleLines_eq : roleLines v c = c.roles.map (paramTextLine (q! "ROLE")) :=
  List.map_congr_left fun t ht => codedLine_eq v _ t (hR.roles t ht).2

theorem back_titles (h0 : s.c.titles = []) : (back E v ids c s).c.titles = c.titles := by
  rw [back, comp_titles, sec_lines hR 29 (q! "TITLE") rfl (by decide) (named_title v c), h0]
  show ((titleLines v c).filterMap readBack).foldl _ _ = _
  rw [titleLines_eq hR]
  exact texts_fold (by decide) fun t ht => (hR.titles t ht).1

theorem fine_title : Fine E (titleLines v c) := by
  rw [titleLines_eq hR]; exact fine_map fun t ht => (hR.titles t ht).1.fine (by decide)

theorem back_roles (h0 : s.c.roles = []) : (back E v ids c s).c.roles = c.roles := by
  rw [back, comp_roles, sec_lines hR 25 (q! "ROLE") rfl (by decide) (named_role v c), h0]
  show ((roleLines v c).filterMap readBack).foldl _ _ = _
  rw [roleLines_eq hR]
  exact texts_fold (by decide) fun t ht => (hR.roles t ht).1

theorem fine_role : Fine E (roleLines v c) := by
  rw [roleLines_eq hR]; exact fine_map fun t ht => (hR.roles t ht).1.fine (by decide)

theorem back_relationships (h0 : s.c.relationships = []) : (back E v ids c s).c.relationships = c.relationships := by
  rw [back, comp_relationships, sec_lines hR 7 (q! "RELATED") rfl (by decide) (named_related c), h0]
  show ((relatedLines c).filterMap readBack).foldl _ _ = _
  unfold relatedLines
  rw [map_readBack (g := fun t => ptLine (q! "RELATED") t.text t.params) fun t ht => (hR.relationships.1 t ht).back (by decide)]
  refine fold_states _ _ (fun pre => pre) c.relationships ?_
  intro pre t post e
  have hn := hR.relationships.2
  rw [e] at hn
  have : t ∉ pre := fun hm => (List.nodup_append.1 hn).2.2 t hm t (by simp) rfl
  exact if_neg this

theorem fine_related : Fine E (relatedLines c) := fine_map fun t ht => (hR.relationships.1 t ht).fine (by decide)

theorem back_langs (h0 : s.c.langs = []) : (back E v ids c s).c.langs = if v = .v4_0 then c.langs else [] := by
  rw [back, comp_langs, sec_lines hR 9 (q! "LANG") rfl (by decide) (named_lang v c), h0]
  show ((langLines v c).filterMap readBack).foldl _ _ = _
  unfold langLines
  by_cases hv : v = .v4_0
  · rw [if_pos hv, if_pos hv]
    obtain ⟨h1, hn⟩ := hR.langs hv
    rw [map_readBack (g := fun t => ptLine (q! "LANG") t.text t.params) fun t ht => (h1 t ht).1.back (by decide)]
    refine fold_states _ _ (fun pre => pre) c.langs ?_
    intro pre t post e
    rw [e, List.map_append, List.map_cons] at hn
    have hf : findFirst ParamText.text t.text pre = none := findFirst_none.2 fun hx =>
      (List.nodup_append.1 hn).2.2 t.text hx t.text (by simp) rfl
    unfold langAfter
    simp only [ptLine, QVariant.toString, hf]
    rw [if_neg (by simpa using (h1 t (by rw [e]; simp)).2)]
  · rw [if_neg hv, if_neg hv]; rfl

theorem fine_lang : Fine E (langLines v c) := fine_ite (fun hv => fine_map fun t ht => ((hR.langs hv).1 t ht).1.fine (by decide)) fun _ => fine_nil

/-! members and sources: no parameters -/

theorem back_members (h0 : s.c.members = []) : (back E v ids c s).c.members = if v = .v4_0 ∧ toLowerQ c.kind = q! "group" then c.members else [] := by
  rw [back, comp_members, sec_lines hR 5 (q! "MEMBER") rfl (by decide) (named_member v c), h0]
  show ((memberLines v c).filterMap readBack).foldl _ _ = _
  unfold memberLines
  by_cases hv : v = .v4_0 ∧ toLowerQ c.kind = q! "group"
  · rw [if_pos hv, if_pos (by simp [hv.1, hv.2])]
    obtain ⟨h1, hn⟩ := hR.members hv.1
    rw [map_readBack (g := fun t => rdLine (q! "MEMBER") (.str t) []) fun t ht => by
      rw [textLine_eq, readBack_text (by decide), if_neg (h1 t ht).2]]
    refine fold_states _ _ (fun pre => pre) c.members ?_
    intro pre t post e
    rw [e] at hn
    have : t ∉ pre := fun hm => (List.nodup_append.1 hn).2.2 t hm t (by simp) rfl
    exact if_neg this
  · rw [if_neg hv, if_neg (by simpa using hv)]; rfl

theorem fine_member : Fine E (memberLines v c) := fine_ite (fun hv => fine_map fun t ht => by
  rw [textLine_eq]; exact fine_text _ (nameGood_lit (by decide)) ((hR.members (by simp at hv; exact hv.1)).1 t ht).1 (by simp)) fun _ => fine_nil

theorem back_sources (h0 : s.c.sources = []) : (back E v ids c s).c.sources = c.sources := by
  rw [back, comp_sources, sec_lines hR 6 (q! "SOURCE") rfl (by decide) (named_source c), h0]
  show ((sourceLines c).filterMap readBack).foldl _ _ = _
  unfold sourceLines
  rw [map_readBack (g := fun t => rdLine (q! "SOURCE") (.str t) []) fun t ht => by
      rw [textLine_eq, readBack_text (by decide), if_neg (hR.sources t ht).2.1]]
  refine (fold_append _ _ (fun t => t) _ ?_).trans (List.map_id' _)
  intro a t ht
  simp only [rdLine, QVariant.toString]
  rw [(hR.sources t ht).2.2]

theorem fine_source : Fine E (sourceLines c) := fine_map fun t ht => by
  rw [textLine_eq]; exact fine_text _ (nameGood_lit (by decide)) (hR.sources t ht).1 (by simp)

/-! URLs -/

theorem urlLine_eq (id u : QString) (m : ParameterMap) : (textLine id u).addParameters m = paramTextLine id { params := m, text := u } := rfl

theorem back_extraUrls (h0 : s.c.extraUrls = []) : (back E v ids c s).c.extraUrls = c.extraUrls := by
  rw [back, comp_extraUrls, sec_lines hR 32 (q! "URL") rfl (by decide) (named_url c), h0]
  show ((urlLines c).filterMap readBack).foldl _ _ = _
  unfold urlLines
  show ((c.extraUrls.map fun u => paramTextLine (q! "URL") { params := u.params, text := u.url }).filterMap readBack).foldl _ _ = _
  rw [map_readBack (g := fun u => ptLine (q! "URL") u.url u.params) fun u hu =>
    TextOK.back (t := { params := u.params, text := u.url }) ⟨⟨(hR.extraUrls u hu).1.1, (hR.extraUrls u hu).1.2.1⟩, (hR.extraUrls u hu).2.1⟩ (by decide)]
  refine (fold_append _ _ (fun t => t) _ ?_).trans (List.map_id' _)
  intro a u hu
  obtain ⟨h1, h2, h3⟩ := hR.extraUrls u hu
  simp only [ptLine, QVariant.toString, h1.2.2, ParamUrl.isValidUrl, h3, if_true]

theorem fine_url : Fine E (urlLines c) := fine_map fun u hu =>
  TextOK.fine (t := { params := u.params, text := u.url }) ⟨⟨(hR.extraUrls u hu).1.1, (hR.extraUrls u hu).1.2.1⟩, (hR.extraUrls u hu).2.1⟩ (by decide)

/-! organisations -/

/-- the texts of an ORG line -/
def orgParts (c : Contact) (o : ParamText) : List QString := if c.department = [] then [o.text] else [o.text, c.department]

omit hR in
theorem orgLine_eq (v : Version) (c : Contact) (o : ParamText) (h : v = .v2_1 → PlainAscii o.text ∧ PlainAscii c.department) :
    orgLine v c.department o = paramTextLine (q! "ORG") { params := o.params, text := joinEscaped (qc! ';') (orgParts c o) } := by
  unfold orgLine orgParts
  have e : (if c.department.isEmpty then [o.text] else [o.text, c.department]) = if c.department = [] then [o.text] else [o.text, c.department] := by
    by_cases h : c.department = []
    · simp [h]
    · rw [if_neg h, if_neg (by simpa using h)]
  simp only
  rw [e, encoded_eq, paramLine_eq]
  have hp : v = .v2_1 → PlainAscii (joinEscaped (qc! ';') (if c.department = [] then [o.text] else [o.text, c.department])) := by
    intro hv
    rw [plain_joinEscaped (by decide)]
    intro s hs
    split at hs
    · rw [List.mem_singleton] at hs; subst hs; exact (h hv).1
    · simp only [List.mem_cons, List.not_mem_nil, or_false] at hs
      rcases hs with rfl | rfl
      · exact (h hv).1
      · exact (h hv).2
  have : coding v (joinEscaped (qc! ';') (if c.department = [] then [o.text] else [o.text, c.department])) = [] := by
    unfold coding
    rw [if_neg]
    simp only [Bool.and_eq_true, decide_eq_true_eq, not_and]
    intro hv hn
    exact (needsEncoding_iff _).1 hn (hp hv)
  rw [this, mkLine_addAll, List.nil_append]

theorem org_text {o : ParamText} (ho : o ∈ c.organizations) : TextOK { params := o.params, text := joinEscaped (qc! ';') (orgParts c o) } := by
  obtain ⟨ht, -, hc, hp⟩ := hR.organizations o ho
  refine ⟨⟨?_, ?_⟩, ht.params⟩
  · have := hc.coded (.inl rfl)
    change CodedText E.toCodecs v (joinEscaped (qc! ';') (orgParts c o)) at this
    unfold CodedText at this
    by_cases h : v = .v2_1 ∧ ¬ PlainAscii (joinEscaped (qc! ';') (orgParts c o))
    · refine absurd ?_ h.2
      rw [plain_joinEscaped (by decide)]
      intro s hs
      unfold orgParts at hs
      split at hs
      · rw [List.mem_singleton] at hs; subst hs; exact (hp h.1).1
      · simp only [List.mem_cons, List.not_mem_nil, or_false] at hs
        rcases hs with rfl | rfl
        · exact (hp h.1).1
        · exact (hp h.1).2
    · rw [if_neg h] at this; exact this
  · intro e
    rcases joinEscaped_eq_nil e with h | h
    · unfold orgParts at h; split at h <;> cases h
    · unfold orgParts at h
      split at h
      · exact ht.text.2 (by simpa using h)
      · simp at h

theorem fine_org : Fine E (orgLines v c) := fine_map fun o ho => by
  rw [orgLine_eq v c o (hR.organizations o ho).2.2.2]; exact (org_text hR ho).fine (by decide)

theorem back_organizations (h0 : s.c.organizations = [] ∧ s.c.department = []) :
    (back E v ids c s).c.organizations = c.merged.organizations ∧ (back E v ids c s).c.department = if c.merged.organizations = [] then [] else c.merged.department := by
  suffices h : ((back E v ids c s).c.organizations, (back E v ids c s).c.department) =
      (c.organizations.map fun o => { o with text := (merged (qc! ';') (orgTexts c.department o)).headD [] },
        if ∀ o ∈ c.organizations, o.text.getLast? = some 92 then [] else c.department) by
    refine ⟨congrArg Prod.fst h, (congrArg Prod.snd h).trans ?_⟩
    show (if ∀ o ∈ c.organizations, o.text.getLast? = some 92 then [] else c.department) = if c.organizations.map _ = [] then [] else
      if c.organizations ≠ [] ∧ ∀ o ∈ c.organizations, o.text.getLast? = some 92 then [] else c.department
    by_cases h1 : c.organizations = []
    · simp [h1]
    · simp [h1]
  rw [back, comp_organizations, sec_lines hR 21 (q! "ORG") rfl (by decide) (named_org v c), h0.1, h0.2]
  show ((orgLines v c).filterMap readBack).foldl _ _ = _
  unfold orgLines
  rw [map_readBack (g := fun o => ptLine (q! "ORG") (joinEscaped (qc! ';') (orgParts c o)) o.params) fun o ho => by
    rw [orgLine_eq v c o (hR.organizations o ho).2.2.2]; exact (org_text hR ho).back (by decide)]
  refine fold_states _ _ (fun pre => (pre.map fun o => { o with text := (merged (qc! ';') (orgTexts c.department o)).headD [] },
    if ∀ o ∈ pre, o.text.getLast? = some 92 then [] else c.department)) c.organizations ?_
  intro pre o post e
  have ho : o ∈ c.organizations := by rw [e]; simp
  obtain ⟨ht, -, hc, -⟩ := hR.organizations o ho
  have hs : splitString (qc! ';') (joinEscaped (qc! ';') (orgParts c o)) = merged (qc! ';') (orgParts c o) :=
    split_merged (.inl rfl) (by unfold orgParts; split <;> simp)
  have hv : (!o.text.isEmpty) = true := by
    cases e : o.text with
    | nil => exact absurd e ht.text.2
    | cons _ _ => rfl
  unfold orgAfter
  simp only [ptLine, QVariant.toString, hs]
  unfold orgParts
  have hall : (∀ x ∈ pre ++ [o], x.text.getLast? = some 92) ↔ (∀ x ∈ pre, x.text.getLast? = some 92) ∧ o.text.getLast? = some 92 := by
    simp only [List.mem_append, List.mem_singleton, or_imp, forall_and, forall_eq]
  by_cases hd : c.department = []
  · simp [hd, ParamText.isValid, ht.text.2, merged, orgTexts]
  · by_cases hb : o.text.getLast? = some 92
    · simp only [hall, hb, and_true, hd, if_false, merged, if_true, orgTexts, List.map_append, List.map_cons, List.map_nil, List.headD_cons, List.length_singleton]
      simp [ParamText.isValid]
    · simp only [hall, hb, and_false, hd, if_false, merged, if_true, orgTexts, List.map_append, List.map_cons, List.map_nil, List.headD_cons, List.length_singleton]
      simp [ParamText.isValid, ht.text.2]

end
end KC
