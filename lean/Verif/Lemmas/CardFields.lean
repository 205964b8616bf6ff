import Verif.Lemmas.CardEntry
import Verif.Lemmas.Content
/-
  The fields of a contact read from the lines of one card.
-/
namespace KC
open KC.Spec

/-- lines of other kinds do not change this part -/
macro "other_lines " π:term : tactic =>
  `(tactic| (intro t ht s s' h; cases t <;> first | exact (ht (by decide)).elim | exact Eq.trans (congrArg $π (show s' = _ from h)) rfl))

/-- the kind of the line is the only one in the list -/
macro "this_line" : tactic =>
  `(tactic| (intro s l ht; simp only [List.mem_cons, List.not_mem_nil, or_false] at ht))

section
variable (E : ToolEnv) (ids : IdKind → Nat → QString) (s0 : RState) (L : List VCardLine)

/-- A field that is the last value. -/
theorem part_last {α : Type} (π : RState → α) (n : QString) (t : Tag) (hn : (n, t) ∈ tagTable) (f : VCardLine → α)
    (hf : ∀ u, u ∉ [t] → ∀ s s', Frame u s s' → π s' = π s)
    (hg : ∀ s l, tagOf l = t → π (readLine E ids s l) = f l) :
    π (L.foldl (readLine E ids) s0) = ((named L [n]).map f).getLast?.getD (π s0) := by
  rw [read_part E ids π [t] (fun _ l => f l) hf (fun s l h => hg s l (by simpa using h)),
    show named L [n] = _ from named_eq_tags L [(n, t)] (by simpa using hn), fold_lastMap]
  rfl

/-- A field that is the last value that says something. -/
theorem part_some {α : Type} (π : RState → α) (ps : List (QString × Tag)) (hn : ∀ p ∈ ps, p ∈ tagTable) (f : VCardLine → Option α)
    (hf : ∀ u, u ∉ ps.map (·.2) → ∀ s s', Frame u s s' → π s' = π s)
    (hg : ∀ s l, tagOf l ∈ ps.map (·.2) → π (readLine E ids s l) = (f l).getD (π s)) :
    π (L.foldl (readLine E ids) s0) = ((named L (ps.map (·.1))).filterMap f).getLast?.getD (π s0) := by
  rw [read_part E ids π (ps.map (·.2)) (fun x l => (f l).getD x) hf hg, named_eq_tags L ps hn, fold_lastSome]

/-- A field that lists all values with a property. -/
theorem part_list {α : Type} (π : RState → List α) (ps : List (QString × Tag)) (hn : ∀ p ∈ ps, p ∈ tagTable) (f : VCardLine → α) (p : α → Bool)
    (hf : ∀ u, u ∉ ps.map (·.2) → ∀ s s', Frame u s s' → π s' = π s)
    (hg : ∀ s l, tagOf l ∈ ps.map (·.2) → π (readLine E ids s l) = if p (f l) then π s ++ [f l] else π s) (h0 : π s0 = []) :
    π (L.foldl (readLine E ids) s0) = ((named L (ps.map (·.1))).map f).filter p := by
  rw [read_part E ids π (ps.map (·.2)) (fun x l => if p (f l) then x ++ [f l] else x) hf hg, named_eq_tags L ps hn, h0, fold_appendIf]

theorem part_uid : (L.foldl (readLine E ids) s0).c.uid = ((named L [q! "uid"]).map valueText).getLast?.getD s0.c.uid := by
  refine part_last E ids s0 L (fun s => s.c.uid) _ .uid (by decide +kernel) valueText (by other_lines (fun s : RState => s.c.uid)) ?_
  intro s l ht
  simp only [readLine, ht, Contact.setUid]
  split
  · rename_i h; exact h.symm
  · rfl

theorem part_name : (L.foldl (readLine E ids) s0).c.name = ((named L [q! "name"]).map valueText).getLast?.getD s0.c.name := by
  refine part_last E ids s0 L (fun s => s.c.name) _ .name (by decide +kernel) valueText (by other_lines (fun s : RState => s.c.name)) ?_
  intro s l ht
  simp only [readLine, ht, Contact.setName]
  split
  · rename_i h; exact h.symm
  · rfl

theorem part_formattedName : (L.foldl (readLine E ids) s0).c.formattedName = ((named L [q! "fn"]).map valueText).getLast?.getD s0.c.formattedName := by
  refine part_last E ids s0 L (fun s => s.c.formattedName) _ .fn (by decide +kernel) valueText (by other_lines (fun s : RState => s.c.formattedName)) ?_
  intro s l ht
  simp only [readLine, ht, Contact.setFormattedName]
  split
  · rename_i h; exact h.symm
  · rfl

theorem part_kind : (L.foldl (readLine E ids) s0).c.kind = ((named L [q! "kind"]).map valueText).getLast?.getD s0.c.kind := by
  refine part_last E ids s0 L (fun s => s.c.kind) _ .kind (by decide +kernel) valueText (by other_lines (fun s : RState => s.c.kind)) ?_
  intro s l ht
  simp only [readLine, ht, Contact.setKind]
  split
  · rename_i h; exact h.symm
  · rfl

theorem part_mailer : (L.foldl (readLine E ids) s0).c.mailer = ((named L [q! "mailer"]).map valueText).getLast?.getD s0.c.mailer := by
  refine part_last E ids s0 L (fun s => s.c.mailer) _ .mailer (by decide +kernel) valueText (by other_lines (fun s : RState => s.c.mailer)) ?_
  intro s l ht
  simp only [readLine, ht, Contact.setMailer]
  split
  · rename_i h; exact h.symm
  · rfl

theorem part_note : (L.foldl (readLine E ids) s0).c.note = ((named L [q! "note"]).map valueText).getLast?.getD s0.c.note := by
  refine part_last E ids s0 L (fun s => s.c.note) _ .note (by decide +kernel) valueText (by other_lines (fun s : RState => s.c.note)) ?_
  intro s l ht
  simp only [readLine, ht, Contact.setNote]
  split
  · rename_i h; exact h.symm
  · rfl

theorem part_productId : (L.foldl (readLine E ids) s0).c.productId = ((named L [q! "prodid"]).map valueText).getLast?.getD s0.c.productId := by
  refine part_last E ids s0 L (fun s => s.c.productId) _ .prodid (by decide +kernel) valueText (by other_lines (fun s : RState => s.c.productId)) ?_
  intro s l ht
  simp only [readLine, ht, Contact.setProductId]
  split
  · rename_i h; exact h.symm
  · rfl

theorem part_categories : (L.foldl (readLine E ids) s0).c.categories =
    ((named L [q! "categories"]).map fun l => splitString (qc! ',') (valueText l)).getLast?.getD s0.c.categories := by
  refine part_last E ids s0 L (fun s => s.c.categories) _ .categories (by decide +kernel) _ (by other_lines (fun s : RState => s.c.categories)) ?_
  intro s l ht
  simp only [readLine, ht]
  rfl

theorem secrecyOf_eq (l : VCardLine) : secrecyOf l = parseSecrecy l := by
  unfold secrecyOf parseSecrecy valueText
  generalize toLowerQ l.value.toString = v
  simp only [List.find?]
  by_cases h1 : v = q! "public"
  · subst h1; rfl
  · have e1 : decide ((q! "public") = v) = false := by simpa using fun h => h1 h.symm
    rw [if_neg h1, e1]
    by_cases h2 : v = q! "private"
    · subst h2; rfl
    · have e2 : decide ((q! "private") = v) = false := by simpa using fun h => h2 h.symm
      rw [if_neg h2, e2]
      by_cases h3 : v = q! "confidential"
      · subst h3; rfl
      · have e3 : decide ((q! "confidential") = v) = false := by simpa using fun h => h3 h.symm
        rw [if_neg h3, e3]
        rfl

theorem part_secrecy : (L.foldl (readLine E ids) s0).c.secrecy = ((named L [q! "class"]).map secrecyOf).getLast?.getD s0.c.secrecy := by
  refine part_last E ids s0 L (fun s => s.c.secrecy) _ .class_ (by decide +kernel) _ (by other_lines (fun s : RState => s.c.secrecy)) ?_
  intro s l ht
  simp only [readLine, ht, Contact.setSecrecy, ← secrecyOf_eq]
  split
  · rename_i h; exact h.symm
  · rfl

end

/-! ### names and organisations -/

theorem getD_part (p : List QString) (i : Nat) (x : QString) : (if p.length > i then p.getD i [] else x) = (p[i]?).getD x := by
  by_cases h : p.length > i
  · rw [if_pos h, List.getElem?_eq_getElem h, List.getD_eq_getElem?_getD, List.getElem?_eq_getElem h]; rfl
  · rw [if_neg h, List.getElem?_eq_none (by omega)]; rfl

theorem familyName_setFamilyName (c : Contact) (s : QString) : (c.setFamilyName s).familyName = s := by
  unfold Contact.setFamilyName; split
  · rename_i h; exact h.symm
  · rfl
theorem givenName_setFamilyName (c : Contact) (s : QString) : (c.setFamilyName s).givenName = c.givenName := by unfold Contact.setFamilyName; split <;> rfl
theorem additionalName_setFamilyName (c : Contact) (s : QString) : (c.setFamilyName s).additionalName = c.additionalName := by unfold Contact.setFamilyName; split <;> rfl
theorem prefix__setFamilyName (c : Contact) (s : QString) : (c.setFamilyName s).prefix_ = c.prefix_ := by unfold Contact.setFamilyName; split <;> rfl
theorem suffix_setFamilyName (c : Contact) (s : QString) : (c.setFamilyName s).suffix = c.suffix := by unfold Contact.setFamilyName; split <;> rfl
theorem sortString_setFamilyName (c : Contact) (s : QString) : (c.setFamilyName s).sortString = c.sortString := by unfold Contact.setFamilyName; split <;> rfl
theorem department_setFamilyName (c : Contact) (s : QString) : (c.setFamilyName s).department = c.department := by unfold Contact.setFamilyName; split <;> rfl
theorem organizations_setFamilyName (c : Contact) (s : QString) : (c.setFamilyName s).organizations = c.organizations := by unfold Contact.setFamilyName; split <;> rfl
theorem familyName_setGivenName (c : Contact) (s : QString) : (c.setGivenName s).familyName = c.familyName := by unfold Contact.setGivenName; split <;> rfl
theorem givenName_setGivenName (c : Contact) (s : QString) : (c.setGivenName s).givenName = s := by
  unfold Contact.setGivenName; split
  · rename_i h; exact h.symm
  · rfl
theorem additionalName_setGivenName (c : Contact) (s : QString) : (c.setGivenName s).additionalName = c.additionalName := by unfold Contact.setGivenName; split <;> rfl
theorem prefix__setGivenName (c : Contact) (s : QString) : (c.setGivenName s).prefix_ = c.prefix_ := by unfold Contact.setGivenName; split <;> rfl
theorem suffix_setGivenName (c : Contact) (s : QString) : (c.setGivenName s).suffix = c.suffix := by unfold Contact.setGivenName; split <;> rfl
theorem sortString_setGivenName (c : Contact) (s : QString) : (c.setGivenName s).sortString = c.sortString := by unfold Contact.setGivenName; split <;> rfl
theorem department_setGivenName (c : Contact) (s : QString) : (c.setGivenName s).department = c.department := by unfold Contact.setGivenName; split <;> rfl
theorem organizations_setGivenName (c : Contact) (s : QString) : (c.setGivenName s).organizations = c.organizations := by unfold Contact.setGivenName; split <;> rfl
theorem familyName_setAdditionalName (c : Contact) (s : QString) : (c.setAdditionalName s).familyName = c.familyName := by unfold Contact.setAdditionalName; split <;> rfl
theorem givenName_setAdditionalName (c : Contact) (s : QString) : (c.setAdditionalName s).givenName = c.givenName := by unfold Contact.setAdditionalName; split <;> rfl
theorem additionalName_setAdditionalName (c : Contact) (s : QString) : (c.setAdditionalName s).additionalName = s := by
  unfold Contact.setAdditionalName; split
  · rename_i h; exact h.symm
  · rfl
theorem prefix__setAdditionalName (c : Contact) (s : QString) : (c.setAdditionalName s).prefix_ = c.prefix_ := by unfold Contact.setAdditionalName; split <;> rfl
theorem suffix_setAdditionalName (c : Contact) (s : QString) : (c.setAdditionalName s).suffix = c.suffix := by unfold Contact.setAdditionalName; split <;> rfl
theorem sortString_setAdditionalName (c : Contact) (s : QString) : (c.setAdditionalName s).sortString = c.sortString := by unfold Contact.setAdditionalName; split <;> rfl
theorem department_setAdditionalName (c : Contact) (s : QString) : (c.setAdditionalName s).department = c.department := by unfold Contact.setAdditionalName; split <;> rfl
theorem organizations_setAdditionalName (c : Contact) (s : QString) : (c.setAdditionalName s).organizations = c.organizations := by unfold Contact.setAdditionalName; split <;> rfl
theorem familyName_setPrefix (c : Contact) (s : QString) : (c.setPrefix s).familyName = c.familyName := by unfold Contact.setPrefix; split <;> rfl
theorem givenName_setPrefix (c : Contact) (s : QString) : (c.setPrefix s).givenName = c.givenName := by unfold Contact.setPrefix; split <;> rfl
theorem additionalName_setPrefix (c : Contact) (s : QString) : (c.setPrefix s).additionalName = c.additionalName := by unfold Contact.setPrefix; split <;> rfl
theorem prefix__setPrefix (c : Contact) (s : QString) : (c.setPrefix s).prefix_ = s := by
  unfold Contact.setPrefix; split
  · rename_i h; exact h.symm
  · rfl
theorem suffix_setPrefix (c : Contact) (s : QString) : (c.setPrefix s).suffix = c.suffix := by unfold Contact.setPrefix; split <;> rfl
theorem sortString_setPrefix (c : Contact) (s : QString) : (c.setPrefix s).sortString = c.sortString := by unfold Contact.setPrefix; split <;> rfl
theorem department_setPrefix (c : Contact) (s : QString) : (c.setPrefix s).department = c.department := by unfold Contact.setPrefix; split <;> rfl
theorem organizations_setPrefix (c : Contact) (s : QString) : (c.setPrefix s).organizations = c.organizations := by unfold Contact.setPrefix; split <;> rfl
theorem familyName_setSuffix (c : Contact) (s : QString) : (c.setSuffix s).familyName = c.familyName := by unfold Contact.setSuffix; split <;> rfl
theorem givenName_setSuffix (c : Contact) (s : QString) : (c.setSuffix s).givenName = c.givenName := by unfold Contact.setSuffix; split <;> rfl
theorem additionalName_setSuffix (c : Contact) (s : QString) : (c.setSuffix s).additionalName = c.additionalName := by unfold Contact.setSuffix; split <;> rfl
theorem prefix__setSuffix (c : Contact) (s : QString) : (c.setSuffix s).prefix_ = c.prefix_ := by unfold Contact.setSuffix; split <;> rfl
theorem suffix_setSuffix (c : Contact) (s : QString) : (c.setSuffix s).suffix = s := by
  unfold Contact.setSuffix; split
  · rename_i h; exact h.symm
  · rfl
theorem sortString_setSuffix (c : Contact) (s : QString) : (c.setSuffix s).sortString = c.sortString := by unfold Contact.setSuffix; split <;> rfl
theorem department_setSuffix (c : Contact) (s : QString) : (c.setSuffix s).department = c.department := by unfold Contact.setSuffix; split <;> rfl
theorem organizations_setSuffix (c : Contact) (s : QString) : (c.setSuffix s).organizations = c.organizations := by unfold Contact.setSuffix; split <;> rfl
theorem familyName_setSortString (c : Contact) (s : QString) : (c.setSortString s).familyName = c.familyName := by unfold Contact.setSortString; split <;> rfl
theorem givenName_setSortString (c : Contact) (s : QString) : (c.setSortString s).givenName = c.givenName := by unfold Contact.setSortString; split <;> rfl
theorem additionalName_setSortString (c : Contact) (s : QString) : (c.setSortString s).additionalName = c.additionalName := by unfold Contact.setSortString; split <;> rfl
theorem prefix__setSortString (c : Contact) (s : QString) : (c.setSortString s).prefix_ = c.prefix_ := by unfold Contact.setSortString; split <;> rfl
theorem suffix_setSortString (c : Contact) (s : QString) : (c.setSortString s).suffix = c.suffix := by unfold Contact.setSortString; split <;> rfl
theorem sortString_setSortString (c : Contact) (s : QString) : (c.setSortString s).sortString = s := by
  unfold Contact.setSortString; split
  · rename_i h; exact h.symm
  · rfl
theorem department_setSortString (c : Contact) (s : QString) : (c.setSortString s).department = c.department := by unfold Contact.setSortString; split <;> rfl
theorem organizations_setSortString (c : Contact) (s : QString) : (c.setSortString s).organizations = c.organizations := by unfold Contact.setSortString; split <;> rfl
theorem familyName_setDepartment (c : Contact) (s : QString) : (c.setDepartment s).familyName = c.familyName := by unfold Contact.setDepartment; split <;> rfl
theorem givenName_setDepartment (c : Contact) (s : QString) : (c.setDepartment s).givenName = c.givenName := by unfold Contact.setDepartment; split <;> rfl
theorem additionalName_setDepartment (c : Contact) (s : QString) : (c.setDepartment s).additionalName = c.additionalName := by unfold Contact.setDepartment; split <;> rfl
theorem prefix__setDepartment (c : Contact) (s : QString) : (c.setDepartment s).prefix_ = c.prefix_ := by unfold Contact.setDepartment; split <;> rfl
theorem suffix_setDepartment (c : Contact) (s : QString) : (c.setDepartment s).suffix = c.suffix := by unfold Contact.setDepartment; split <;> rfl
theorem sortString_setDepartment (c : Contact) (s : QString) : (c.setDepartment s).sortString = c.sortString := by unfold Contact.setDepartment; split <;> rfl
theorem department_setDepartment (c : Contact) (s : QString) : (c.setDepartment s).department = s := by
  unfold Contact.setDepartment; split
  · rename_i h; exact h.symm
  · rfl
theorem organizations_setDepartment (c : Contact) (s : QString) : (c.setDepartment s).organizations = c.organizations := by unfold Contact.setDepartment; split <;> rfl
theorem department_insertOrg (c : Contact) (t : ParamText) : (c.insertText .organization t).department = c.department := by unfold Contact.insertText; split <;> rfl
theorem sortString_insertOrg (c : Contact) (t : ParamText) : (c.insertText .organization t).sortString = c.sortString := by unfold Contact.insertText; split <;> rfl
theorem organizations_insertOrg (c : Contact) (t : ParamText) : (c.insertText .organization t).organizations = if t.isValid then c.organizations ++ [t] else c.organizations := by
  unfold Contact.insertText; split <;> rfl

section
variable (E : ToolEnv) (ids : IdKind → Nat → QString) (s0 : RState) (L : List VCardLine)

theorem readN_familyName (l : VCardLine) (c : Contact) : (readN l c).familyName = (valueComponent l 0).getD c.familyName := by
  unfold readN valueComponent valueText
  simp only [apply_ite Contact.familyName, familyName_setFamilyName, familyName_setGivenName, familyName_setAdditionalName, familyName_setPrefix, familyName_setSuffix, familyName_setSortString, familyName_setDepartment, ite_self]
  exact getD_part _ 0 _

theorem part_familyName : (L.foldl (readLine E ids) s0).c.familyName = ((named L [q! "n"]).filterMap (valueComponent · 0)).getLast?.getD s0.c.familyName := by
  refine part_some E ids s0 L (fun s => s.c.familyName) [(q! "n", .n)] (by decide +kernel) (valueComponent · 0) (by other_lines (fun s : RState => s.c.familyName)) ?_
  intro s l ht
  replace ht : tagOf l = .n := by simpa using ht
  simp only [readLine, ht]
  exact readN_familyName l s.c

theorem readN_givenName (l : VCardLine) (c : Contact) : (readN l c).givenName = (valueComponent l 1).getD c.givenName := by
  unfold readN valueComponent valueText
  simp only [apply_ite Contact.givenName, givenName_setFamilyName, givenName_setGivenName, givenName_setAdditionalName, givenName_setPrefix, givenName_setSuffix, givenName_setSortString, givenName_setDepartment, ite_self]
  exact getD_part _ 1 _

theorem part_givenName : (L.foldl (readLine E ids) s0).c.givenName = ((named L [q! "n"]).filterMap (valueComponent · 1)).getLast?.getD s0.c.givenName := by
  refine part_some E ids s0 L (fun s => s.c.givenName) [(q! "n", .n)] (by decide +kernel) (valueComponent · 1) (by other_lines (fun s : RState => s.c.givenName)) ?_
  intro s l ht
  replace ht : tagOf l = .n := by simpa using ht
  simp only [readLine, ht]
  exact readN_givenName l s.c

theorem readN_additionalName (l : VCardLine) (c : Contact) : (readN l c).additionalName = (valueComponent l 2).getD c.additionalName := by
  unfold readN valueComponent valueText
  simp only [apply_ite Contact.additionalName, additionalName_setFamilyName, additionalName_setGivenName, additionalName_setAdditionalName, additionalName_setPrefix, additionalName_setSuffix, additionalName_setSortString, additionalName_setDepartment, ite_self]
  exact getD_part _ 2 _

theorem part_additionalName : (L.foldl (readLine E ids) s0).c.additionalName = ((named L [q! "n"]).filterMap (valueComponent · 2)).getLast?.getD s0.c.additionalName := by
  refine part_some E ids s0 L (fun s => s.c.additionalName) [(q! "n", .n)] (by decide +kernel) (valueComponent · 2) (by other_lines (fun s : RState => s.c.additionalName)) ?_
  intro s l ht
  replace ht : tagOf l = .n := by simpa using ht
  simp only [readLine, ht]
  exact readN_additionalName l s.c

theorem readN_prefix_ (l : VCardLine) (c : Contact) : (readN l c).prefix_ = (valueComponent l 3).getD c.prefix_ := by
  unfold readN valueComponent valueText
  simp only [apply_ite Contact.prefix_, prefix__setFamilyName, prefix__setGivenName, prefix__setAdditionalName, prefix__setPrefix, prefix__setSuffix, prefix__setSortString, prefix__setDepartment, ite_self]
  exact getD_part _ 3 _

theorem part_prefix_ : (L.foldl (readLine E ids) s0).c.prefix_ = ((named L [q! "n"]).filterMap (valueComponent · 3)).getLast?.getD s0.c.prefix_ := by
  refine part_some E ids s0 L (fun s => s.c.prefix_) [(q! "n", .n)] (by decide +kernel) (valueComponent · 3) (by other_lines (fun s : RState => s.c.prefix_)) ?_
  intro s l ht
  replace ht : tagOf l = .n := by simpa using ht
  simp only [readLine, ht]
  exact readN_prefix_ l s.c

theorem readN_suffix (l : VCardLine) (c : Contact) : (readN l c).suffix = (valueComponent l 4).getD c.suffix := by
  unfold readN valueComponent valueText
  simp only [apply_ite Contact.suffix, suffix_setFamilyName, suffix_setGivenName, suffix_setAdditionalName, suffix_setPrefix, suffix_setSuffix, suffix_setSortString, suffix_setDepartment, ite_self]
  exact getD_part _ 4 _

theorem part_suffix : (L.foldl (readLine E ids) s0).c.suffix = ((named L [q! "n"]).filterMap (valueComponent · 4)).getLast?.getD s0.c.suffix := by
  refine part_some E ids s0 L (fun s => s.c.suffix) [(q! "n", .n)] (by decide +kernel) (valueComponent · 4) (by other_lines (fun s : RState => s.c.suffix)) ?_
  intro s l ht
  replace ht : tagOf l = .n := by simpa using ht
  simp only [readLine, ht]
  exact readN_suffix l s.c

theorem readOrg_department (l : VCardLine) (c : Contact) : (readOrg l c).department = (valueComponent l 1).getD c.department := by
  unfold readOrg valueComponent valueText
  simp only [apply_ite Contact.department, department_setDepartment, department_setSortString, department_insertOrg, ite_self]
  exact getD_part _ 1 _

theorem part_department : (L.foldl (readLine E ids) s0).c.department = ((named L [q! "org"]).filterMap (valueComponent · 1)).getLast?.getD s0.c.department := by
  refine part_some E ids s0 L (fun s => s.c.department) [(q! "org", .org)] (by decide +kernel) (valueComponent · 1) (by other_lines (fun s : RState => s.c.department)) ?_
  intro s l ht
  replace ht : tagOf l = .org := by simpa using ht
  simp only [readLine, ht]
  exact readOrg_department l s.c

theorem split_ne (sep : UInt16) (s : QString) : 0 < (splitString sep s).length := by
  unfold splitString
  suffices ∀ cur, 0 < (splitGo sep cur s).length from this []
  induction s with
  | nil => intro cur; simp [splitGo]
  | cons c t ih => intro cur; simp only [splitGo]; (repeat' split) <;> simp [ih]

theorem readOrg_organizations (l : VCardLine) (c : Contact) : (readOrg l c).organizations =
    if (valueComponent l 0).getD [] ≠ [] then c.organizations ++ [{ params := l.params, text := (valueComponent l 0).getD [] }] else c.organizations := by
  unfold readOrg valueComponent valueText
  simp only [apply_ite Contact.organizations, organizations_setDepartment, organizations_setSortString, organizations_insertOrg, ite_self]
  rw [if_pos (split_ne _ _)]
  simp [ParamText.isValid, List.getD_eq_getElem?_getD]

theorem part_organizations (h0 : s0.c.organizations = []) : (L.foldl (readLine E ids) s0).c.organizations =
    (((named L [q! "org"]).map fun l => { params := l.params, text := (valueComponent l 0).getD [] }).filter fun (t : ParamText) => decide (t.text ≠ [])) := by
  refine part_list E ids s0 L (fun s => s.c.organizations) [(q! "org", .org)] (by decide +kernel) _ _ (by other_lines (fun s : RState => s.c.organizations)) ?_ h0
  intro s l ht
  replace ht : tagOf l = .org := by simpa using ht
  simp only [readLine, ht, readOrg_organizations, decide_eq_true_eq]

theorem part_sortString : (L.foldl (readLine E ids) s0).c.sortString =
    ((named L [q! "n", q! "org", q! "sort-string"]).filterMap sortText).getLast?.getD s0.c.sortString := by
  refine part_some E ids s0 L (fun s => s.c.sortString) [(q! "n", .n), (q! "org", .org), (q! "sort-string", .sortString)] (by decide +kernel) sortText
    (by other_lines (fun s : RState => s.c.sortString)) ?_
  intro s l ht
  have hn := tagOf_named l (q! "n", .n) (by decide +kernel)
  have ho := tagOf_named l (q! "org", .org) (by decide +kernel)
  have hs := tagOf_named l (q! "sort-string", .sortString) (by decide +kernel)
  simp only [List.map_cons, List.map_nil, List.mem_cons, List.not_mem_nil, or_false] at ht
  unfold sortText
  rcases ht with ht | ht | ht
  · rw [(hn.1 ht).1, if_neg (by decide +kernel)]
    simp only [readLine, ht]
    unfold readN
    simp only [apply_ite Contact.sortString, sortString_setFamilyName, sortString_setGivenName, sortString_setAdditionalName, sortString_setPrefix, sortString_setSuffix,
      sortString_setSortString, ite_self, List.isEmpty_iff]
    split <;> rfl
  · rw [(ho.1 ht).1, if_neg (by decide +kernel)]
    simp only [readLine, ht]
    unfold readOrg
    simp only [apply_ite Contact.sortString, sortString_insertOrg, sortString_setDepartment, sortString_setSortString, ite_self, List.isEmpty_iff]
    split <;> rfl
  · rw [(hs.1 ht).1, if_pos rfl]
    simp only [readLine, ht]
    exact sortString_setSortString _ _

/-! ### lists -/

theorem part_nickNames (h0 : s0.c.nickNames = []) : (L.foldl (readLine E ids) s0).c.nickNames = ((named L [q! "nickname"]).map paramText).filter (fun t => decide (t.text ≠ [])) := by
  refine part_list E ids s0 L (fun s => s.c.nickNames) [(q! "nickname", .nickname)] (by decide +kernel) _ _ (by other_lines (fun s : RState => s.c.nickNames)) ?_ h0
  intro s l ht
  replace ht : tagOf l = .nickname := by simpa using ht
  simp only [readLine, ht, Contact.insertText, Contact.setTexts, Contact.texts, ParamText.isValid]
  by_cases h : l.value.toString = [] <;> simp [h, paramText, valueText]

theorem part_titles (h0 : s0.c.titles = []) : (L.foldl (readLine E ids) s0).c.titles = ((named L [q! "title"]).map paramText).filter (fun t => decide (t.text ≠ [])) := by
  refine part_list E ids s0 L (fun s => s.c.titles) [(q! "title", .title)] (by decide +kernel) _ _ (by other_lines (fun s : RState => s.c.titles)) ?_ h0
  intro s l ht
  replace ht : tagOf l = .title := by simpa using ht
  simp only [readLine, ht, Contact.insertText, Contact.setTexts, Contact.texts, ParamText.isValid]
  by_cases h : l.value.toString = [] <;> simp [h, paramText, valueText]

theorem part_roles (h0 : s0.c.roles = []) : (L.foldl (readLine E ids) s0).c.roles = ((named L [q! "role"]).map paramText).filter (fun t => decide (t.text ≠ [])) := by
  refine part_list E ids s0 L (fun s => s.c.roles) [(q! "role", .role)] (by decide +kernel) _ _ (by other_lines (fun s : RState => s.c.roles)) ?_ h0
  intro s l ht
  replace ht : tagOf l = .role := by simpa using ht
  simp only [readLine, ht, Contact.insertText, Contact.setTexts, Contact.texts, ParamText.isValid]
  by_cases h : l.value.toString = [] <;> simp [h, paramText, valueText]

theorem part_clientPidMaps (h0 : s0.c.clientPidMaps = []) : (L.foldl (readLine E ids) s0).c.clientPidMaps = ((named L [q! "clientpidmap"]).map paramText).filter (fun t => decide (t.text ≠ [])) := by
  refine part_list E ids s0 L (fun s => s.c.clientPidMaps) [(q! "clientpidmap", .clientpidmap)] (by decide +kernel) _ _ (by other_lines (fun s : RState => s.c.clientPidMaps)) ?_ h0
  intro s l ht
  replace ht : tagOf l = .clientpidmap := by simpa using ht
  simp only [readLine, ht, Contact.insertClientPidMap, ParamText.isValid]
  by_cases h : l.value.toString = [] <;> simp [h, paramText, valueText]

theorem part_extraUrls (h0 : s0.c.extraUrls = []) : (L.foldl (readLine E ids) s0).c.extraUrls = ((named L [q! "url"]).map (fun l => { params := l.params, url := E.urlOf (valueText l) })).filter (fun (u : ParamUrl) => E.urlValid u.url) := by
  refine part_list E ids s0 L (fun s => s.c.extraUrls) [(q! "url", .url)] (by decide +kernel) _ _ (by other_lines (fun s : RState => s.c.extraUrls)) ?_ h0
  intro s l ht
  replace ht : tagOf l = .url := by simpa using ht
  simp only [readLine, ht, Contact.insertExtraUrl, ParamUrl.isValidUrl]
  show (if E.urlValid (E.urlOf (valueText l)) = true then _ else _ : Contact).extraUrls = _
  split <;> rfl

theorem part_sources (h0 : s0.c.sources = []) : (L.foldl (readLine E ids) s0).c.sources = (named L [q! "source"]).map fun l => E.urlOf (valueText l) := by
  refine (part_list E ids s0 L (fun s => s.c.sources) [(q! "source", .source)] (by decide +kernel) (fun l => E.urlOf (valueText l)) (fun _ => true)
    (by other_lines (fun s : RState => s.c.sources)) ?_ h0).trans (by simp)
  intro s l ht
  replace ht : tagOf l = .source := by simpa using ht
  simp only [readLine, ht]
  rfl

theorem part_calendarUrls (h0 : s0.c.calendarUrls = []) : (L.foldl (readLine E ids) s0).c.calendarUrls =
    ((named L [q! "fburl", q! "caladruri", q! "caluri"]).map (calendarOf E)).filter fun u => E.urlValid u.url := by
  refine part_list E ids s0 L (fun s => s.c.calendarUrls) [(q! "fburl", .fburl), (q! "caladruri", .caladruri), (q! "caluri", .caluri)] (by decide +kernel) _ _
    (by other_lines (fun s : RState => s.c.calendarUrls)) ?_ h0
  intro s l ht
  have h1 := tagOf_named l (q! "fburl", .fburl) (by decide +kernel)
  have h2 := tagOf_named l (q! "caladruri", .caladruri) (by decide +kernel)
  have h3 := tagOf_named l (q! "caluri", .caluri) (by decide +kernel)
  simp only [List.map_cons, List.map_nil, List.mem_cons, List.not_mem_nil, or_false] at ht
  unfold calendarOf
  rcases ht with ht | ht | ht
  · rw [(h1.1 ht).1, if_pos rfl]
    simp only [readLine, ht, Contact.insertCalendarUrl, CalendarUrl.isValid]
    rfl
  · rw [(h2.1 ht).1]
    simp only [readLine, ht, Contact.insertCalendarUrl, CalendarUrl.isValid]
    rfl
  · rw [(h3.1 ht).1]
    simp only [readLine, ht, Contact.insertCalendarUrl, CalendarUrl.isValid]
    rfl

theorem part_members (h0 : s0.c.members = []) : (L.foldl (readLine E ids) s0).c.members = distinct ((named L [q! "member"]).map valueText) := by
  have := read_part E ids (fun s => s.c.members) [.member] (fun x l => if valueText l ∈ x then x else x ++ [valueText l]) (by other_lines (fun s : RState => s.c.members))
    (by
      intro s l ht
      replace ht : tagOf l = .member := by simpa using ht
      simp only [readLine, ht]
      rfl) L s0
  refine this.trans ?_
  rw [h0, show named L [q! "member"] = _ from named_eq_tags L [(q! "member", .member)] (by decide +kernel)]
  unfold distinct
  rw [List.foldl_map]
  congr 1
  funext x l
  split <;> rfl

theorem part_relationships (h0 : s0.c.relationships = []) : (L.foldl (readLine E ids) s0).c.relationships = distinct ((named L [q! "related"]).map paramText) := by
  have := read_part E ids (fun s => s.c.relationships) [.related] (fun x l => if paramText l ∈ x then x else x ++ [paramText l])
    (by other_lines (fun s : RState => s.c.relationships))
    (by
      intro s l ht
      replace ht : tagOf l = .related := by simpa using ht
      simp only [readLine, ht]
      rfl) L s0
  refine this.trans ?_
  rw [h0, show named L [q! "related"] = _ from named_eq_tags L [(q! "related", .related)] (by decide +kernel)]
  unfold distinct
  rw [List.foldl_map]
  rfl

theorem part_fieldGroups (h0 : s0.c.fieldGroups = []) : (L.foldl (readLine E ids) s0).c.fieldGroups = L.filterMap groupField := by
  have := read_part E ids (fun s => s.c.fieldGroups) [.fieldGroup]
    (fun x l => x ++ [{ params := l.params, fieldGroupName := l.group ++ q! "." ++ l.identifier, value := valueText l }])
    (by other_lines (fun s : RState => s.c.fieldGroups))
    (by
      intro s l ht
      replace ht : tagOf l = .fieldGroup := by simpa using ht
      have hv : ({ params := l.params, fieldGroupName := l.group ++ qc! '.' :: l.identifier, value := l.value.toString } : FieldGroup).isValid = true := by
        simp [FieldGroup.isValid]
      simp only [readLine, ht, Contact.insertFieldGroup]
      rw [if_pos hv]
      simp [valueText]) L s0
  refine this.trans ?_
  rw [h0, fold_flat, List.nil_append]
  clear this
  induction L with
  | nil => rfl
  | cons l L ih =>
    have hg := tagOf_group l
    by_cases h : tagOf l = .fieldGroup
    · rw [List.filter_cons_of_pos (by simpa using h), List.filterMap_cons_some (by unfold groupField; rw [if_pos (hg.1 h)]), List.flatMap_cons, ih]
      rfl
    · rw [List.filter_cons_of_neg (by simpa using h), List.filterMap_cons_none (by unfold groupField; rw [if_neg (fun e => h (hg.2 e))]), ih]

theorem part_changed : (L.foldl (readLine E ids) s0).c.changed = s0.c.changed := by
  have := read_part E ids (fun s => s.c.changed) [] (fun x _ => x) (by other_lines (fun s : RState => s.c.changed)) (by intro s l h; simp at h) L s0
  simpa using this

end
end KC
