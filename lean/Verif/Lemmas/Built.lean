import Verif.Spec.Built
import Verif.Props.C24
import Verif.Props.C25
import Verif.Props.C87
/-
  Contacts built by calls with arguments that a vCard can carry are `Readable`.
-/
namespace KC
open KC.Spec

/-- What holds of a contact built by fitting calls. -/
structure Built (E : ToolEnv) (v : Version) (c : Contact) : Prop extends Readable E v c where
  easyName : ∀ s ∈ c.nameParts, EasyText v s
  easyDepartment : EasyText v c.department
  easyOrganizations : ∀ t ∈ c.organizations, EntryFits v .organization t
  easyCategories : v ≠ .v2_1 → ∀ s ∈ c.categories, CategoryFits v s
  noLabels : v ≠ .v4_0 → ∀ a ∈ c.addresses, a.label = []

theorem easy_nil (v : Version) : EasyText v [] := ⟨⟨⟨[], rfl⟩, nofun, fun pre _ _ h => by cases pre <;> cases h⟩, nofun, fun _ u hu => by cases hu⟩

theorem coded_easy {E : Codecs} {v : Version} {s : QString} (h : EasyText v s) : CodedText E v s := by
  unfold CodedText
  rw [if_neg (fun x => x.2 (h.plain x.1))]
  exact h.safe

theorem easy_none (v : Version) : ∀ s ∈ ([[], [], [], [], []] : List QString), EasyText v s := by
  intro s hs
  have : s = [] := by revert s; decide
  rw [this]
  exact easy_nil v

theorem compound_easy {E : Codecs} {v : Version} {sep : UInt16} {l : List QString} (h : ∀ s ∈ l, EasyText v s) : Compound E v sep l where
  backslash := fun s hs => (h s (List.dropLast_subset _ hs)).last
  text := by
    rw [if_neg (fun ⟨hv, s, hs, hn⟩ => hn ((h s hs).plain hv))]
    exact fun s hs => (h s hs).safe

theorem compound_org {E : Codecs} {v : Version} {o d : QString} (ho : EasyText v o) (hd : EasyText v d) :
    Compound E v (qc! ';') (if d = [] then [o] else [o, d]) := by
  apply compound_easy
  split
  · intro s hs; rw [List.mem_singleton.1 hs]; exact ho
  · intro s hs
    simp only [List.mem_cons, List.not_mem_nil, or_false] at hs
    rcases hs with rfl | rfl
    · exact ho
    · exact hd

theorem mem_replaced {α : Type} {key : α → QString} {k : QString} {x y : α} {l : List α} (h : y ∈ replaceFirst key k x l) : y = x ∨ y ∈ l := by
  induction l with
  | nil => cases h
  | cons z t ih =>
    rw [replaceFirst] at h
    split at h
    · rcases List.mem_cons.1 h with h | h
      · exact .inl h
      · exact .inr (List.mem_cons_of_mem _ h)
    · rcases List.mem_cons.1 h with rfl | h
      · exact .inr (by simp)
      · rcases ih h with h | h
        · exact .inl h
        · exact .inr (List.mem_cons_of_mem _ h)

theorem mem_erased {α : Type} {key : α → QString} {k : QString} {y : α} {l : List α} (h : y ∈ eraseFirst key k l) : y ∈ l := by
  induction l with
  | nil => cases h
  | cons z t ih =>
    rw [eraseFirst] at h
    split at h
    · exact List.mem_cons_of_mem _ h
    · rcases List.mem_cons.1 h with rfl | h
      · simp
      · exact List.mem_cons_of_mem _ (ih h)

theorem ParamsOK.nil : ParamsOK [] := ⟨.nil, nofun, nofun, nofun⟩

/-- The parts of a name after a change of one of them. -/
theorem Built.ofName {E : ToolEnv} {v : Version} {c : Contact} (h : Built E v c) (f g a p s : QString) (e : Bool) (hs : ∀ x ∈ [f, g, a, p, s], EasyText v x) :
    Built E v { c with familyName := f, givenName := g, additionalName := a, prefix_ := p, suffix := s, empty := e } :=
  { h with nameParts := compound_easy hs, easyName := hs }

theorem Built.ite {E : ToolEnv} {v : Version} {c d : Contact} {p : Prop} [Decidable p] (h : Built E v c) (h' : Built E v d) : Built E v (if p then c else d) := by
  split
  · exact h
  · exact h'

theorem Built.new (E : ToolEnv) (v : Version) (u : QString) (hu : SafeText u ∧ u ≠ []) : Built E v (Contact.new u) where
  uid := hu
  formattedName := coded_easy (easy_nil v)
  note := coded_easy (easy_nil v)
  mailer := fun _ => coded_easy (easy_nil v)
  name := fun _ => coded_easy (easy_nil v)
  nameParts := compound_easy (easy_none v)
  sortString := fun _ => (easy_nil v).safe
  sortAs := fun _ h => absurd rfl h
  productId := fun _ => (easy_nil v).safe
  birthday := nofun
  revision := nofun
  deathDate := fun _ => nofun
  timeZone := nofun
  geo := nofun
  categories := fun _ => ⟨nofun, compound_easy nofun⟩
  addresses := nofun
  labels := fun _ => .nil
  phoneNumbers := nofun
  emails := ⟨nofun, .nil, nofun⟩
  organizations := nofun
  titles := nofun
  roles := nofun
  nickNames := fun _ => nofun
  relationships := ⟨nofun, .nil⟩
  langs := fun _ => ⟨nofun, .nil⟩
  clientPidMaps := fun _ => nofun
  members := fun _ => ⟨nofun, .nil⟩
  sources := nofun
  extraUrls := nofun
  impps := nofun
  calendarUrls := fun _ => nofun
  gender := fun _ => ⟨Nat.zero_le _, nofun, (easy_nil v).safe, asciiSafe_safe (s := [qc! ';']) (by decide)⟩
  kind := fun _ => (easy_nil v).safe
  keys := nofun
  pictures := by
    intro p hp
    have : p = {} := by simpa [Contact.new] using hp
    subst this
    have h : PictureOK E v {} := ⟨nofun, fun _ => ⟨(easy_nil v).safe, fun _ => by decide⟩⟩
    split
    · exact h
    · exact fun _ => h
  sounds := by
    intro s hs he
    have : s = {} := by simpa [Contact.new] using hs
    subst this
    exact ⟨nofun, fun _ => (easy_nil v).safe⟩
  fieldGroups := nofun
  customs := ⟨.nil, nofun⟩
  easyName := easy_none v
  easyDepartment := easy_nil v
  easyOrganizations := nofun
  easyCategories := fun _ => nofun
  noLabels := fun _ => nofun

/-! ### one call -/

section
variable {E : ToolEnv} {v : Version} {c : Contact}

private theorem step_emails (h : Built E v c) (l : List Email) (e : Bool) (hl : (∀ x ∈ l, EmailOK v x) ∧ (l.map (·.mail)).Nodup ∧ ∀ x ∈ l.tail, x.isPreferred = false) :
    Built E v { c with emails := l, empty := e } := { h with emails := hl }

private theorem step_addEmail (h : Built E v c) (e : Email) (he : EmailOK v e)
    (hp : e.isPreferred = true → ∀ x ∈ c.emails, x.mail ≠ e.mail → x.isPreferred = false) : Built E v (c.addEmail e) := by
  obtain ⟨h1, h2, h3⟩ := h.emails
  have hnd := emailStep_nodup c (.add e) h2
  simp only [EmailOp.apply] at hnd
  unfold Contact.addEmail at hnd ⊢
  cases hf : findFirst Email.mail e.mail c.emails with
  | some x =>
    rw [hf] at hnd
    simp only at hnd ⊢
    apply step_emails (e := c.empty) h
    refine ⟨?_, hnd, ?_⟩
    · intro y hy
      split at hy
      · rw [rotate_replace rfl (findFirst_some hf) h2] at hy
        rcases List.mem_cons.1 hy with rfl | hy
        · exact he
        · exact h1 y (List.mem_filter.1 hy).1
      · rcases mem_replaced hy with rfl | hy
        · exact he
        · exact h1 y hy
    · intro y hy
      split at hy
      · rename_i hpref
        rw [rotate_replace rfl (findFirst_some hf) h2, List.tail_cons] at hy
        exact hp hpref y (List.mem_filter.1 hy).1 (by simpa using (List.mem_filter.1 hy).2)
      · rename_i hpref
        have hpref : e.isPreferred = false := by simpa using hpref
        cases hc : c.emails with
        | nil => rw [hc] at hy; cases hy
        | cons z t =>
          rw [hc] at hy h3
          rw [replaceFirst] at hy
          split at hy
          · exact h3 y hy
          · rcases mem_replaced hy with rfl | hy
            · exact hpref
            · exact h3 y hy
  | none =>
    rw [hf] at hnd
    simp only at hnd ⊢
    apply step_emails (e := false) h
    refine ⟨?_, hnd, ?_⟩
    · intro y hy
      split at hy
      · rcases List.mem_cons.1 hy with rfl | hy
        · exact he
        · exact h1 y hy
      · rcases List.mem_append.1 hy with hy | hy
        · exact h1 y hy
        · rw [List.mem_singleton.1 hy]; exact he
    · intro y hy
      split at hy
      · rename_i hpref
        rw [List.tail_cons] at hy
        refine hp hpref y hy ?_
        intro hm
        exact findFirst_none.1 hf (List.mem_map.2 ⟨y, hy, hm⟩)
      · rename_i hpref
        have hpref : e.isPreferred = false := by simpa using hpref
        cases hc : c.emails with
        | nil => rw [hc] at hy; cases hy
        | cons z t =>
          rw [hc] at hy h3
          rcases List.mem_append.1 hy with hy | hy
          · exact h3 y hy
          · rw [List.mem_singleton.1 hy]; exact hpref

private theorem step_removeEmail (h : Built E v c) (m : QString) : Built E v (c.removeEmail m) := by
  obtain ⟨h1, h2, h3⟩ := h.emails
  have hnd := emailStep_nodup c (.remove m) h2
  refine step_emails (e := c.empty) h _ ⟨?_, hnd, ?_⟩
  · intro x hx
    rw [removeSkipping_eq_filter h2] at hx
    exact h1 x (List.mem_filter.1 hx).1
  · intro x hx
    rw [removeSkipping_eq_filter h2] at hx
    cases hc : c.emails with
    | nil => rw [hc] at hx; cases hx
    | cons y t =>
      rw [hc] at hx h3
      rw [List.filter_cons] at hx
      split at hx
      · exact h3 x (List.mem_filter.1 hx).1
      · exact h3 x (List.mem_filter.1 (List.mem_of_mem_tail hx)).1

private theorem step_addresses (h : Built E v c) (l : List Address) (e : Bool) (hl : ∀ a ∈ l, AddressFits E v a) :
    Built E v { c with addresses := l, empty := e } :=
  { h with
    addresses := fun a ha => (hl a ha).1
    labels := fun hv => List.pairwise_of_forall_mem_list fun _ _ b hb _ => (hl b hb).2 hv
    noLabels := fun hv a ha => (hl a ha).2 hv }

private theorem Built.addressFits (h : Built E v c) : ∀ a ∈ c.addresses, AddressFits E v a := fun a ha => ⟨h.addresses a ha, fun hv => h.noLabels hv a ha⟩

private theorem step_categories (h : Built E v c) (l : List QString) (e : Bool) (hl : v ≠ .v2_1 → ∀ s ∈ l, CategoryFits v s) :
    Built E v { c with categories := l, empty := e } :=
  { h with
    categories := fun hv => ⟨fun x => by
        have hx : l = [[]] := x
        exact (hl hv [] (by rw [hx]; simp)).2 rfl, compound_easy fun s hs => (hl hv s hs).1⟩
    easyCategories := hl }

private theorem step_pictures (h : Built E v c) (l p : Picture) (el ep : List Picture) (e : Bool) (hl : ∀ x ∈ l :: el ++ p :: ep, PictureFits E v x) :
    Built E v { c with logo := l, photo := p, extraLogos := el, extraPhotos := ep, empty := e } := { h with pictures := hl }

private theorem step_sounds (h : Built E v c) (s : Sound) (es : List Sound) (e : Bool) (hl : ∀ x ∈ s :: es, x.isEmpty = false → SoundOK v x) :
    Built E v { c with sound := s, extraSounds := es, empty := e } := { h with sounds := hl }

private theorem step_customs (h : Built E v c) (m : SMap QString) (e : Bool) (hs : Sorted m) (hm : ∀ p ∈ m, CustomOK E.toCodecs v p.1 p.2) :
    Built E v { c with customs := m, empty := e } :=
  { h with customs := ⟨(SMap.sorted_iff_keys.1 hs).imp fun {a b} h => (qlt_iff_less a b).1 h, hm⟩ }

private theorem Built.sorted (h : Built E v c) : Sorted c.customs := SMap.sorted_iff_keys.2 (h.customs.1.imp fun {a b} h => (qlt_iff_less a b).2 h)

private theorem step_texts (h : Built E v c) (k : TextList) (l : List ParamText) (hl : ∀ t ∈ l, EntryFits v k t) : Built E v (c.setTexts k l) := by
  cases k with
  | nickName => exact { h with nickNames := fun hv t ht => hl t ht hv }
  | title => exact { h with titles := hl }
  | role => exact { h with roles := hl }
  | organization =>
    exact { h with
      organizations := fun o ho => ⟨(hl o ho).1, (hl o ho).2.2, compound_org (hl o ho).2.1 h.easyDepartment, fun hv => ⟨(hl o ho).2.1.plain hv, h.easyDepartment.plain hv⟩⟩
      easyOrganizations := hl }

private theorem Built.entries (h : Built E v c) (k : TextList) : ∀ t ∈ c.texts k, EntryFits v k t := by
  cases k with
  | nickName => exact fun t ht hv => h.nickNames hv t ht
  | title => exact h.titles
  | role => exact h.roles
  | organization => exact h.easyOrganizations

private theorem mem_inserted {ν : Type} {m : SMap ν} {k : QString} {x : ν} {p : QString × ν} (h : p ∈ m.insertSorted k x) : p = (k, x) ∨ p ∈ m := by
  induction m with
  | nil => exact .inl (List.mem_singleton.1 h)
  | cons q t ih =>
    rw [SMap.insertSorted] at h
    split at h
    · rcases List.mem_cons.1 h with rfl | h
      · exact .inr (by simp)
      · exact (ih h).imp id (List.mem_cons_of_mem _)
    · rcases List.mem_cons.1 h with rfl | h
      · exact .inl rfl
      · exact .inr h

private theorem mem_modified {ν : Type} {m : SMap ν} {k : QString} {x : ν} {p : QString × ν} (h : p ∈ m.modify k fun _ => x) : p = (k, x) ∨ p ∈ m := by
  induction m with
  | nil => cases h
  | cons q t ih =>
    rw [SMap.modify] at h
    split at h
    · rename_i hk
      rcases List.mem_cons.1 h with rfl | h
      · exact .inl (by rw [hk])
      · exact .inr (List.mem_cons_of_mem _ h)
    · rcases List.mem_cons.1 h with rfl | h
      · exact .inr (by simp)
      · exact (ih h).imp id (List.mem_cons_of_mem _)

private theorem mem_sorted (m acc : SMap QString) {p : QString × QString} (h : p ∈ m.foldl (fun acc p => acc.insertSorted p.1 p.2) acc) : p ∈ acc ∨ p ∈ m := by
  induction m generalizing acc with
  | nil => exact .inl h
  | cons q t ih =>
    rcases ih _ h with h | h
    · rcases mem_inserted h with rfl | h
      · exact .inr (by simp)
      · exact .inl h
    · exact .inr (List.mem_cons_of_mem _ h)

private theorem indexOf_split {α : Type} [DecidableEq α] {x : α} {l : List α} {i : Nat} (h : indexOf? x l = some i) :
    l = l.take i ++ x :: l.drop (i + 1) ∧ x ∉ l.take i := by
  induction l generalizing i with
  | nil => cases h
  | cons a t ih =>
    rw [indexOf?] at h
    split at h
    · rename_i ha
      cases h
      subst ha
      simp
    · rename_i ha
      obtain ⟨j, hj, rfl⟩ := Option.map_eq_some_iff.1 h
      obtain ⟨h1, h2⟩ := ih hj
      refine ⟨by rw [List.take_succ_cons, List.drop_succ_cons, List.cons_append, ← h1], ?_⟩
      rw [List.take_succ_cons]
      intro hx
      rcases List.mem_cons.1 hx with hx | hx
      · exact ha hx.symm
      · exact h2 hx

private theorem mem_loop (l : List QString) (acc : SMap QString) {p : QString × QString} (h : p ∈ setCustomsLoop acc l) :
    p ∈ acc ∨ ∃ s ∈ l, s = p.1 ++ qc! ':' :: p.2 ∧ qc! ':' ∉ p.1 := by
  induction l generalizing acc with
  | nil => exact .inl h
  | cons s t ih =>
    have up : (p ∈ acc ∨ ∃ s ∈ t, s = p.1 ++ qc! ':' :: p.2 ∧ qc! ':' ∉ p.1) → p ∈ acc ∨ ∃ s' ∈ s :: t, s' = p.1 ++ qc! ':' :: p.2 ∧ qc! ':' ∉ p.1 :=
      fun h => h.imp id fun ⟨x, hx, h⟩ => ⟨x, List.mem_cons_of_mem _ hx, h⟩
    simp only [setCustomsLoop] at h
    split at h
    · exact up (ih acc h)
    · rename_i i hi
      split at h
      · exact up (ih acc h)
      · rcases ih _ h with h | ⟨x, hx, h⟩
        · rcases List.mem_append.1 h with h | h
          · exact .inl h
          · rw [List.mem_singleton.1 h]
            exact .inr ⟨s, by simp, indexOf_split hi⟩
        · exact .inr ⟨x, List.mem_cons_of_mem _ hx, h⟩

private theorem mem_snoc {α : Type} {P : α → Prop} {l : List α} {x : α} (hl : ∀ y ∈ l, P y) (hx : P x) : ∀ y ∈ l ++ [x], P y := by
  intro y hy
  rcases List.mem_append.1 hy with hy | hy
  · exact hl y hy
  · rw [List.mem_singleton.1 hy]; exact hx

private theorem nodup_snoc {α : Type} {l : List α} {x : α} (hl : l.Nodup) (hx : x ∉ l) : (l ++ [x]).Nodup := by
  rw [List.nodup_append]
  exact ⟨hl, by simp, fun a ha b hb e => hx (by rw [← List.mem_singleton.1 hb, ← e]; exact ha)⟩

private theorem step_insertCustom (h : Built E v c) (app name value : QString)
    (hf : app ≠ [] → name ≠ [] → value ≠ [] → CustomOK E.toCodecs v (qualifiedName app name) value) : Built E v (c.insertCustom app name value) := by
  have hs := customStep_sorted c (.insert app name value) h.sorted
  simp only [CustomOp.apply] at hs
  unfold Contact.insertCustom at hs ⊢
  split
  · exact h
  · rename_i he
    rw [if_neg he] at hs
    simp only [Bool.or_eq_true, List.isEmpty_iff, not_or] at he
    have hok := hf he.2 he.1.2 he.1.1
    simp only at hs ⊢
    split
    · rename_i x hx
      rw [hx] at hs
      refine step_customs (e := false) h _ hs fun p hp => ?_
      rcases mem_modified hp with rfl | hp
      · exact hok
      · exact h.customs.2 p hp
    · rename_i hx
      rw [hx] at hs
      refine step_customs (e := false) h _ hs fun p hp => ?_
      rcases mem_inserted hp with rfl | hp
      · exact hok
      · exact h.customs.2 p hp

private theorem step_removeCustom (h : Built E v c) (app name : QString) : Built E v (c.removeCustom app name) :=
  step_customs (e := c.empty) h _ (customStep_sorted c (.remove app name) h.sorted) fun p hp => h.customs.2 p (eraseFirst_sublist.subset hp)

private theorem step_setCustoms (h : Built E v c) (l : List QString)
    (hl : ∀ s ∈ l, ∀ name value, s = name ++ qc! ':' :: value → qc! ':' ∉ name → CustomOK E.toCodecs v name value) : Built E v (c.setCustoms l) := by
  refine step_customs (e := false) h _ (after_sorted E.toQtEnv c (.customs l) h.sorted) fun p hp => ?_
  rcases mem_sorted _ _ hp with hp | hp
  · cases hp
  · rcases mem_loop _ _ hp with hp | ⟨s, hs, h1, h2⟩
    · cases hp
    · exact hl s hs _ _ h1 h2

private theorem step_insertText (h : Built E v c) (k : TextList) (t : ParamText) (ht : t.isValid = true → EntryFits v k t) : Built E v (c.insertText k t) := by
  unfold Contact.insertText
  split
  · rename_i hv
    exact step_texts h k _ (mem_snoc (h.entries k) (ht hv))
  · exact h

private theorem EntryFits.retext {k : TextList} {t : ParamText} {s : QString} (h : EntryFits v k t) (hs : EntryFits v k { text := s }) : EntryFits v k { t with text := s } := by
  cases k with
  | nickName => exact fun hv => ⟨(hs hv).text, (h hv).params⟩
  | title => exact ⟨⟨hs.1.text, h.1.params⟩, hs.2⟩
  | role => exact ⟨⟨hs.1.text, h.1.params⟩, hs.2⟩
  | organization => exact ⟨⟨hs.1.text, h.1.params⟩, hs.2.1, h.2.2⟩

private theorem step_setText (h : Built E v c) (k : TextList) (s : QString) (hf : (s = [] → c.texts k = []) ∧ (s ≠ [] → EntryFits v k { text := s })) :
    Built E v (c.setText k s) := by
  unfold Contact.setText
  by_cases hs : s = []
  · rw [hf.1 hs]
    exact step_insertText h k _ (fun hv => by rw [hs] at hv; cases hv)
  · have he := hf.2 hs
    split
    · apply step_texts h k
      have hm := h.entries k
      cases hc : c.texts k with
      | nil =>
        intro t ht
        rw [setFirstText.eq_def] at ht
        simp only at ht
        split at ht
        · cases ht
        · rw [List.mem_singleton.1 ht]; exact he
      | cons t r =>
        rw [hc] at hm
        intro y hy
        rcases List.mem_cons.1 hy with rfl | hy
        · exact EntryFits.retext (hm t (by simp)) he
        · exact hm y (List.mem_cons_of_mem _ hy)
    · exact step_insertText h k _ fun _ => he

private theorem step_langs (h : Built E v c) (l : List ParamText) (e : Bool) (hl : v = .v4_0 → (∀ t ∈ l, TextOK t ∧ simplified t.text ≠ []) ∧ (l.map (·.text)).Nodup) :
    Built E v { c with langs := l, empty := e } := { h with langs := hl }

private theorem step_insertLang (h : Built E v c) (t : ParamText) (ht : v = .v4_0 → simplified t.text ≠ [] → TextOK t) : Built E v (c.insertLang t) := by
  unfold Contact.insertLang
  split
  · exact h
  · rename_i he
    have he : simplified t.text ≠ [] := by simpa using he
    split
    · rename_i x hx
      refine step_langs (e := false) h _ fun hv => ?_
      obtain ⟨h1, h2⟩ := h.langs hv
      have hxm := (findFirst_key hx).symm
      refine ⟨fun y hy => ?_, ?_⟩
      · rcases mem_replaced hy with rfl | hy
        · exact ⟨⟨(h1 x hxm.1).1.text, (ht hv he).params⟩, (h1 x hxm.1).2⟩
        · exact h1 y hy
      · rw [map_replaceFirst (by exact hxm.2)]
        exact h2
    · rename_i hx
      refine step_langs (e := false) h _ fun hv => ?_
      obtain ⟨h1, h2⟩ := h.langs hv
      refine ⟨mem_snoc h1 ⟨ht hv he, he⟩, ?_⟩
      rw [List.map_append]
      exact nodup_snoc h2 (findFirst_none.1 hx)

private theorem step_removeLang (h : Built E v c) (s : QString) : Built E v (c.removeLang s) := by
  refine step_langs (e := c.empty) h _ fun hv => ?_
  obtain ⟨h1, h2⟩ := h.langs hv
  rw [removeSkipping_eq_filter h2]
  exact ⟨fun t ht => h1 t (List.mem_filter.1 ht).1, nodup_filter_map h2⟩

/-- A call with fitting arguments leaves a built contact a built contact. -/
theorem Built.step (h : Built E v c) (op : Op) (hf : CallFits E v c op) : Built E v (c.apply E.toQtEnv op) := by
  have hn := h.easyName
  simp only [Contact.nameParts, List.mem_cons, List.not_mem_nil, or_false, forall_eq_or_imp, forall_eq] at hn
  obtain ⟨n1, n2, n3, n4, n5⟩ := hn
  have five : ∀ {a b d e f : QString}, EasyText v a → EasyText v b → EasyText v d → EasyText v e → EasyText v f → ∀ x ∈ [a, b, d, e, f], EasyText v x := by
    intro a b d e f h1 h2 h3 h4 h5 x hx
    simp only [List.mem_cons, List.not_mem_nil, or_false] at hx
    rcases hx with rfl | rfl | rfl | rfl | rfl <;> assumption
  have hp := h.pictures
  have hps := h.sounds
  cases op with
  | uid s => exact h.ite { h with uid := hf }
  | name s => exact h.ite { h with name := hf }
  | kind s => exact h.ite { h with kind := hf }
  | formattedName s => exact h.ite { h with formattedName := hf }
  | familyName s => exact h.ite (h.ofName s c.givenName c.additionalName c.prefix_ c.suffix false (five hf n2 n3 n4 n5))
  | givenName s => exact h.ite (h.ofName c.familyName s c.additionalName c.prefix_ c.suffix false (five n1 hf n3 n4 n5))
  | additionalName s => exact h.ite (h.ofName c.familyName c.givenName s c.prefix_ c.suffix false (five n1 n2 hf n4 n5))
  | prefix_ s => exact h.ite (h.ofName c.familyName c.givenName c.additionalName s c.suffix false (five n1 n2 n3 hf n5))
  | suffix s => exact h.ite (h.ofName c.familyName c.givenName c.additionalName c.prefix_ s false (five n1 n2 n3 n4 hf))
  | mailer s => exact h.ite { h with mailer := hf }
  | department s =>
    exact h.ite { h with
      organizations := fun o ho =>
        have g := h.easyOrganizations o ho
        ⟨g.1, g.2.2, compound_org g.2.1 hf, fun hv => ⟨g.2.1.plain hv, hf.plain hv⟩⟩
      easyDepartment := hf }
  | note s => exact h.ite { h with note := hf }
  | productId s => exact h.ite { h with productId := hf }
  | sortString s => exact h.ite { h with sortString := hf.1, sortAs := hf.2 }
  | secrecy s => exact h.ite { h with }
  | gender g => exact h.ite { h with gender := hf }
  | timeZone t => exact h.ite { h with timeZone := hf }
  | geo g => exact h.ite { h with geo := hf }
  | logo p =>
    refine h.ite (step_pictures h p c.photo c.extraLogos c.extraPhotos false fun x hx => ?_)
    rcases List.mem_cons.1 hx with rfl | hx
    · exact hf
    · exact hp x (List.mem_cons_of_mem _ hx)
  | photo p =>
    refine h.ite (step_pictures h c.logo p c.extraLogos c.extraPhotos false fun x hx => ?_)
    rcases List.mem_append.1 hx with hx | hx
    · exact hp x (List.mem_append_left _ hx)
    · rcases List.mem_cons.1 hx with rfl | hx
      · exact hf
      · exact hp x (List.mem_append_right _ (List.mem_cons_of_mem _ hx))
  | sound s =>
    refine h.ite (step_sounds h s c.extraSounds false fun x hx => ?_)
    rcases List.mem_cons.1 hx with rfl | hx
    · exact hf
    · exact hps x (List.mem_cons_of_mem _ hx)
  | revision d => exact h.ite { h with revision := hf }
  | deathDate d => exact h.ite { h with deathDate := hf }
  | birthday d w =>
    refine h.ite { h with birthday := ?_ }
    intro x hx
    cases w with
    | true => exact ⟨(hf x hx).1, fun _ => (hf x hx).2 rfl⟩
    | false =>
      cases d with
      | none => cases hx
      | some y =>
        cases hx
        exact ⟨(hf y rfl).1, nofun⟩
  | birthdayDate d =>
    refine h.ite { h with birthday := ?_ }
    intro x hx
    cases d with
    | none => cases hx
    | some y =>
      cases hx
      exact ⟨hf y rfl, nofun⟩
  | insertExtraSound s =>
    refine step_sounds h c.sound _ false fun x hx => ?_
    rcases List.mem_cons.1 hx with rfl | hx
    · exact hps _ (by simp)
    · exact mem_snoc (fun y hy => hps y (List.mem_cons_of_mem _ hy)) hf x hx
  | insertExtraPhoto p =>
    refine step_pictures h c.logo c.photo c.extraLogos _ false fun x hx => ?_
    rcases List.mem_append.1 hx with hx | hx
    · exact hp x (List.mem_append_left _ hx)
    · rcases List.mem_cons.1 hx with rfl | hx
      · exact hp _ (List.mem_append_right _ (by simp))
      · exact mem_snoc (P := PictureFits E v) (fun y hy => hp y (List.mem_append_right _ (List.mem_cons_of_mem _ hy))) hf x hx
  | insertExtraLogo p =>
    refine step_pictures h c.logo c.photo _ c.extraPhotos false fun x hx => ?_
    rcases List.mem_append.1 hx with hx | hx
    · rcases List.mem_cons.1 hx with rfl | hx
      · exact hp _ (by simp)
      · exact mem_snoc (P := PictureFits E v) (fun y hy => hp y (List.mem_append_left _ (List.mem_cons_of_mem _ hy))) hf x hx
    · exact hp x (List.mem_append_right _ hx)
  | extraSounds l =>
    refine step_sounds h c.sound l false fun x hx => ?_
    rcases List.mem_cons.1 hx with rfl | hx
    · exact hps _ (by simp)
    · exact hf x hx
  | extraPhotos l =>
    refine step_pictures h c.logo c.photo c.extraLogos l false fun x hx => ?_
    rcases List.mem_append.1 hx with hx | hx
    · exact hp x (List.mem_append_left _ hx)
    · rcases List.mem_cons.1 hx with rfl | hx
      · exact hp _ (List.mem_append_right _ (by simp))
      · exact hf x hx
  | extraLogos l =>
    refine step_pictures h c.logo c.photo l c.extraPhotos false fun x hx => ?_
    rcases List.mem_append.1 hx with hx | hx
    · rcases List.mem_cons.1 hx with rfl | hx
      · exact hp _ (by simp)
      · exact hf x hx
    · exact hp x (List.mem_append_right _ hx)
  | insertExtraUrl u =>
    show Built E v (if _ then _ else _)
    split
    · rename_i hv
      exact { h with extraUrls := mem_snoc h.extraUrls ⟨(hf hv).1, (hf hv).2, hv⟩ }
    · exact h
  | extraUrls l => exact { h with extraUrls := fun u hu => ⟨(hf u hu).2.1, (hf u hu).2.2, (hf u hu).1⟩ }
  | url u =>
    show Built E v (if _ then _ else _)
    split
    · rename_i hv
      exact { h with extraUrls := mem_snoc h.extraUrls ⟨hf hv, .nil, hv⟩ }
    · exact h
  | insertSourceUrl u => exact { h with sources := mem_snoc h.sources hf }
  | sources l => exact { h with sources := hf }
  | fieldGroups l => exact { h with fieldGroups := hf }
  | insertFieldGroup g =>
    show Built E v (if _ then _ else _)
    split
    · rename_i hv
      exact { h with fieldGroups := mem_snoc h.fieldGroups (hf hv) }
    · exact h
  | clientPidMaps l => exact { h with clientPidMaps := hf }
  | insertClientPidMap t =>
    show Built E v (if _ then _ else _)
    split
    · rename_i hv
      exact { h with clientPidMaps := fun h4 => mem_snoc (h.clientPidMaps h4) (hf h4 hv) }
    · exact h
  | insertImpp u =>
    show Built E v (if _ then _ else _)
    split
    · rename_i hv
      have hsc : E.urlScheme u.url ≠ [] := by
        simp only [ParamUrl.isValidImpp, Bool.and_eq_true, Bool.not_eq_true', List.isEmpty_eq_false_iff] at hv
        exact hv.2
      exact { h with impps := mem_snoc h.impps ⟨(hf hv).1, (hf hv).2.1, (hf hv).2.2, hsc⟩ }
    · exact h
  | impps l => exact { h with impps := fun u hu => ⟨(hf u hu).1.1, (hf u hu).1.2.1, (hf u hu).1.2.2, (hf u hu).2⟩ }
  | insertCalendarUrl u =>
    refine { h with calendarUrls := ?_ }
    intro h4
    simp only [Contact.apply, Contact.insertCalendarUrl]
    split
    · rename_i hv
      exact mem_snoc (h.calendarUrls h4) ⟨(hf h4 hv).1, hv, (hf h4 hv).2⟩
    · exact h.calendarUrls h4
  | addEmail e => exact step_addEmail h e hf.1 hf.2
  | removeEmail m => exact step_removeEmail h m
  | setEmails l =>
    refine step_emails h _ false ⟨?_, ?_, ?_⟩
    · intro x hx
      obtain ⟨m, hm, rfl⟩ := List.mem_map.1 hx
      exact ⟨hf.2 m hm, .nil, nofun⟩
    · rw [List.map_map]
      simpa [Function.comp_def] using hf.1
    · intro x hx
      obtain ⟨m, hm, rfl⟩ := List.mem_map.1 (List.mem_of_mem_tail hx)
      rfl
  | setEmailList l => exact step_emails h _ false hf
  | insertLang t => exact step_insertLang h t hf
  | removeLang s => exact step_removeLang h s
  | langs l => exact step_langs h l false hf
  | insertPhoneNumber p =>
    show Built E v (c.insertPhoneNumber p)
    unfold Contact.insertPhoneNumber
    split
    · refine { h with phoneNumbers := ?_ }
      intro y hy
      rcases mem_replaced hy with rfl | hy
      · exact hf
      · exact h.phoneNumbers y hy
    · refine { h with phoneNumbers := ?_ }
      intro y hy
      simp only at hy
      split at hy
      · exact h.phoneNumbers y hy
      · exact mem_snoc h.phoneNumbers hf y hy
  | removePhoneNumber p => exact { h with phoneNumbers := fun y hy => h.phoneNumbers y (mem_erased hy) }
  | phoneNumbers l => exact { h with phoneNumbers := hf }
  | insertKey k =>
    show Built E v (c.insertKey k)
    unfold Contact.insertKey
    split
    · refine { h with keys := ?_ }
      intro y hy
      rcases mem_replaced hy with rfl | hy
      · exact hf
      · exact h.keys y hy
    · exact { h with keys := mem_snoc h.keys hf }
  | removeKey k => exact { h with keys := fun y hy => h.keys y (List.mem_filter.1 hy).1 }
  | keys l => exact { h with keys := hf }
  | insertAddress a =>
    show Built E v (if _ then _ else _)
    split
    · exact h
    · rename_i he
      have he : a.empty = false := by simpa using he
      split
      · refine step_addresses h _ false fun y hy => ?_
        rcases mem_replaced hy with rfl | hy
        · exact hf he
        · exact h.addressFits y hy
      · exact step_addresses h _ false (mem_snoc h.addressFits (hf he))
  | removeAddress a => exact step_addresses h _ c.empty fun y hy => h.addressFits y (mem_erased hy)
  | addresses l => exact step_addresses h _ false hf
  | insertCategory s =>
    refine step_categories h _ false fun hv => ?_
    split
    · exact h.easyCategories hv
    · exact mem_snoc (h.easyCategories hv) (hf hv)
  | removeCategory s =>
    show Built E v (if _ then _ else _)
    split
    · exact step_categories h _ c.empty fun hv x hx => h.easyCategories hv x (List.mem_filter.1 hx).1
    · exact h
  | categories l => exact step_categories h _ false hf
  | insertMember s =>
    refine { h with members := ?_ }
    intro h4
    obtain ⟨h1, h2⟩ := h.members h4
    simp only [Contact.apply, Contact.insertMember]
    split
    · exact ⟨h1, h2⟩
    · rename_i hm
      exact ⟨mem_snoc h1 (hf h4), nodup_snoc h2 hm⟩
  | members l => exact { h with members := hf }
  | insertRelationship t =>
    refine { h with relationships := ?_ }
    obtain ⟨h1, h2⟩ := h.relationships
    simp only [Contact.apply, Contact.insertRelationship]
    split
    · exact ⟨h1, h2⟩
    · rename_i hm
      exact ⟨mem_snoc h1 hf, nodup_snoc h2 hm⟩
  | relationships l => exact { h with relationships := hf }
  | insertCustom app name value => exact step_insertCustom h app name value hf
  | removeCustom app name => exact step_removeCustom h app name
  | customs l => exact step_setCustoms h l hf
  | namedCustom field value =>
    show Built E v (if _ then _ else _)
    split
    · exact step_insertCustom h _ _ _ fun _ h1 h2 => hf h1 h2
    · exact step_removeCustom h _ _
  | text k s => exact step_setText h k s hf
  | insertText k t => exact step_insertText h k t hf
  | texts k l => exact step_texts h k l hf
  | changed b => exact { h with }

end

end KC
