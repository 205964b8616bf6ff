import Verif.Lemmas.LineSwap
/- Helper lemmas for C114: what a line does to a field depends on that field only. -/
namespace KC
open Spec

theorem apply_sameIn (E : QtEnv) (c d : Contact) (op : Op) {f : Field} (h : SameIn c d f) : SameIn (c.apply E op) (d.apply E op) f := by
  by_cases hf : f = fieldOf op
  · subst hf
    exact (apply_local E c d op h).1
  · exact sameIn_trans (apply_other E c op hf) (sameIn_trans h (sameIn_symm (apply_other E d op hf)))

theorem applyAll_sameIn (E : QtEnv) (c d : Contact) (ops : List Op) {f : Field} (h : SameIn c d f) : SameIn (applyAll E c ops) (applyAll E d ops) f := by
  induction ops generalizing c d with
  | nil => exact h
  | cons op ops ih => exact ih _ _ (apply_sameIn E c d op h)

/-- The field together with the one that decides where its entries go: further logos, photos and sounds are those read when there is one already. -/
def withCompanion : Field → List Field
  | .extraLogos => [.logo, .extraLogos]
  | .extraPhotos => [.photo, .extraPhotos]
  | .extraSounds => [.sound, .extraSounds]
  | f => [f]

theorem mem_withCompanion (f : Field) : f ∈ withCompanion f := by cases f <;> simp [withCompanion]

/-- two states of reading agree on some fields -/
structure Agree (F : List Field) (s t : RState) : Prop where
  fields : ∀ f ∈ F, SameIn s.c t.c f
  addresses : Field.addresses ∈ F → s.addresses = t.addresses
  phones : Field.phoneNumbers ∈ F → s.phones = t.phones
  keys : Field.keys ∈ F → s.keys = t.keys

theorem Agree.refl (F : List Field) (s : RState) : Agree F s s := ⟨fun f _ => sameIn_refl _ f, fun _ => rfl, fun _ => rfl, fun _ => rfl⟩

theorem Agree.symm {F : List Field} {s t : RState} (h : Agree F s t) : Agree F t s :=
  ⟨fun f hf => sameIn_symm (h.fields f hf), fun hf => (h.addresses hf).symm, fun hf => (h.phones hf).symm, fun hf => (h.keys hf).symm⟩

theorem Agree.trans {F : List Field} {s t u : RState} (h : Agree F s t) (h' : Agree F t u) : Agree F s u :=
  ⟨fun f hf => sameIn_trans (h.fields f hf) (h'.fields f hf), fun hf => (h.addresses hf).trans (h'.addresses hf),
    fun hf => (h.phones hf).trans (h'.phones hf), fun hf => (h.keys hf).trans (h'.keys hf)⟩

/-- a line about other fields -/
theorem readLine_agree_other (E : ToolEnv) (ids : IdKind → Nat → QString) (F : List Field) (s : RState) (l : VCardLine) (h : ∀ f ∈ F, f ∉ lineFields l) :
    Agree F (readLine E ids s l) s := by
  rw [readLine_calls]
  refine ⟨fun f hf => applyAll_other _ _ _ fun a ha e => h f hf (e ▸ lineCalls_fields E ids s l a ha), fun hf => ?_, fun hf => ?_, fun hf => ?_⟩
  · simp only; rw [addressIds_none s l (h _ hf)]; rfl
  · have : tagOf l ≠ .tel := fun ht => h _ hf (by simp [lineFields, tagFields, ht])
    simp [this]
  · have : tagOf l ≠ .key := fun ht => h _ hf (by simp [lineFields, tagFields, ht])
    simp [this]

/-- a line about one of the fields makes the same calls -/
theorem lineCalls_agree (E : ToolEnv) (ids : IdKind → Nat → QString) (f : Field) (s t : RState) (l : VCardLine) (h : Agree (withCompanion f) s t)
    (hl : ∃ g ∈ withCompanion f, g ∈ lineFields l) : lineCalls E ids s l = lineCalls E ids t l ∧ addressIds s l = addressIds t l := by
  obtain ⟨g, hg, hgl⟩ := hl
  unfold lineFields at hgl
  unfold lineCalls addressIds
  cases ht : tagOf l with
  | adr =>
    simp only [ht, tagFields, List.mem_singleton] at hgl
    subst hgl
    rw [h.addresses hg]; simp
  | tel =>
    simp only [ht, tagFields, List.mem_singleton] at hgl
    subst hgl
    rw [h.phones hg]; simp
  | key =>
    simp only [ht, tagFields, List.mem_singleton] at hgl
    subst hgl
    rw [h.keys hg]; simp
  | label =>
    simp only [ht, tagFields, List.mem_singleton] at hgl
    subst hgl
    have : s.c.addresses = t.c.addresses := h.fields _ hg
    rw [h.addresses hg, this]
    simp
  | logo =>
    have hm : Field.logo ∈ withCompanion f := by
      simp only [ht, tagFields, List.mem_cons, List.not_mem_nil, or_false] at hgl
      rcases hgl with rfl | rfl
      · exact hg
      · cases f <;> simp [withCompanion] at hg ⊢
    have : s.c.logo = t.c.logo := h.fields _ hm
    rw [this]
    simp
  | photo =>
    have hm : Field.photo ∈ withCompanion f := by
      simp only [ht, tagFields, List.mem_cons, List.not_mem_nil, or_false] at hgl
      rcases hgl with rfl | rfl
      · exact hg
      · cases f <;> simp [withCompanion] at hg ⊢
    have : s.c.photo = t.c.photo := h.fields _ hm
    rw [this]
    simp
  | sound =>
    have hm : Field.sound ∈ withCompanion f := by
      simp only [ht, tagFields, List.mem_cons, List.not_mem_nil, or_false] at hgl
      rcases hgl with rfl | rfl
      · exact hg
      · cases f <;> simp [withCompanion] at hg ⊢
    have : s.c.sound = t.c.sound := h.fields _ hm
    rw [this]
    simp
  | _ => simp

theorem readLine_agree (E : ToolEnv) (ids : IdKind → Nat → QString) (f : Field) (s t : RState) (l : VCardLine) (h : Agree (withCompanion f) s t) :
    Agree (withCompanion f) (readLine E ids s l) (readLine E ids t l) := by
  by_cases hl : ∃ g ∈ withCompanion f, g ∈ lineFields l
  · obtain ⟨h1, h2⟩ := lineCalls_agree E ids f s t l h hl
    rw [readLine_calls, readLine_calls, h1, h2]
    exact ⟨fun g hg => applyAll_sameIn _ _ _ _ (h.fields g hg), fun hf => by simp only; rw [h.addresses hf], fun hf => by simp only; rw [h.phones hf],
      fun hf => by simp only; rw [h.keys hf]⟩
  · have ho : ∀ g ∈ withCompanion f, g ∉ lineFields l := fun g hg hgl => hl ⟨g, hg, hgl⟩
    exact (readLine_agree_other E ids _ s l ho).trans (h.trans (readLine_agree_other E ids _ t l ho).symm)

/-- lines about other fields may be left out -/
theorem fold_agree (E : ToolEnv) (ids : IdKind → Nat → QString) (f : Field) (P : VCardLine → Bool) (L : List VCardLine)
    (hP : ∀ l ∈ L, P l = false → ∀ g ∈ withCompanion f, g ∉ lineFields l) (s t : RState) (h : Agree (withCompanion f) s t) :
    Agree (withCompanion f) (L.foldl (readLine E ids) s) ((L.filter P).foldl (readLine E ids) t) := by
  induction L generalizing s t with
  | nil => exact h
  | cons l L ih =>
    have hL : ∀ x ∈ L, P x = false → ∀ g ∈ withCompanion f, g ∉ lineFields x := fun x hx => hP x (List.mem_cons_of_mem _ hx)
    rw [List.foldl_cons]
    cases hp : P l with
    | true =>
      rw [List.filter_cons_of_pos hp, List.foldl_cons]
      exact ih hL _ _ (readLine_agree E ids f s t l h)
    | false =>
      rw [List.filter_cons_of_neg (by simp [hp])]
      exact ih hL _ _ ((readLine_agree_other E ids _ s l (hP l (by simp) hp)).trans h)

/-- two cards with the same lines about a field -/
theorem cards_agree (E : ToolEnv) (ids : IdKind → Nat → QString) (f : Field) (A B : List VCardLine)
    (h : (A.filter fun l => decide (∃ g ∈ withCompanion f, g ∈ lineFields l)) = B.filter fun l => decide (∃ g ∈ withCompanion f, g ∈ lineFields l)) (s : RState) :
    Agree (withCompanion f) ((readingOrder (cardAfter A)).foldl (readLine E ids) s) ((readingOrder (cardAfter B)).foldl (readLine E ids) s) := by
  have hP : ∀ L : List VCardLine, ∀ l ∈ L, decide (∃ g ∈ withCompanion f, g ∈ lineFields l) = false → ∀ g ∈ withCompanion f, g ∉ lineFields l :=
    fun L l _ h g hg hgl => of_decide_eq_false h ⟨g, hg, hgl⟩
  have h1 := fold_agree E ids f _ (readingOrder (cardAfter A)) (hP _) s s (.refl _ s)
  have h2 := fold_agree E ids f _ (readingOrder (cardAfter B)) (hP _) s s (.refl _ s)
  rw [readingOrder_filter_any] at h1 h2
  rw [h] at h1
  exact h1.trans h2.symm

end KC
