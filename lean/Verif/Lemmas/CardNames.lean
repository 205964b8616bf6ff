import Verif.Spec.Versions
import Verif.Lemmas.SecNames
/-
  The names of the lines written for a contact, version by version.
-/
namespace KC
open KC.Spec

/-! ### the lines of a card -/

theorem perm_by_name (names : List QString) (hn : names.Nodup) (h : List VCardLine) (hall : ∀ l ∈ h, l.identifier ∈ names) :
    (names.flatMap fun n => h.filter fun l => decide (l.identifier = n)).Perm h := by
  induction names generalizing h with
  | nil =>
    cases h with
    | nil => exact List.Perm.refl _
    | cons l h => exact absurd (hall l (by simp)) (by simp)
  | cons n names ih =>
    rw [List.nodup_cons] at hn
    rw [List.flatMap_cons]
    have h1 := ih hn.2 (h.filter fun l => !decide (l.identifier = n)) (by
      intro l hl
      rw [List.mem_filter] at hl
      have := hall l hl.1
      rw [List.mem_cons] at this
      rcases this with e | e
      · rw [e] at hl; simp at hl
      · exact e)
    have h2 : (names.flatMap fun m => (h.filter fun l => !decide (l.identifier = n)).filter fun l => decide (l.identifier = m)) =
        names.flatMap fun m => h.filter fun l => decide (l.identifier = m) := by
      have gen : ∀ ms : List QString, (∀ m ∈ ms, m ≠ n) → (ms.flatMap fun m => (h.filter fun l => !decide (l.identifier = n)).filter fun l => decide (l.identifier = m)) =
          ms.flatMap fun m => h.filter fun l => decide (l.identifier = m) := by
        intro ms
        induction ms with
        | nil => intro _; rfl
        | cons m ms ih' =>
          intro hm
          rw [List.flatMap_cons, List.flatMap_cons, ih' fun x hx => hm x (by simp [hx]), List.filter_filter]
          congr 1
          apply List.filter_congr
          intro l _
          by_cases e : l.identifier = m
          · have := hm m (by simp)
            simp [e, this]
          · simp [e]
      exact gen names fun m hm e => hn.1 (e ▸ hm)
    rw [h2] at h1
    exact (h1.append_left _).trans (List.filter_append_perm (fun l => decide (l.identifier = n)) h)

theorem filter_named {S : List VCardLine} {m : QString} (h : Named S m) (n : QString) : S.filter (fun l => decide (l.identifier = n)) = if m = n then S else [] := by
  by_cases e : m = n
  · rw [if_pos e, List.filter_eq_self]
    intro l hl
    simp [h l hl, e]
  · rw [if_neg e, List.filter_eq_nil_iff]
    intro l hl
    simp [h l hl, e]

theorem picture_names (E : ToolEnv) (v : Version) (id : QString) (p : Picture) (extra : List Picture) :
    ∀ l ∈ pictureLines E v id p extra, l.identifier = id ∨ (v = .v4_0 ∧ id ++ q! ":data:image/" <+: l.identifier) := by
  have n : ∀ x, (createPicture E id x v).identifier = id := by
    intro x
    unfold createPicture
    simp only
    (repeat' split) <;> rfl
  have n4 : ∀ x, (createPicturev4 E id x).identifier = id ∨ id ++ q! ":data:image/" <+: (createPicturev4 E id x).identifier := by
    intro x
    unfold createPicturev4
    split
    · right
      refine ⟨x.type, ?_⟩
      show id ++ q! ":data:image/" ++ x.type = id ++ q! ":data" ++ q! ":image/" ++ x.type
      simp
    · left; rfl
  unfold pictureLines
  split
  · rename_i e
    intro l hl
    have : ∃ x, l = createPicturev4 E id x := by
      rcases List.mem_cons.1 hl with rfl | hl
      · exact ⟨p, rfl⟩
      · obtain ⟨x, _, rfl⟩ := List.mem_map.1 hl
        exact ⟨x, rfl⟩
    obtain ⟨x, rfl⟩ := this
    exact (n4 x).imp (fun h => h) fun h => ⟨e, h⟩
  · intro l hl
    left
    rcases List.mem_cons.1 hl with rfl | hl
    · exact n _
    · obtain ⟨x, _, rfl⟩ := List.mem_map.1 hl
      exact n _

theorem exportNames_x : ∀ p ∈ exportNames, q! "X-" <+: p.2 := by decide +kernel

theorem custom_names (E : ToolEnv) (v : Version) (ex : Bool) (c : Contact) :
    ∀ l ∈ customLines E v ex c, q! "X-" <+: l.identifier ∨ (v = .v4_0 ∧ (l.identifier = q! "ANNIVERSARY" ∨ l.identifier = q! "RELATED")) := by
  intro l hl
  obtain ⟨s, _, hl⟩ := List.mem_flatMap.1 hl
  unfold customLine at hl
  simp only at hl
  generalize (indexOf? (qc! ':') s).getD s.length = i at hl
  split at hl
  · cases hl
  · have hx : q! "X-" <+: (if ex = true then (renamed exportNames (q! "X-" ++ s.take i)).getD (q! "X-" ++ s.take i) else q! "X-" ++ s.take i) := by
      have h0 : q! "X-" <+: q! "X-" ++ s.take i := List.prefix_append _ _
      split
      · unfold renamed
        cases hf : exportNames.find? fun p => decide (p.1 = q! "X-" ++ s.take i) with
        | none => exact h0
        | some p => exact exportNames_x p (List.mem_of_find?_eq_some hf)
      · exact h0
    generalize (if ex = true then (renamed exportNames (q! "X-" ++ s.take i)).getD (q! "X-" ++ s.take i) else q! "X-" ++ s.take i) = name at hl hx
    split at hl
    · rename_i h
      rw [List.mem_singleton] at hl
      subst hl
      exact Or.inr ⟨by simp at h; exact h.2, Or.inl rfl⟩
    · split at hl
      · rename_i h
        rw [List.mem_singleton] at hl
        subst hl
        exact Or.inr ⟨by simp at h; exact h.2, Or.inr rfl⟩
      · rw [List.mem_singleton] at hl
        subst hl
        left
        rw [id_encoded]
        exact hx

/-- what is not written in a version -/
theorem absent (E : ToolEnv) (v : Version) (c : Contact) :
    (v ≠ .v4_0 → deathLines v c = [] ∧ memberLines v c = [] ∧ langLines v c = [] ∧ pidLines v c = [] ∧ genderLines v c = [] ∧ kindLines v c = [] ∧ calendarLines E v c = []) ∧
    (v = .v2_1 → categoryLines v c = [] ∧ nickLines v c = [] ∧ prodidLines v c = []) ∧
    (v ≠ .v3_0 → classLines v c = [] ∧ sortLines v c = []) ∧
    (v = .v4_0 → mailerLines v c = [] ∧ nameLines v c = [] ∧ soundLines v c = [] ∧ ∀ l ∈ adrLines E v c, l.identifier = q! "ADR") := by
  refine ⟨?_, ?_, ?_, ?_⟩
  · intro h
    simp [deathLines, memberLines, langLines, pidLines, genderLines, kindLines, calendarLines, h]
  · rintro rfl
    simp [categoryLines, nickLines, prodidLines]
  · intro h
    simp [classLines, sortLines, h]
  · rintro rfl
    refine ⟨by simp [mailerLines], by simp [nameLines], by simp [soundLines], ?_⟩
    intro l hl
    obtain ⟨a, _, hl⟩ := List.mem_flatMap.1 hl
    unfold addressLines at hl
    simp only [ne_eq, not_true_eq_false, decide_false, Bool.false_and, Bool.false_eq_true, if_false, List.nil_append] at hl
    split at hl
    · cases hl
    · rw [List.mem_singleton] at hl
      subst hl
      rw [id_tool]
      (repeat' split) <;> simp [id_add, id_encoded, id_text]

/-- the names of the lines of a contact -/
theorem contact_names (E : ToolEnv) (v : Version) (ex : Bool) (c : Contact) (l : VCardLine) (hl : l ∈ contactLines E v ex c) :
    l.identifier ∈ standardNames v ∨ l.identifier ∈ laterNames v ∨ OwnName c l.identifier ∨ (v = .v4_0 ∧ EmbeddedPicture l.identifier) := by
  obtain ⟨a1, a2, a3, a4⟩ := absent E v c
  have std : ∀ {S : List VCardLine} {m : QString}, Named S m → (∀ l ∈ S, m ∈ standardNames v ++ laterNames v) → l ∈ S →
      l.identifier ∈ standardNames v ∨ l.identifier ∈ laterNames v ∨ OwnName c l.identifier ∨ (v = .v4_0 ∧ EmbeddedPicture l.identifier) := by
    intro S m hn hm hl
    rw [hn l hl]
    rcases List.mem_append.1 (hm l hl) with h | h
    · exact Or.inl h
    · exact Or.inr (Or.inl h)
  have pict : ∀ {id : QString} {p : Picture} {extra : List Picture}, id ∈ standardNames v → (id = q! "LOGO" ∨ id = q! "PHOTO") → l ∈ pictureLines E v id p extra →
      l.identifier ∈ standardNames v ∨ l.identifier ∈ laterNames v ∨ OwnName c l.identifier ∨ (v = .v4_0 ∧ EmbeddedPicture l.identifier) := by
    intro id p extra hid hor hl
    rcases picture_names E v id p extra l hl with h | ⟨h4, h⟩
    · rw [h]; exact Or.inl hid
    · refine Or.inr (Or.inr (Or.inr ⟨h4, ?_⟩))
      rcases hor with rfl | rfl
      · exact Or.inl h
      · exact Or.inr h
  unfold contactLines contactSections at hl
  simp only [List.flatten_cons, List.flatten_nil, List.append_nil, List.mem_append] at hl
  rcases hl with h | h | h | h | h | h | h | h | h | h | h | h | h | h | h | h | h | h | h | h | h | h | h | h | h | h | h | h | h | h | h | h | h | h | h | h | h | h | h
  · exact std (named_version v) (fun _ _ => by cases v <;> decide +kernel) h
  · by_cases h4 : v = .v4_0
    · rw [(a4 h4).2.2.2 l h]; exact Or.inl (by subst h4; decide +kernel)
    · rcases names_adr E v c l h with e | e <;> rw [e] <;> left <;> cases v <;> first | exact (h4 rfl).elim | decide +kernel
  · exact std (named_bday v c) (fun _ _ => by cases v <;> decide +kernel) h
  · exact std (named_death v c) (fun _ hx => by cases v <;> first | decide +kernel | (rw [(a1 (by decide)).1] at hx; cases hx)) h
  · exact std (named_category v c) (fun _ hx => by cases v <;> first | decide +kernel | (rw [(a2 rfl).1] at hx; cases hx)) h
  · exact std (named_member v c) (fun _ hx => by cases v <;> first | decide +kernel | (rw [(a1 (by decide)).2.1] at hx; cases hx)) h
  · exact std (named_source c) (fun _ _ => by cases v <;> decide +kernel) h
  · exact std (named_related c) (fun _ _ => by cases v <;> decide +kernel) h
  · exact std (named_class v c) (fun _ hx => by cases v <;> first | decide +kernel | (rw [(a3 (by decide)).1] at hx; cases hx)) h
  · exact std (named_lang v c) (fun _ hx => by cases v <;> first | decide +kernel | (rw [(a1 (by decide)).2.2.1] at hx; cases hx)) h
  · exact std (named_pid v c) (fun _ hx => by cases v <;> first | decide +kernel | (rw [(a1 (by decide)).2.2.2.1] at hx; cases hx)) h
  · exact std (named_email v c) (fun _ _ => by cases v <;> decide +kernel) h
  · exact std (named_fn v c) (fun _ _ => by cases v <;> decide +kernel) h
  · exact std (named_geo E v c) (fun _ _ => by cases v <;> decide +kernel) h
  · exact std (named_key v c) (fun _ _ => by cases v <;> decide +kernel) h
  · exact pict (by cases v <;> decide +kernel) (Or.inl rfl) h
  · exact std (named_mailer v c) (fun _ hx => by cases v <;> first | decide +kernel | (rw [(a4 rfl).1] at hx; cases hx)) h
  · exact std (named_n v c) (fun _ _ => by cases v <;> decide +kernel) h
  · exact std (named_name v c) (fun _ hx => by cases v <;> first | decide +kernel | (rw [(a4 rfl).2.1] at hx; cases hx)) h
  · exact std (named_nick v c) (fun _ hx => by cases v <;> first | decide +kernel | (rw [(a2 rfl).2.1] at hx; cases hx)) h
  · exact std (named_note v c) (fun _ _ => by cases v <;> decide +kernel) h
  · exact std (named_org v c) (fun _ _ => by cases v <;> decide +kernel) h
  · exact pict (by cases v <;> decide +kernel) (Or.inr rfl) h
  · exact std (named_prodid v c) (fun _ hx => by cases v <;> first | decide +kernel | (rw [(a2 rfl).2.2] at hx; cases hx)) h
  · exact std (named_rev v c) (fun _ _ => by cases v <;> decide +kernel) h
  · exact std (named_role v c) (fun _ _ => by cases v <;> decide +kernel) h
  · exact std (named_sort v c) (fun _ hx => by cases v <;> first | decide +kernel | (rw [(a3 (by decide)).2] at hx; cases hx)) h
  · exact std (named_sound v c) (fun _ _ => by cases v <;> decide +kernel) h
  · exact std (named_tel v c) (fun _ _ => by cases v <;> decide +kernel) h
  · exact std (named_title v c) (fun _ _ => by cases v <;> decide +kernel) h
  · exact std (named_tz c) (fun _ _ => by cases v <;> decide +kernel) h
  · exact std (named_uid c) (fun _ _ => by cases v <;> decide +kernel) h
  · exact std (named_url c) (fun _ _ => by cases v <;> decide +kernel) h
  · exact std (named_gender v c) (fun _ hx => by cases v <;> first | decide +kernel | (rw [(a1 (by decide)).2.2.2.2.1] at hx; cases hx)) h
  · exact std (named_kind v c) (fun _ hx => by cases v <;> first | decide +kernel | (rw [(a1 (by decide)).2.2.2.2.2.1] at hx; cases hx)) h
  · by_cases h4 : v = .v4_0
    · subst h4
      left
      have := names_calendar E .v4_0 c l h
      have sub : ∀ n ∈ [q! "CALADRURI", q! "CALURI", q! "FBURL"], n ∈ standardNames .v4_0 := by decide +kernel
      exact sub _ this
    · rw [(a1 h4).2.2.2.2.2.2] at h; cases h
  · obtain ⟨g, hg, rfl⟩ := List.mem_map.1 h
    exact Or.inr (Or.inr (Or.inl (Or.inr ⟨g, hg, id_adds _ _⟩)))
  · exact std (named_impp c) (fun _ _ => by cases v <;> decide +kernel) h
  · rcases custom_names E v ex c l h with e | ⟨e4, e⟩
    · exact Or.inr (Or.inr (Or.inl (Or.inl e)))
    · subst e4
      rcases e with e | e <;> rw [e] <;> left <;> decide +kernel

/-- each of these names occurs at most once -/
theorem contact_single (E : ToolEnv) (v : Version) (ex : Bool) (c : Contact) (n : QString) (hn : n ∈ singleNames) (hg : ∀ g ∈ c.fieldGroups, g.fieldGroupName ≠ n) :
    ((contactLines E v ex c).filter fun l => decide (l.identifier = n)).length ≤ 1 := by
  have none_ : ∀ (S : List VCardLine), (∀ l ∈ S, l.identifier ≠ n) → S.filter (fun l => decide (l.identifier = n)) = [] := by
    intro S h
    rw [List.filter_eq_nil_iff]
    intro l hl
    simp [h l hl]
  have e1 : (adrLines E v c).filter (fun l => decide (l.identifier = n)) = [] := none_ _ fun l hl e => by
    have : ∀ m ∈ singleNames, m ≠ q! "ADR" ∧ m ≠ q! "LABEL" := by decide +kernel
    rcases names_adr E v c l hl with h | h
    · exact (this n hn).1 (e.symm.trans h)
    · exact (this n hn).2 (e.symm.trans h)
  have e2 : (calendarLines E v c).filter (fun l => decide (l.identifier = n)) = [] := none_ _ fun l hl e => by
    have : ∀ m ∈ singleNames, m ∉ [q! "CALADRURI", q! "CALURI", q! "FBURL"] := by decide +kernel
    exact this n hn (e ▸ names_calendar E v c l hl)
  have e3 : ∀ id, id = q! "LOGO" ∨ id = q! "PHOTO" → ∀ p extra, (pictureLines E v id p extra).filter (fun l => decide (l.identifier = n)) = [] := by
    intro id hid p extra
    refine none_ _ fun l hl e => ?_
    have h1 : ∀ m ∈ singleNames, m ≠ q! "LOGO" ∧ m ≠ q! "PHOTO" ∧ ¬ q! "LOGO:data:image/" <+: m ∧ ¬ q! "PHOTO:data:image/" <+: m := by decide +kernel
    obtain ⟨n1, n2, n3, n4⟩ := h1 n hn
    rcases picture_names E v id p extra l hl with h | ⟨_, h⟩
    · rw [e] at h
      rcases hid with rfl | rfl
      · exact n1 h
      · exact n2 h
    · rw [e] at h
      rcases hid with rfl | rfl
      · exact n3 h
      · exact n4 h
  have e4 : (customLines E v ex c).filter (fun l => decide (l.identifier = n)) = [] := none_ _ fun l hl e => by
    have h1 : ∀ m ∈ singleNames, ¬ q! "X-" <+: m ∧ m ≠ q! "ANNIVERSARY" ∧ m ≠ q! "RELATED" := by decide +kernel
    obtain ⟨n1, n2, n3⟩ := h1 n hn
    rcases custom_names E v ex c l hl with h | ⟨_, h | h⟩
    · exact n1 (e ▸ h)
    · exact n2 (e.symm.trans h)
    · exact n3 (e.symm.trans h)
  have e5 : (groupLines c).filter (fun l => decide (l.identifier = n)) = [] := none_ _ fun l hl e => by
    obtain ⟨g, hg', rfl⟩ := List.mem_map.1 hl
    rw [id_adds] at e
    exact hg g hg' e
  have len : ∀ (P : Prop) [Decidable P] (l : VCardLine), (if P then [l] else []).length ≤ 1 := by
    intro P _ l; split <;> simp
  have len' : ∀ (P : Prop) [Decidable P] (l : VCardLine), (if P then [] else [l]).length ≤ 1 := by
    intro P _ l; split <;> simp
  have l1 : (deathLines v c).length ≤ 1 := len _ _
  have l2 : (categoryLines v c).length ≤ 1 := len _ _
  have l3 : (classLines v c).length ≤ 1 := len _ _
  have l4 : (geoLines E v c).length ≤ 1 := len _ _
  have l5 : (mailerLines v c).length ≤ 1 := len' _ _
  have l6 : (nameLines v c).length ≤ 1 := len' _ _
  have l7 : (prodidLines v c).length ≤ 1 := len _ _
  have l8 : (sortLines v c).length ≤ 1 := len _ _
  have l9 : (tzLines c).length ≤ 1 := len _ _
  have l10 : (genderLines v c).length ≤ 1 := len _ _
  have l11 : (kindLines v c).length ≤ 1 := len _ _
  unfold contactLines contactSections
  simp only [List.flatten_cons, List.flatten_nil, List.append_nil, List.filter_append, e1, e2, e4, e5, logoLines, photoLines, e3 _ (Or.inl rfl), e3 _ (Or.inr rfl),
    filter_named (named_version v), filter_named (named_bday v c), filter_named (named_death v c), filter_named (named_category v c), filter_named (named_member v c),
    filter_named (named_source c), filter_named (named_related c), filter_named (named_class v c), filter_named (named_lang v c), filter_named (named_pid v c),
    filter_named (named_email v c), filter_named (named_fn v c), filter_named (named_geo E v c), filter_named (named_key v c), filter_named (named_mailer v c),
    filter_named (named_n v c), filter_named (named_name v c), filter_named (named_nick v c), filter_named (named_note v c), filter_named (named_org v c),
    filter_named (named_prodid v c), filter_named (named_rev v c), filter_named (named_role v c), filter_named (named_sort v c), filter_named (named_sound v c),
    filter_named (named_tel v c), filter_named (named_title v c), filter_named (named_tz c), filter_named (named_uid c), filter_named (named_url c),
    filter_named (named_gender v c), filter_named (named_kind v c), filter_named (named_impp c)]
  simp only [singleNames, List.mem_cons, List.not_mem_nil, or_false] at hn
  rcases hn with rfl | rfl | rfl | rfl | rfl | rfl | rfl | rfl | rfl | rfl | rfl | rfl | rfl | rfl | rfl | rfl | rfl | rfl <;>
    simp (decide := true) only [List.nil_append, List.append_nil, if_true, if_false, if_pos, if_neg] <;>
    first | assumption | exact Nat.le_refl _

/-- without custom fields and field groups there are no extensions and no anniversary -/
theorem contact_plain (E : ToolEnv) (v : Version) (ex : Bool) (c : Contact) (hc : c.customs = []) (hg : c.fieldGroups = []) (l : VCardLine) (hl : l ∈ contactLines E v ex c) :
    l.identifier ≠ q! "ANNIVERSARY" ∧ ¬ q! "X-" <+: l.identifier := by
  have pict : ∀ {id : QString} {p : Picture} {extra : List Picture}, (id = q! "LOGO" ∨ id = q! "PHOTO") → l ∈ pictureLines E v id p extra →
      l.identifier ≠ q! "ANNIVERSARY" ∧ ¬ q! "X-" <+: l.identifier := by
    intro id p extra hor hl
    have h1 : ∃ a t, l.identifier = a :: t ∧ (a = qc! 'L' ∨ a = qc! 'P') := by
      rcases picture_names E v id p extra l hl with h | ⟨_, t, h⟩
      · rcases hor with rfl | rfl
        · exact ⟨_, _, h, Or.inl rfl⟩
        · exact ⟨_, _, h, Or.inr rfl⟩
      · rcases hor with rfl | rfl
        · exact ⟨_, _, h.symm, Or.inl rfl⟩
        · exact ⟨_, _, h.symm, Or.inr rfl⟩
    obtain ⟨a, t, e, ha⟩ := h1
    rw [e]
    refine ⟨fun h => ?_, fun h => ?_⟩
    · have := (List.cons.inj h).1
      subst this
      exact absurd ha (by decide)
    · have := (List.cons_prefix_cons.1 h).1
      subst this
      exact absurd ha (by decide)
  unfold contactLines contactSections at hl
  simp only [List.flatten_cons, List.flatten_nil, List.append_nil, List.mem_append] at hl
  rcases hl with h | h | h | h | h | h | h | h | h | h | h | h | h | h | h | h | h | h | h | h | h | h | h | h | h | h | h | h | h | h | h | h | h | h | h | h | h | h | h
  · rw [named_version v l h]; decide +kernel
  · rcases names_adr E v c l h with e | e <;> rw [e] <;> decide +kernel
  · rw [named_bday v c l h]; decide +kernel
  · rw [named_death v c l h]; decide +kernel
  · rw [named_category v c l h]; decide +kernel
  · rw [named_member v c l h]; decide +kernel
  · rw [named_source c l h]; decide +kernel
  · rw [named_related c l h]; decide +kernel
  · rw [named_class v c l h]; decide +kernel
  · rw [named_lang v c l h]; decide +kernel
  · rw [named_pid v c l h]; decide +kernel
  · rw [named_email v c l h]; decide +kernel
  · rw [named_fn v c l h]; decide +kernel
  · rw [named_geo E v c l h]; decide +kernel
  · rw [named_key v c l h]; decide +kernel
  · exact pict (Or.inl rfl) h
  · rw [named_mailer v c l h]; decide +kernel
  · rw [named_n v c l h]; decide +kernel
  · rw [named_name v c l h]; decide +kernel
  · rw [named_nick v c l h]; decide +kernel
  · rw [named_note v c l h]; decide +kernel
  · rw [named_org v c l h]; decide +kernel
  · exact pict (Or.inr rfl) h
  · rw [named_prodid v c l h]; decide +kernel
  · rw [named_rev v c l h]; decide +kernel
  · rw [named_role v c l h]; decide +kernel
  · rw [named_sort v c l h]; decide +kernel
  · rw [named_sound v c l h]; decide +kernel
  · rw [named_tel v c l h]; decide +kernel
  · rw [named_title v c l h]; decide +kernel
  · rw [named_tz c l h]; decide +kernel
  · rw [named_uid c l h]; decide +kernel
  · rw [named_url c l h]; decide +kernel
  · rw [named_gender v c l h]; decide +kernel
  · rw [named_kind v c l h]; decide +kernel
  · have : ∀ n ∈ [q! "CALADRURI", q! "CALURI", q! "FBURL"], n ≠ q! "ANNIVERSARY" ∧ ¬ q! "X-" <+: n := by decide +kernel
    exact this _ (names_calendar E v c l h)
  · unfold groupLines at h; rw [hg] at h; cases h
  · rw [named_impp c l h]; decide +kernel
  · unfold customLines Contact.customsList at h; rw [hc] at h; cases h

end KC
