import Verif.Lemmas.LineForm
/- Helper lemmas: in which order the lines of a card come back after writing (sorted by name) and reading (sorted by name again). -/
namespace KC
open Spec

/-- the lines read from a card written with the lines `L`, in the order of the text -/
def writtenBack (L : List VCardLine) : List VCardLine := ((writeOrder (cardAfter L)).flatMap (cardAfter L).lines).filterMap readBack

theorem lines_id (L : List VCardLine) : ∀ n, ∀ l ∈ (cardAfter L).lines n, l.identifier = n := by
  intro n l hl
  rw [C13_lines, List.mem_filter] at hl
  simpa using hl.2

theorem filter_names (L : List VCardLine) (names : List QString) (hn : names.Nodup) (hall : ∀ l ∈ L, l.identifier ∈ names) (k : QString) :
    (names.flatMap (cardAfter L).lines).filter (fun l => l.identifier = k) = L.filter fun l => l.identifier = k := by
  rw [filter_flatMap_names _ _ hn (lines_id L)]
  split
  · exact C13_lines L k
  · rename_i hk
    symm
    rw [List.filter_eq_nil_iff]
    intro l hl e
    simp only [decide_eq_true_eq] at e
    exact hk (e ▸ hall l hl)

theorem identifiers_all (L : List VCardLine) : ∀ l ∈ L, l.identifier ∈ (cardAfter L).identifiers :=
  fun l hl => ((C13_names L).2 l.identifier).2 ⟨l, hl, rfl⟩

theorem writeOrder_all (L : List VCardLine) : ∀ l ∈ L, l.identifier ∈ writeOrder (cardAfter L) :=
  fun l hl => (writeOrder_perm _).mem_iff.2 (identifiers_all L l hl)

theorem writeOrder_nodup (L : List VCardLine) : (writeOrder (cardAfter L)).Nodup :=
  (writeOrder_perm _).nodup_iff.2 (identifiers_nodup L)

theorem filter_and {α : Type} (l : List α) (P Q : α → Bool) (h : ∀ x ∈ l, P x = true → Q x = true) : l.filter P = (l.filter Q).filter P := by
  rw [List.filter_filter]
  apply List.filter_congr
  intro x hx
  cases hp : P x
  · rfl
  · rw [h x hx hp]; rfl

theorem mem_flatMap_lines (L : List VCardLine) (names : List QString) (l : VCardLine) (h : l ∈ names.flatMap (cardAfter L).lines) : l ∈ L := by
  obtain ⟨n, _, hl⟩ := List.mem_flatMap.1 h
  rw [C13_lines] at hl
  exact (List.mem_filter.1 hl).1

/-- lines of one name keep their order in the text -/
theorem writtenBack_filter (L : List VCardLine) (P : VCardLine → Bool) (n : QString)
    (h : ∀ l ∈ L, ∀ r, readBack l = some r → P r = true → l.identifier = n) :
    (writtenBack L).filter P = (L.filterMap readBack).filter P := by
  unfold writtenBack
  have key : ∀ M : List VCardLine, (∀ l ∈ M, l ∈ L) →
      (M.filterMap readBack).filter P = ((M.filter fun l => l.identifier = n).filterMap readBack).filter P := by
    intro M hM
    induction M with
    | nil => rfl
    | cons l M ih =>
      have ih := ih fun x hx => hM x (List.mem_cons_of_mem _ hx)
      by_cases hid : l.identifier = n
      · rw [List.filter_cons_of_pos (by simpa using hid)]
        cases hr : readBack l with
        | none => rw [List.filterMap_cons_none hr, List.filterMap_cons_none hr, ih]
        | some r => rw [List.filterMap_cons_some hr, List.filterMap_cons_some hr, List.filter_cons, List.filter_cons, ih]
      · rw [List.filter_cons_of_neg (by simpa using hid)]
        cases hr : readBack l with
        | none => rw [List.filterMap_cons_none hr, ih]
        | some r =>
          rw [List.filterMap_cons_some hr, List.filter_cons_of_neg, ih]
          intro hp
          exact hid (h l (hM l (by simp)) r hr hp)
  rw [key _ (fun l hl => mem_flatMap_lines L _ l hl), key L (fun l hl => hl),
    filter_names L _ (writeOrder_nodup L) (writeOrder_all L)]

/-- lines of one name keep their order in reading -/
theorem readingOrder_filter (M : List VCardLine) (P : VCardLine → Bool) (n : QString) (h : ∀ l ∈ M, P l = true → l.identifier = n) :
    (readingOrder (cardAfter M)).filter P = M.filter P := by
  unfold readingOrder
  rw [filter_and _ P (fun l => l.identifier = n), filter_names M _ (identifiers_nodup M) (identifiers_all M), ← filter_and]
  · intro x hx hp; simpa using h x hx hp
  · intro x hx hp; simpa using h x (mem_flatMap_lines M _ x hx) hp

theorem mem_writtenBack (L : List VCardLine) (r : VCardLine) : r ∈ writtenBack L ↔ ∃ l ∈ L, readBack l = some r := by
  unfold writtenBack
  rw [List.mem_filterMap]
  constructor
  · rintro ⟨l, hl, hr⟩; exact ⟨l, (mem_written L l).1 hl, hr⟩
  · rintro ⟨l, hl, hr⟩; exact ⟨l, (mem_written L l).2 hl, hr⟩

/-- the lines of a contact in the order in which the reader of contacts sees them -/
def seen (L : List VCardLine) : List VCardLine := readingOrder (cardAfter (writtenBack L))

theorem mem_seen (L : List VCardLine) (r : VCardLine) : r ∈ seen L ↔ ∃ l ∈ L, readBack l = some r := by
  rw [← mem_writtenBack]
  unfold seen readingOrder
  constructor
  · exact fun h => mem_flatMap_lines _ _ r h
  · intro h
    rw [List.mem_flatMap]
    refine ⟨r.identifier, identifiers_all _ r h, ?_⟩
    rw [C13_lines, List.mem_filter]
    exact ⟨h, by simp⟩

/-- lines of one kind, written under one name and read under one name, keep their order -/
theorem seen_filter (L : List VCardLine) (P : VCardLine → Bool) (n n' : QString)
    (h : ∀ l ∈ L, ∀ r, readBack l = some r → P r = true → l.identifier = n ∧ r.identifier = n') :
    (seen L).filter P = (L.filterMap readBack).filter P := by
  unfold seen
  rw [readingOrder_filter _ P n', writtenBack_filter L P n]
  · intro l hl r hr hp; exact (h l hl r hr hp).1
  · intro r hr hp
    obtain ⟨l, hl, hlr⟩ := (mem_writtenBack L r).1 hr
    exact (h l hl r hlr hp).2

theorem sorted_flatMap (f : QString → List VCardLine) (ids : List QString) (hids : ids.Pairwise (fun a b => qlt a b = true)) (P : VCardLine → Bool)
    (ns : List QString) (hns : ns.Pairwise (fun a b => qlt a b = true)) (hf : ∀ n, ∀ l ∈ f n, l.identifier = n) (hP : ∀ n ∈ ids, ∀ l ∈ f n, P l = true → n ∈ ns) :
    (ids.flatMap f).filter P = ns.flatMap fun n => ((ids.flatMap f).filter P).filter fun l => l.identifier = n := by
  -- names occurring in both lists, in ascending order
  have e1 : ∀ ids : List QString, ids.Nodup → ∀ n, ((ids.flatMap f).filter P).filter (fun l => l.identifier = n) = if n ∈ ids then (f n).filter P else [] := by
    intro ids hnd n
    induction ids with
    | nil => simp
    | cons m ids ih =>
      rw [List.nodup_cons] at hnd
      rw [List.flatMap_cons, List.filter_append, List.filter_append, ih hnd.2]
      by_cases hm : n = m
      · subst hm
        rw [if_neg hnd.1, if_pos (by simp), List.append_nil, List.filter_eq_self.2]
        intro l hl
        simpa using hf n l (List.mem_filter.1 hl).1
      · rw [List.filter_eq_nil_iff.2, List.nil_append]
        · by_cases hi : n ∈ ids
          · rw [if_pos hi, if_pos (by simp [hi])]
          · rw [if_neg hi, if_neg (by simp [hi, hm])]
        · intro l hl e
          simp only [decide_eq_true_eq] at e
          exact hm (e ▸ hf m l (List.mem_filter.1 hl).1)
  have asc : ∀ l : List QString, l.Pairwise (fun a b => qlt a b = true) → l.Nodup := by
    intro l h
    refine h.imp ?_
    intro a b hab e
    rw [e, qlt_irrefl] at hab; cases hab
  have e2 : (ids.flatMap f).filter P = (ids.filter (· ∈ ns)).flatMap fun n => (f n).filter P := by
    clear e1 hids
    induction ids with
    | nil => rfl
    | cons m ids ih =>
      rw [List.flatMap_cons, List.filter_append, ih fun n hn => hP n (List.mem_cons_of_mem _ hn)]
      by_cases hm : m ∈ ns
      · rw [List.filter_cons_of_pos (by simpa using hm), List.flatMap_cons]
      · rw [List.filter_cons_of_neg (by simpa using hm), List.filter_eq_nil_iff.2, List.nil_append]
        intro l hl hp
        exact hm (hP m (by simp) l hl hp)
  have e3 : (ns.flatMap fun n => ((ids.flatMap f).filter P).filter fun l => l.identifier = n) = (ns.filter (· ∈ ids)).flatMap fun n => (f n).filter P := by
    simp only [e1 ids (asc ids hids)]
    clear e2 hP e1 hns
    induction ns with
    | nil => rfl
    | cons m ns ih =>
      rw [List.flatMap_cons, ih]
      by_cases hm : m ∈ ids
      · rw [List.filter_cons_of_pos (by simpa using hm), List.flatMap_cons, if_pos hm]
      · rw [List.filter_cons_of_neg (by simpa using hm), if_neg hm, List.nil_append]
  rw [e3, e2]
  congr 1
  apply SMap.sorted_ext (List.Pairwise.filter _ hids) (List.Pairwise.filter _ hns)
  intro k
  simp only [List.mem_filter, decide_eq_true_eq]
  exact And.comm

/-- lines of several names come in the order of the names -/
theorem seen_sorted (L : List VCardLine) (P : VCardLine → Bool) (ns : List QString) (hns : ns.Pairwise (fun a b => qlt a b = true))
    (hP : ∀ l ∈ L, ∀ r, readBack l = some r → P r = true → r.identifier ∈ ns) :
    (seen L).filter P = ns.flatMap fun n => ((seen L).filter P).filter fun l => l.identifier = n := by
  unfold seen readingOrder
  apply sorted_flatMap _ _ (SMap.sorted_iff_keys.1 (cardAfter_sorted _)) P ns hns (lines_id _)
  intro n _ r hr hp
  have e := lines_id _ n r hr
  rw [C13_lines] at hr
  obtain ⟨l, hl, hlr⟩ := (mem_writtenBack L r).1 (List.mem_filter.1 hr).1
  rw [← e]
  exact hP l hl r hlr hp

theorem perm_names (L : List VCardLine) (names : List QString) (hn : names.Nodup) (hall : ∀ l ∈ L, l.identifier ∈ names) :
    (names.flatMap fun n => L.filter fun l => l.identifier = n).Perm L := by
  induction names generalizing L with
  | nil =>
    cases L with
    | nil => exact .refl _
    | cons l L => exact absurd (hall l (by simp)) (by simp)
  | cons m names ih =>
    rw [List.nodup_cons] at hn
    rw [List.flatMap_cons]
    have hp := ih (L.filter fun l => !decide (l.identifier = m)) hn.2 (by
      intro l hl
      rw [List.mem_filter] at hl
      have := hall l hl.1
      simp at hl
      rcases List.mem_cons.1 this with e | e
      · exact absurd e hl.2
      · exact e)
    have e : (names.flatMap fun n => (L.filter fun l => !decide (l.identifier = m)).filter fun l => l.identifier = n) =
        names.flatMap fun n => L.filter fun l => l.identifier = n := by
      apply List.flatMap_congr
      intro n hn'
      rw [List.filter_filter]
      apply List.filter_congr
      intro l _
      by_cases hl : l.identifier = n
      · have : n ≠ m := fun e => hn.1 (e ▸ hn')
        simp [hl, this]
      · simp [hl]
    rw [e] at hp
    exact (hp.append_left _).trans (List.filter_append_perm _ L)

theorem flatMap_lines_perm (L : List VCardLine) (names : List QString) (hn : names.Nodup) (hall : ∀ l ∈ L, l.identifier ∈ names) :
    (names.flatMap (cardAfter L).lines).Perm L := by
  have : names.flatMap (cardAfter L).lines = names.flatMap fun n => L.filter fun l => l.identifier = n := by
    apply List.flatMap_congr
    intro n _
    exact C13_lines L n
  rw [this]
  exact perm_names L names hn hall

/-- in any case the lines are the same up to their order -/
theorem seen_perm (L : List VCardLine) : (seen L).Perm (L.filterMap readBack) := by
  unfold seen readingOrder
  refine (flatMap_lines_perm _ _ (identifiers_nodup _) (identifiers_all _)).trans ?_
  unfold writtenBack
  exact (flatMap_lines_perm _ _ (writeOrder_nodup _) (writeOrder_all _)).filterMap _

end KC
