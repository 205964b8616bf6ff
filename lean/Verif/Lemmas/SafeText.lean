import Verif.Spec.SafeText
import Verif.Lemmas.ReadBack
import Verif.Props.C02
import Mathlib.Data.List.Chain
/- Helper lemmas: safe texts. -/
namespace KC
open Spec

/-- no backslash directly before n, N, r -/
def Esc16 (a b : UInt16) : Prop := a = 92 → b ≠ 110 ∧ b ≠ 78 ∧ b ≠ 114
/-- the same for bytes -/
def Esc8 (a b : UInt8) : Prop := a = 92 → b ≠ 110 ∧ b ≠ 78 ∧ b ≠ 114

theorem chain_iff_pairs {α : Type} {R : α → α → Prop} (s : List α) :
    s.IsChain R ↔ ∀ pre a b post, s = pre ++ a :: b :: post → R a b := by
  induction s with
  | nil => simp
  | cons x t ih =>
    cases t with
    | nil =>
      simp only [List.IsChain.singleton, true_iff]
      intro pre a b post h
      have := congrArg List.length h
      simp at this; omega
    | cons y t =>
      rw [List.isChain_cons_cons, ih]
      constructor
      · rintro ⟨h1, h2⟩ pre a b post h
        cases pre with
        | nil => simp only [List.nil_append, List.cons.injEq] at h; rw [← h.1, ← h.2.1]; exact h1
        | cons p pre =>
          simp only [List.cons_append, List.cons.injEq] at h
          exact h2 pre a b post h.2
      · intro h
        exact ⟨h [] x y t rfl, fun pre a b post e => h (x :: pre) a b post (by rw [e]; rfl)⟩

theorem escapeSafe_iff (s : QByteArray) : EscapeSafe s ↔ s.IsChain Esc8 := by
  rw [chain_iff_pairs]
  constructor
  · intro h pre a b post e ha; subst ha; exact h pre post b e
  · intro h pre post c e; exact h pre 92 c post e rfl

theorem safe16_iff (s : QString) : (∀ pre post c, s = pre ++ 92 :: c :: post → c ≠ 110 ∧ c ≠ 78 ∧ c ≠ 114) ↔ s.IsChain Esc16 := by
  rw [chain_iff_pairs]
  constructor
  · intro h pre a b post e ha; subst ha; exact h pre post b e
  · intro h pre post c e; exact h pre 92 c post e rfl

theorem utf8_of_ascii (c : Char) (h : c.toNat < 128) : String.utf8EncodeChar c = [UInt8.ofNat c.toNat] := by
  unfold String.utf8EncodeChar
  have : c.val.toNat ≤ 0x7f := by show c.toNat ≤ 127; omega
  simp only [this, if_true]; rfl

theorem utf8_of_wide (c : Char) (h : ¬ c.toNat < 128) : ∀ b ∈ String.utf8EncodeChar c, 128 ≤ b.toNat := by
  unfold String.utf8EncodeChar
  have : ¬ c.val.toNat ≤ 0x7f := by show ¬ c.toNat ≤ 127; omega
  simp only [this, if_false]
  have e : c.val.toNat = c.toNat := rfl
  have hr := char_range c
  rw [e]
  intro b hb
  split at hb
  · simp only [List.mem_cons, List.not_mem_nil, or_false] at hb
    rcases hb with rfl | rfl <;> simp [UInt8.toNat_ofNat'] <;> omega
  · split at hb
    · simp only [List.mem_cons, List.not_mem_nil, or_false] at hb
      rcases hb with rfl | rfl | rfl <;> simp [UInt8.toNat_ofNat'] <;> omega
    · simp only [List.mem_cons, List.not_mem_nil, or_false] at hb
      rcases hb with rfl | rfl | rfl | rfl <;> simp [UInt8.toNat_ofNat'] <;> omega

theorem utf8_ne (c : Char) : String.utf8EncodeChar c ≠ [] := by
  unfold String.utf8EncodeChar
  simp only
  repeat' split
  all_goals simp

theorem utf16_ascii (c : Char) (h : c.toNat < 128) : utf16Char c = [UInt16.ofNat c.toNat] := by
  unfold utf16Char; rw [if_pos (by omega)]

theorem chain_of_wide {R : UInt8 → UInt8 → Prop} (hR : ∀ a b, 128 ≤ a.toNat → R a b) (s : List UInt8) (h : ∀ b ∈ s, 128 ≤ b.toNat) : s.IsChain R := by
  rw [chain_iff_pairs]
  intro pre a b post e
  exact hR a b (h a (by rw [e]; simp))

theorem esc8_wide (a b : UInt8) (h : 128 ≤ a.toNat) : Esc8 a b := by
  intro e; subst e; exact absurd h (by decide)

theorem utf8_chain (cs : List Char) (h : (utf16 cs).IsChain Esc16) : (utf8 cs).IsChain Esc8 := by
  induction cs with
  | nil => simp [utf8]
  | cons c cs ih =>
    have e : utf16 (c :: cs) = utf16Char c ++ utf16 cs := by simp [utf16]
    have e' : utf8 (c :: cs) = String.utf8EncodeChar c ++ utf8 cs := by simp [utf8]
    rw [e, List.isChain_append] at h
    rw [e', List.isChain_append]
    refine ⟨?_, ih h.2.1, ?_⟩
    · by_cases hc : c.toNat < 128
      · rw [utf8_of_ascii c hc]; simp
      · exact chain_of_wide esc8_wide _ (utf8_of_wide c hc)
    · intro x hx y hy
      by_cases hc : c.toNat < 128
      · rw [utf8_of_ascii c hc] at hx
        simp only [List.getLast?_singleton, Option.mem_def, Option.some.injEq] at hx
        subst hx
        intro h92
        have hc92 : c.toNat = 92 := by
          have := congrArg UInt8.toNat h92
          rw [toNat_ofNat8 _ (by omega)] at this
          simpa using this
        have h3 := h.2.2 92 (by rw [utf16_ascii c hc, hc92]; rfl)
        cases cs with
        | nil => simp [utf8] at hy
        | cons d ds =>
          have e2 : utf8 (d :: ds) = String.utf8EncodeChar d ++ utf8 ds := by simp [utf8]
          rw [e2] at hy
          by_cases hd : d.toNat < 128
          · rw [utf8_of_ascii d hd] at hy
            simp only [List.cons_append, List.nil_append, List.head?_cons, Option.mem_def, Option.some.injEq] at hy
            subst hy
            have h4 := h3 (UInt16.ofNat d.toNat) (by
              have e3 : utf16 (d :: ds) = utf16Char d ++ utf16 ds := by simp [utf16]
              rw [e3, utf16_ascii d hd]; rfl) rfl
            refine ⟨?_, ?_, ?_⟩ <;> intro hh <;> have := congrArg UInt8.toNat hh <;> rw [toNat_ofNat8 _ (by omega)] at this
            · exact h4.1 (by rw [this]; rfl)
            · exact h4.2.1 (by rw [this]; rfl)
            · exact h4.2.2 (by rw [this]; rfl)
          · have hw := utf8_of_wide d hd
            have hy' : y ∈ String.utf8EncodeChar d := by
              cases hu : String.utf8EncodeChar d with
              | nil => exact absurd hu (utf8_ne d)
              | cons a b => rw [hu] at hy; simp at hy; simp [hy]
            have := hw y hy'
            refine ⟨?_, ?_, ?_⟩ <;> intro hh <;> rw [hh] at this <;> exact absurd this (by decide)
      · exact esc8_wide x y (utf8_of_wide c hc x (List.mem_of_getLast? hx))

theorem Spec.SafeText.plain {s : QString} (h : SafeText s) : PlainBytes s := by
  refine ⟨h.wf, h.bom, ?_⟩
  rw [escapeSafe_iff]
  obtain ⟨cs, rfl⟩ := h.wf
  rw [C11_toUtf8_is_utf8]
  exact utf8_chain cs ((safe16_iff _).1 h.safe)

/-! ### Building safe texts -/

theorem wf_append {a b : QString} (ha : WellFormed a) (hb : WellFormed b) : WellFormed (a ++ b) := by
  obtain ⟨x, rfl⟩ := ha
  obtain ⟨y, rfl⟩ := hb
  exact ⟨x ++ y, by simp [utf16]⟩

theorem wf_ascii {s : QString} (h : ∀ u ∈ s, u.toNat < 128) : WellFormed s := by
  refine ⟨s.map fun u => Char.ofNat u.toNat, ?_⟩
  induction s with
  | nil => rfl
  | cons u t ih =>
    have hu := h u (by simp)
    have : (Char.ofNat u.toNat).toNat = u.toNat := by
      unfold Char.ofNat
      rw [dif_pos (show Nat.isValidChar u.toNat from .inl (by omega))]
      rfl
    rw [List.map_cons, show utf16 (Char.ofNat u.toNat :: List.map (fun u => Char.ofNat u.toNat) t) = utf16Char (Char.ofNat u.toNat) ++ utf16 (List.map (fun u => Char.ofNat u.toNat) t) by simp [utf16]]
    rw [← ih (fun x hx => h x (by simp [hx])), utf16_ascii _ (by rw [this]; exact hu), this]
    simp

/-- boolean check for ASCII texts -/
def asciiSafe (s : QString) : Bool :=
  s.all (fun u => u.toNat < 128) && match s with
    | [] => true
    | c :: t => (t.foldl (fun (p : UInt16 × Bool) u => (u, p.2 && (p.1 != 92 || (u != 110 && u != 78 && u != 114)))) (c, true)).2

theorem asciiSafe_safe {s : QString} (h : asciiSafe s = true) : SafeText s := by
  unfold asciiSafe at h
  rw [Bool.and_eq_true, List.all_eq_true] at h
  have ha : ∀ u ∈ s, u.toNat < 128 := fun u hu => by simpa using h.1 u hu
  refine ⟨wf_ascii ha, ?_, ?_⟩
  · intro e
    cases s with
    | nil => cases e
    | cons c t =>
      simp only [List.head?_cons, Option.some.injEq] at e
      have := ha c (by simp); rw [e] at this; exact absurd this (by decide)
  · rw [safe16_iff]
    cases s with
    | nil => simp
    | cons c t =>
      have key : ∀ (t : QString) (c : UInt16) (b : Bool),
          (t.foldl (fun (p : UInt16 × Bool) u => (u, p.2 && (p.1 != 92 || (u != 110 && u != 78 && u != 114)))) (c, b)).2 = true →
          b = true ∧ (c :: t).IsChain Esc16 := by
        intro t
        induction t with
        | nil => intro c b hb; exact ⟨hb, by simp⟩
        | cons d t ih =>
          intro c b hb
          rw [List.foldl_cons] at hb
          obtain ⟨h1, h2⟩ := ih d _ hb
          rw [Bool.and_eq_true] at h1
          refine ⟨h1.1, ?_⟩
          rw [List.isChain_cons_cons]
          refine ⟨?_, h2⟩
          intro hc
          have := h1.2
          rw [hc] at this
          simpa [and_assoc] using this
      exact (key t c true h.2).2

theorem wf_replace (sep : UInt16) (hs : sep.toNat < 128) {s : QString} (h : WellFormed s) : WellFormed (escapeSep sep s) := by
  obtain ⟨cs, rfl⟩ := h
  unfold escapeSep replaceChar
  induction cs with
  | nil => exact ⟨[], by simp [utf16]⟩
  | cons c cs ih =>
    have e : utf16 (c :: cs) = utf16Char c ++ utf16 cs := by simp [utf16]
    rw [e, List.flatMap_append]
    refine wf_append ?_ ih
    have hc : ∀ u ∈ utf16Char c, u.toNat < 128 → c.toNat < 128 := by
      intro u hu hlt
      unfold utf16Char at hu
      have hr := char_range c
      split at hu
      · simp only [List.mem_singleton] at hu
        subst hu
        rw [toNat_ofNat16 _ (by omega)] at hlt; exact hlt
      · simp only [List.mem_cons, List.not_mem_nil, or_false] at hu
        rcases hu with rfl | rfl <;> rw [toNat_ofNat16 _ (by omega)] at hlt <;> omega
    by_cases hm : sep ∈ utf16Char c
    · have h1 := hc sep hm hs
      refine wf_ascii ?_
      intro u hu
      rw [utf16_ascii c h1] at hu
      simp only [List.flatMap_cons, List.flatMap_nil, List.append_nil] at hu
      split at hu
      · simp only [List.mem_cons, List.not_mem_nil, or_false] at hu
        rcases hu with rfl | rfl
        · decide
        · exact hs
      · simp only [List.mem_singleton] at hu
        subst hu
        rw [toNat_ofNat16 _ (by omega)]; exact h1
    · refine ⟨[c], ?_⟩
      have : ∀ l : QString, sep ∉ l → l.flatMap (fun x => if x = sep then [qc! '\\', sep] else [x]) = l := by
        intro l hl
        induction l with
        | nil => rfl
        | cons a l ih =>
          simp only [List.mem_cons, not_or] at hl
          rw [List.flatMap_cons, ih hl.2, if_neg (fun e => hl.1 e.symm)]; rfl
      rw [this _ hm]; simp [utf16]

/-! ### Joined components -/

theorem escapeSep_cons (sep x : UInt16) (t : QString) :
    escapeSep sep (x :: t) = (if x = sep then [qc! '\\', sep] else [x]) ++ escapeSep sep t := by
  simp [escapeSep, replaceChar]

theorem escapeSep_nil (sep : UInt16) : escapeSep sep [] = [] := rfl

theorem escapeSep_head (sep : UInt16) (s : QString) : (escapeSep sep s).head? = s.head? ∨ (escapeSep sep s).head? = some 92 := by
  cases s with
  | nil => left; rfl
  | cons x t =>
    rw [escapeSep_cons]
    by_cases h : x = sep
    · right; simp [h]
    · left; simp [h]

theorem escapeSep_eq_nil {sep : UInt16} {s : QString} : escapeSep sep s = [] ↔ s = [] := by
  cases s with
  | nil => simp [escapeSep_nil]
  | cons x t =>
    rw [escapeSep_cons]
    constructor
    · intro h; exfalso
      by_cases hx : x = sep <;> simp [hx] at h
    · intro h; cases h

theorem escapeSep_chain (sep : UInt16) (h1 : sep ≠ 92) (h2 : sep ≠ 110 ∧ sep ≠ 78 ∧ sep ≠ 114) (s : QString) (h : s.IsChain Esc16) :
    (escapeSep sep s).IsChain Esc16 := by
  induction s with
  | nil => simp [escapeSep_nil]
  | cons x t ih =>
    have ht : t.IsChain Esc16 := by
      cases t with
      | nil => simp
      | cons y t => rw [List.isChain_cons_cons] at h; exact h.2
    have hnext : ∀ y, x ≠ sep → y ∈ (escapeSep sep t).head? → Esc16 x y := by
      intro y _ hy hx
      rcases escapeSep_head sep t with e | e
      · rw [e] at hy
        cases t with
        | nil => simp at hy
        | cons z t =>
          simp only [List.head?_cons, Option.mem_def, Option.some.injEq] at hy
          rw [List.isChain_cons_cons] at h
          rw [← hy]; exact h.1 hx
      · rw [e] at hy
        simp only [Option.mem_def, Option.some.injEq] at hy
        rw [← hy]; decide
    rw [escapeSep_cons, List.isChain_append]
    by_cases hx : x = sep
    · rw [if_pos hx]
      refine ⟨?_, ih ht, ?_⟩
      · rw [List.isChain_cons_cons]; exact ⟨fun _ => h2, by simp⟩
      · intro a ha b _ e
        simp at ha
        rw [← ha] at e; exact absurd e h1
    · rw [if_neg hx]
      refine ⟨by simp, ih ht, ?_⟩
      intro a ha b hb
      simp only [List.getLast?_singleton, Option.mem_def, Option.some.injEq] at ha
      rw [← ha]; exact hnext b hx hb

theorem join_cons_cons {α : Type} (sep a b : List α) (t : List (List α)) : join sep (a :: b :: t) = a ++ sep ++ join sep (b :: t) := rfl

theorem joinEscaped_cons_cons (sep : UInt16) (a b : QString) (t : List QString) :
    joinEscaped sep (a :: b :: t) = escapeSep sep a ++ sep :: joinEscaped sep (b :: t) := by
  simp [joinEscaped, join]

theorem joinEscaped_safe (sep : UInt16) (h1 : sep ≠ 92) (h2 : sep ≠ 110 ∧ sep ≠ 78 ∧ sep ≠ 114) (hs : sep.toNat < 128) (cs : List QString)
    (h : ∀ c ∈ cs, SafeText c) : SafeText (joinEscaped sep cs) := by
  have key : ∀ cs : List QString, (∀ c ∈ cs, SafeText c) → WellFormed (joinEscaped sep cs) ∧ (joinEscaped sep cs).IsChain Esc16 := by
    intro cs
    induction cs with
    | nil => intro _; exact ⟨⟨[], rfl⟩, by simp [joinEscaped, join]⟩
    | cons a t ih =>
      intro h
      have ha := h a (by simp)
      have hc := escapeSep_chain sep h1 h2 a ((safe16_iff a).1 ha.safe)
      cases t with
      | nil => exact ⟨by simpa [joinEscaped, join] using wf_replace sep hs ha.wf, by simpa [joinEscaped, join] using hc⟩
      | cons b t =>
        obtain ⟨w, c⟩ := ih (fun x hx => h x (by simp [hx]))
        rw [joinEscaped_cons_cons]
        have e : escapeSep sep a ++ sep :: joinEscaped sep (b :: t) = (escapeSep sep a ++ [sep]) ++ joinEscaped sep (b :: t) := by simp
        refine ⟨?_, ?_⟩
        · rw [e]
          exact wf_append (wf_append (wf_replace sep hs ha.wf) (wf_ascii (by simpa using hs))) w
        · rw [e, List.isChain_append, List.isChain_append]
          refine ⟨⟨hc, by simp, ?_⟩, c, ?_⟩
          · intro x _ y hy _
            simp at hy; rw [← hy]; exact h2
          · intro x hx y _ e
            simp at hx; rw [← hx] at e; exact absurd e h1
  obtain ⟨w, c⟩ := key cs h
  refine ⟨w, ?_, (safe16_iff _).2 c⟩
  intro e
  have hsep : sep ≠ 0xFEFF := by intro h; rw [h] at hs; exact absurd hs (by decide)
  cases cs with
  | nil => simp [joinEscaped, join] at e
  | cons a t =>
    have hh : (joinEscaped sep (a :: t)).head? = (escapeSep sep a).head? ∨ (joinEscaped sep (a :: t)).head? = some sep ∨ (joinEscaped sep (a :: t)).head? = none := by
      cases t with
      | nil => left; simp [joinEscaped, join]
      | cons b t =>
        rw [joinEscaped_cons_cons]
        cases escapeSep sep a with
        | nil => right; left; simp
        | cons x y => left; simp
    rcases hh with hh | hh | hh
    · rw [hh] at e
      rcases escapeSep_head sep a with e' | e'
      · rw [e'] at e; exact (h a (by simp)).bom e
      · rw [e'] at e; exact absurd e (by decide)
    · rw [hh] at e; exact hsep (by simpa using e)
    · rw [hh] at e; cases e

theorem SafeText.nil : SafeText [] := ⟨⟨[], rfl⟩, by simp, by intro pre post c h; simp at h⟩

end KC
