import Verif.Lemmas.ReadJoin
import Verif.Props.C06
/-
  C09: card texts written one after another are read as the concatenation of what each of them contains.
-/
namespace KC
open Spec

/-- A complete text: it ends with a line `L`, an end marker line `A` (any case, anything may follow the marker on the line) and then only
    white space lines. Everything ends in LF. `L` is not blank and does not end in `=`, so no soft line break swallows the end marker. What
    comes before is arbitrary. -/
def CompleteText (t : List UInt8) : Prop :=
  ∃ pre L A tail : List UInt8, t = pre ++ L ++ [10] ++ A ++ [10] ++ tail ∧
    (pre = [] ∨ ∃ p, pre = p ++ [10]) ∧ (10 : UInt8) ∉ L ∧ ¬ Blank L ∧ ¬ EndsInEquals L ∧
    (10 : UInt8) ∉ A ∧ (A.map lowerByte).take 9 = b! "end:vcard" ∧
    Blank tail ∧ (tail = [] ∨ ∃ p, tail = p ++ [10])

/-! ### Proof -/

/-- between cards -/
def Idle (s : JS) : Prop := s.join = none ∧ s.rs.inVCard = false ∧ s.rs.card = []

theorem feedJ_idle_blank (E : Codecs) (s : JS) (hs : Idle s) (cur : QByteArray) (hb : isBlank cur = true) :
    Idle (feedJ E s cur) ∧ (feedJ E s cur).rs.out = s.rs.out := by
  obtain ⟨rs, j⟩ := s
  obtain ⟨h1, h2, h3⟩ := hs
  simp only at h1 h2 h3
  subst h1
  simp only [feedJ, hb]
  split
  · exact ⟨⟨rfl, h2, h3⟩, rfl⟩
  · exact ⟨⟨rfl, h2, h3⟩, rfl⟩

theorem fold_idle_blank (E : Codecs) (ls : List QByteArray) (hb : ∀ l ∈ ls, isBlank l = true) (s : JS) (hs : Idle s) :
    Idle (ls.foldl (feedJ E) s) ∧ (ls.foldl (feedJ E) s).rs.out = s.rs.out := by
  induction ls generalizing s with
  | nil => exact ⟨hs, rfl⟩
  | cons l t ih =>
    obtain ⟨a, b⟩ := feedJ_idle_blank E s hs l (hb l (by simp))
    obtain ⟨c, d⟩ := ih (fun x hx => hb x (by simp [hx])) _ a
    exact ⟨c, d.trans b⟩

/-- no soft break is pending -/
def NoSoft (s : JS) : Prop :=
  match s.join with
  | some (_, v) => endsWithChar (c! '=') v = false
  | none => endsWithChar (c! '=') s.rs.currentLine = false

theorem endsWith_app (a b : QByteArray) (hb : b ≠ []) : endsWithChar (c! '=') (a ++ b) = endsWithChar (c! '=') b := by
  cases h : endsWithChar (c! '=') b with
  | true => exact endsWith_suffix h
  | false =>
    cases h' : endsWithChar (c! '=') (a ++ b) with
    | false => rfl
    | true => rw [endsWith_append_ne hb h'] at h; cases h

theorem nosoft_mark (cur : QByteArray) (rs : RS) (h : endsWithChar (c! '=') cur = false) : NoSoft ⟨RS.mark cur rs, none⟩ := by
  unfold NoSoft RS.mark
  simp only
  split
  · rfl
  · split
    · rfl
    · exact h

theorem feedJ_nosoft (E : Codecs) (s : JS) (cur : QByteArray) (h : endsWithChar (c! '=') cur = false) (hb : isBlank cur = false) :
    NoSoft (feedJ E s cur) := by
  have hne : cur ≠ [] := by rintro rfl; exact absurd hb (by decide)
  have hjoin : ∀ rs p v, NoSoft (joinStep E rs p v cur) := by
    intro rs p v
    unfold joinStep
    split
    · show endsWithChar (c! '=') (chop1 v ++ cur) = false
      rw [endsWith_app _ _ hne]; exact h
    · exact nosoft_mark cur _ h
  obtain ⟨rs, j⟩ := s
  simp only [feedJ]
  cases j with
  | some pv => exact hjoin _ _ _
  | none =>
    simp only [hb, Bool.false_eq_true, if_false]
    split
    · show endsWithChar (c! '=') (rs.currentLine ++ cur.drop 1) = false
      cases cur with
      | nil => exact absurd rfl hne
      | cons x t =>
        rename_i hf
        have ht : t ≠ [] := by
          rintro rfl
          have : x = 32 ∨ x = 9 := by simpa [isFolded] using hf
          rcases this with rfl | rfl <;> exact absurd hb (by decide)
        simp only [List.drop_succ_cons, List.drop_zero]
        rw [endsWith_app _ _ ht, ← endsWith_app [x] t ht]; exact h
    · split
      · split
        · exact nosoft_mark cur _ h
        · split
          · exact hjoin _ _ _
          · exact nosoft_mark cur _ h
      · exact nosoft_mark cur _ h

theorem feedJ_end (E : Codecs) (s : JS) (hs : NoSoft s) (cur : QByteArray) (h : startsWithCI (b! "end:vcard") cur = true) :
    Idle (feedJ E s cur) := by
  have hm : ∀ rs : RS, Idle ⟨RS.mark cur rs, none⟩ := by
    intro rs
    unfold RS.mark
    rw [if_neg, if_pos h]
    · exact ⟨rfl, rfl, rfl⟩
    · intro hb
      rw [startsWithCI_take] at h hb
      have h1 := congrArg (List.take 1) h
      have h2 := congrArg (List.take 1) hb
      rw [List.take_take] at h1 h2
      simp only [List.length_cons, List.length_nil] at h1 h2
      have : ([101] : List UInt8) = [98] := by
        rw [show min 1 (0 + 1 + 1 + 1 + 1 + 1 + 1 + 1 + 1 + 1) = 1 from rfl] at h1
        rw [show min 1 (0 + 1 + 1 + 1 + 1 + 1 + 1 + 1 + 1 + 1 + 1 + 1) = 1 from rfl] at h2
        rw [h1] at h2
        exact h2
      exact absurd this (by decide)
  have hhead : cur.head?.map lowerByte = some 101 := by
    rw [startsWithCI_take] at h
    cases cur with
    | nil => simp at h
    | cons x t => simp at h; simp [h.1]
  have hf : isFolded cur = false ∧ isBlank cur = false := by
    cases cur with
    | nil => simp at hhead
    | cons x t =>
      simp at hhead
      apply goodStart_line
      · rintro rfl; exact absurd hhead (by decide)
      · rintro ⟨a, b⟩
        have : ∀ n : Fin 256, 9 ≤ UInt8.ofNat n.val → UInt8.ofNat n.val ≤ 13 → lowerByte (UInt8.ofNat n.val) ≠ 101 := by decide +kernel
        have := this ⟨x.toNat, x.toNat_lt⟩
        simp only [UInt8.ofNat_toNat] at this
        exact this a b hhead
  obtain ⟨rs, j⟩ := s
  simp only [feedJ]
  unfold NoSoft at hs
  cases j with
  | some pv =>
    obtain ⟨p, v⟩ := pv
    simp only at hs
    simp only [joinStep]
    rw [if_neg (by simp [hs])]
    exact hm _
  | none =>
    simp only [hf.1, hf.2, Bool.false_eq_true, if_false] at hs ⊢
    split
    · split
      · exact hm _
      · rename_i p rest hsc
        split
        · unfold joinStep
          rw [if_neg]
          · exact hm _
          · intro he
            have h1 := removeEscapes_last _ he
            obtain ⟨pre, hpre⟩ := scan_rest_suffix _ _ _ _ hsc
            have := endsWith_suffix (pre := pre) h1
            rw [← hpre, hs] at this; cases this
        · exact hm _
    · exact hm _

theorem linesOf_end (pre b : QByteArray) (h : pre = [] ∨ ∃ p, pre = p ++ [10]) : ∃ I, physLines pre = I ++ [[]] ∧ physLines (pre ++ b) = I ++ physLines b := by
  rcases h with rfl | ⟨p, rfl⟩
  · exact ⟨[], rfl, rfl⟩
  · refine ⟨physLines p, ?_, ?_⟩
    · have : p ++ [10] = p ++ 10 :: [] := rfl
      unfold physLines rawLines
      rw [this, splitOn_append_sep, List.map_append]; rfl
    · have : p ++ [10] ++ b = p ++ 10 :: b := by simp
      unfold physLines rawLines
      rw [this, splitOn_append_sep, List.map_append]

theorem physLines_blank (t : QByteArray) (h : Blank t) : ∀ l ∈ physLines t, isBlank l = true := by
  intro l hl
  rw [isBlank_iff]
  obtain ⟨x, hx, rfl⟩ := List.mem_map.1 hl
  have hxb : Blank x := by
    intro c hc
    apply h
    have : join [10] (rawLines t) = t := join_splitOn 10 t
    rw [← this]
    clear this
    revert hx hc
    generalize rawLines t = ls
    intro hx hc
    induction ls with
    | nil => simp at hx
    | cons a ls ih =>
      cases ls with
      | nil => simp at hx; subst hx; simpa [join] using hc
      | cons b ls =>
        simp only [join, List.mem_append]
        rcases List.mem_cons.1 hx with rfl | hx
        · exact .inl (.inl hc)
        · exact .inr (ih hx)
  obtain ⟨r, hr⟩ := chopCR_prefix x
  intro c hc
  apply hxb
  rw [hr]; simp [hc]

theorem complete_fold (E : Codecs) (t : QByteArray) (h : CompleteText t) :
    ∃ I, I ≠ [] ∧ physLines t = I ++ [[]] ∧ (∀ b, physLines (t ++ b) = I ++ physLines b) ∧
      ∀ s, Idle (I.foldl (feedJ E) s) := by
  obtain ⟨pre, L, A, tail, rfl, hpre, hL, hLb, hLe, hA, hAm, htb, htl⟩ := h
  obtain ⟨I1, _, e1⟩ := linesOf_end pre (L ++ [10] ++ A ++ [10] ++ tail) hpre
  have key : ∀ b, physLines (pre ++ L ++ [10] ++ A ++ [10] ++ tail ++ b) = I1 ++ chopCR L :: chopCR A :: physLines (tail ++ b) := by
    intro b
    obtain ⟨I1', e1', e2⟩ := linesOf_end pre (L ++ 10 :: (A ++ 10 :: (tail ++ b))) hpre
    obtain ⟨I1'', e1'', e3⟩ := linesOf_end pre (L ++ [10] ++ A ++ [10] ++ tail) hpre
    have : pre ++ L ++ [10] ++ A ++ [10] ++ tail ++ b = pre ++ (L ++ 10 :: (A ++ 10 :: (tail ++ b))) := by simp
    rw [this, e2, physLines_append _ _ hL, physLines_append _ _ hA]
    have : I1' = I1 := by
      have e4 : physLines pre = I1 ++ [[]] := by
        obtain ⟨J, j1, j2⟩ := linesOf_end pre (L ++ [10] ++ A ++ [10] ++ tail) hpre
        rw [j2] at e1
        have := List.append_cancel_right e1
        rw [← this]; exact j1
      rw [e4] at e1'
      exact (List.append_cancel_right e1').symm
    rw [this]
  obtain ⟨I2, e2, e3⟩ := linesOf_end tail [] htl
  refine ⟨I1 ++ chopCR L :: chopCR A :: I2, by simp, ?_, ?_, ?_⟩
  · have := key []
    simp only [List.append_nil] at this
    rw [this, e2]; simp
  · intro b
    obtain ⟨I2', e2', e3'⟩ := linesOf_end tail b htl
    rw [key, e3']
    rw [e2] at e2'
    rw [List.append_cancel_right e2']
    simp
  · intro s
    rw [List.foldl_append, List.foldl_cons, List.foldl_cons]
    have hblk : isBlank (chopCR L) = false := by
      cases hx : isBlank (chopCR L) with
      | false => rfl
      | true => exact absurd ((isBlank_iff _).1 hx) (chopCR_blank L hLb)
    have n1 := feedJ_nosoft E (I1.foldl (feedJ E) s) (chopCR L) (chopCR_equals L hLe) hblk
    have hAm' : startsWithCI (b! "end:vcard") (chopCR A) = true := by
      rw [startsWithCI_take]
      unfold chopCR
      split
      · rename_i hcr
        unfold endsWithChar at hcr
        have hne : A ≠ [] := by rintro rfl; simp at hcr
        have hd : A = A.dropLast ++ [13] := by
          have h1 := List.dropLast_concat_getLast hne
          have h2 : A.getLast hne = 13 := by
            rw [List.getLast?_eq_some_getLast hne] at hcr; simpa using hcr
          rw [h2] at h1; exact h1.symm
        unfold chop1
        rw [hd, List.map_append] at hAm
        clear hd hcr hA
        generalize A.dropLast = D at *
        by_cases hlen : 9 ≤ D.length
        · rw [List.take_append_of_le_length (by simpa using hlen)] at hAm
          exact hAm
        · exfalso
          have h8 : D.length = 8 := by
            have := congrArg List.length hAm
            simp at this; omega
          rw [List.take_of_length_le (by simp; omega)] at hAm
          have := congrArg List.getLast? hAm
          simp [lowerByte] at this
      · exact hAm
    have n2 := feedJ_end E _ n1 (chopCR A) hAm'
    exact (fold_idle_blank E I2 (fun l hl => physLines_blank tail htb l (by rw [e2]; simp [hl])) _ n2).1

/-- two states that differ only in the cards already delivered and, between cards, in the line last seen -/
structure Shifted (o : List VCard) (a b : JS) : Prop where
  join : a.join = b.join
  inV : a.rs.inVCard = b.rs.inVCard
  card : a.rs.card = b.rs.card
  cur : b.rs.inVCard = true → a.rs.currentLine = b.rs.currentLine
  out : a.rs.out = o ++ b.rs.out
  jin : b.join ≠ none → b.rs.inVCard = true

theorem shifted_mark (o : List VCard) (cur : QByteArray) (a b : RS) (hi : a.inVCard = b.inVCard) (hc : a.card = b.card) (hout : a.out = o ++ b.out) :
    Shifted o ⟨RS.mark cur a, none⟩ ⟨RS.mark cur b, none⟩ := by
  unfold RS.mark
  split
  · exact ⟨rfl, rfl, rfl, fun _ => rfl, hout, fun h => absurd rfl h⟩
  · split
    · exact ⟨rfl, rfl, rfl, fun _ => rfl, by simp [hout, hc], fun h => absurd rfl h⟩
    · exact ⟨rfl, hi, hc, fun _ => rfl, hout, fun h => absurd rfl h⟩

theorem feedJ_shift (E : Codecs) (o : List VCard) (a b : JS) (h : Shifted o a b) (cur : QByteArray) : Shifted o (feedJ E a cur) (feedJ E b cur) := by
  obtain ⟨ra, ja⟩ := a
  obtain ⟨rb, jb⟩ := b
  obtain ⟨h1, h2, h3, h4, h5, h6⟩ := h
  simp only at h1 h2 h3 h4 h5 h6
  subst h1
  have hjoin : rb.inVCard = true → ∀ p v, Shifted o (joinStep E ra p v cur) (joinStep E rb p v cur) := by
    intro hin p v
    unfold joinStep
    split
    · exact ⟨rfl, h2, h3, h4, h5, fun _ => hin⟩
    · exact shifted_mark o cur _ _ h2 (by simp only [h3]) h5
  simp only [feedJ]
  cases ja with
  | some pv => exact hjoin (h6 (by simp)) _ _
  | none =>
    simp only
    split
    · exact ⟨rfl, h2, h3, fun hi => by simp only; rw [h4 hi], h5, fun h => absurd rfl h⟩
    · split
      · exact ⟨rfl, h2, h3, h4, h5, fun h => absurd rfl h⟩
      · by_cases hin : rb.inVCard = true
        · have hc := h4 hin
          rw [h2, hc]
          split
          · split
            · exact shifted_mark o cur _ _ rfl (by simp only [h3]) h5
            · split
              · exact hjoin hin _ _
              · exact shifted_mark o cur _ _ rfl (by simp only [h3]) h5
          · exact shifted_mark o cur _ _ h2 h3 h5
        · rw [if_neg (by rw [h2]; exact fun h => hin h.1), if_neg (fun h => hin h.1)]
          exact shifted_mark o cur _ _ h2 h3 h5

theorem js_eta (s : JS) (h : s.join = none) : s = ⟨s.rs, none⟩ := by cases s; simp only at h; subst h; rfl

theorem fold_shift (E : Codecs) (o : List VCard) (ls : List QByteArray) (a b : JS) (h : Shifted o a b) :
    Shifted o (ls.foldl (feedJ E) a) (ls.foldl (feedJ E) b) := by
  induction ls generalizing a b with
  | nil => exact h
  | cons l t ih => exact ih _ _ (feedJ_shift E o a b h l)

theorem idle_shift (s : JS) (h : Idle s) : Shifted s.rs.out s {} :=
  ⟨h.1, h.2.1, h.2.2, fun hi => by simp at hi, by simp, fun hj => by simp at hj⟩

/-- C09. For every list of complete texts and any codecs there is a reading `cards t` of each text such that reading their concatenation
    gives the cards of each text, in order: nothing lost, merged or duplicated. -/
theorem C09_concatenation (E : Codecs) (texts : List (List UInt8)) (h : ∀ t ∈ texts, CompleteText t) :
    ∃ (cards : List UInt8 → List VCard) (bound : Nat), ∀ fuel ≥ bound,
      (∀ t ∈ texts, parseVCards E fuel t = some (cards t)) ∧
      parseVCards E fuel texts.flatten = some (texts.flatMap cards) := by
  -- what is read from one text
  let cards : List UInt8 → List VCard := fun t => ((physLines t).dropLast.foldl (feedJ E) {}).rs.out
  have one : ∀ t, CompleteText t → ∃ b, ∀ n ≥ b, parseVCards E n t = some (cards t) := by
    intro t ht
    obtain ⟨I, hI, e, _, hs⟩ := complete_fold E t ht
    refine ⟨I.length + 2, fun n hn => ?_⟩
    have hid := hs {}
    rw [parseVCards_of_foldJ E t I hI e (I.foldl (feedJ E) {}).rs (js_eta _ hid.1) n hn]
    simp [cards, e]
  have all : ∀ texts : List (List UInt8), (∀ t ∈ texts, CompleteText t) →
      ∃ I, physLines texts.flatten = I ++ [[]] ∧ (texts ≠ [] → I ≠ []) ∧ (∀ b, physLines (texts.flatten ++ b) = I ++ physLines b) ∧
        ∀ s, Idle s → Idle (I.foldl (feedJ E) s) ∧ (I.foldl (feedJ E) s).rs.out = s.rs.out ++ texts.flatMap cards := by
    intro texts
    induction texts with
    | nil => intro _; exact ⟨[], rfl, by simp, fun b => rfl, fun s hs => ⟨hs, by simp⟩⟩
    | cons t ts ih =>
      intro hh
      obtain ⟨I, hI, e, e', hs⟩ := complete_fold E t (hh t (by simp))
      obtain ⟨J, f, _, f', gs⟩ := ih (fun x hx => hh x (by simp [hx]))
      refine ⟨I ++ J, ?_, by simp [hI], ?_, ?_⟩
      · rw [List.flatten_cons, e', f]; simp
      · intro b
        rw [List.flatten_cons, List.append_assoc, e', f']; simp
      · intro s hid
        rw [List.foldl_append]
        obtain ⟨g1, g2⟩ := gs _ (hs s)
        refine ⟨g1, ?_⟩
        rw [g2]
        have sh := fold_shift E s.rs.out I s {} (idle_shift s hid)
        rw [sh.out, List.flatMap_cons]
        simp [cards, e]
  obtain ⟨I, e, hne, _, hs⟩ := all texts h
  -- a common bound
  have hb : ∀ texts : List (List UInt8), (∀ t ∈ texts, CompleteText t) → ∃ b, ∀ n ≥ b, ∀ t ∈ texts, parseVCards E n t = some (cards t) := by
    intro texts
    induction texts with
    | nil => intro _; exact ⟨0, by simp⟩
    | cons t ts ih =>
      intro h
      obtain ⟨b1, h1⟩ := one t (h t (by simp))
      obtain ⟨b2, h2⟩ := ih (fun x hx => h x (by simp [hx]))
      refine ⟨b1 + b2, fun n hn x hx => ?_⟩
      rcases List.mem_cons.1 hx with rfl | hx
      · exact h1 n (by omega)
      · exact h2 n (by omega) x hx
  obtain ⟨b, hb⟩ := hb texts h
  by_cases ht : texts = []
  · subst ht
    refine ⟨cards, 3, fun n hn => ⟨by simp, ?_⟩⟩
    exact parseVCards_of_readText E [] [] (by rfl) n (by simpa [physLines, rawLines, splitOn] using hn)
  · refine ⟨cards, b + (I.length + 2), fun n hn => ⟨hb n (by omega), ?_⟩⟩
    obtain ⟨s1, s2⟩ := hs {} ⟨rfl, rfl, rfl⟩
    rw [parseVCards_of_foldJ E texts.flatten I (hne ht) e (I.foldl (feedJ E) {}).rs (js_eta _ s1.1) n (by omega), s2]
    simp

/-- C09 for cards: the texts of any two lists of writable cards, one after the other, are read as the cards of both. -/
theorem C09_written_cards (E : Codecs) (a b : List (List VCardLine)) (ha : ∀ h ∈ a, ∀ l ∈ h, LineOK E l) (hb : ∀ h ∈ b, ∀ l ∈ h, LineOK E l) :
    ∃ bound, ∀ fuel ≥ bound,
      parseVCards E fuel (createVCardText E (a.map cardAfter) ++ createVCardText E (b.map cardAfter)) =
        some (a.map cardAfter ++ b.map cardAfter) := by
  obtain ⟨n, hn⟩ := C06_cards_roundtrip E (a ++ b) (by
    intro h hh
    rcases List.mem_append.1 hh with h1 | h1
    · exact ha h h1
    · exact hb h h1)
  refine ⟨n, fun f hf => ?_⟩
  have := hn f hf
  simpa [createVCardText] using this

/-- A complete text with junk in front, a soft line break inside and blank lines behind. -/
example : CompleteText (b! "junk\nBEGIN:VCARD\nNOTE;QUOTED-PRINTABLE:a=\nb\nEND:VCARD\n\r\n") := by
  refine ⟨b! "junk\nBEGIN:VCARD\nNOTE;QUOTED-PRINTABLE:a=\n", b! "b", b! "END:VCARD", b! "\r\n", by decide, .inr ⟨b! "junk\nBEGIN:VCARD\nNOTE;QUOTED-PRINTABLE:a=", by decide⟩,
    by decide, ?_, ?_, by decide, by decide, ?_, .inr ⟨b! "\r", by decide⟩⟩
  · intro h; have := h 98 (by decide); revert this; decide
  · rintro ⟨pre, h | h⟩ <;> have := congrArg List.reverse h <;> simp at this
  · intro c hc; revert c; decide

end KC
