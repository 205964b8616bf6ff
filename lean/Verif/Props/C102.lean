import Verif.Props.C101
import Verif.Props.C40
/-
  C102: comments in an LDIF file do not matter for the contacts imported from it.
-/
namespace KC
open KC.Spec

namespace Spec

/-- `WithComments t t'`: the text `t'` is `t` with comment lines put before any of its lines (but not within a folded line) and after the last one. -/
inductive WithComments : QByteArray → QByteArray → Prop
  | nil : WithComments [] []
  | line {l t t' : QByteArray} : 10 ∉ l → WithComments t t' → WithComments (l ++ 10 :: t) (l ++ 10 :: t')
  | comment {c t t' : QByteArray} : 10 ∉ c → 13 ∉ c → (∀ d, t.head? = some d → d ≠ 32 ∧ d ≠ 9) → WithComments t t' →
      WithComments t (c! '#' :: c ++ 10 :: t')

end Spec

/-! ### lines and comments -/

/-- A line or (`none`) a comment as it stands in a text. -/
def LineO (t : QByteArray) : Option QByteArray → Prop
  | some u => LineText t u
  | none => ∃ c, t = c! '#' :: c ∧ 10 ∉ c ∧ 13 ∉ c

/-- The state with the line read but not processed. -/
def pend (s : Ldif) : Option QByteArray → Ldif
  | some u => { s with line := u, isNewLine := true }
  | none => { s with line := [], isNewLine := true, isComment := true }

def runO (s : Ldif) : List (Option QByteArray) → List LdifEvent
  | [] => []
  | o :: os => ldifEmit (pend s o).next.1 (pend s o).next.2 ++ runO (pend s o).next.2 os

private theorem in_comment (c : QByteArray) (h10 : 10 ∉ c) (h13 : 13 ∉ c) (s : Ldif) (h1 : s.isNewLine = false) (h2 : s.isComment = true) :
    ldifFeed s c = ([], s) := by
  induction c with
  | nil => rfl
  | cons d c ih =>
    have d10 : d ≠ 10 := fun e => h10 (by simp [e])
    have d13 : d ≠ 13 := fun e => h13 (by simp [e])
    have e : s.char d = (.none, s) := by simp [Ldif.char, h1, h2, d10, d13]
    rw [ldifFeed, e]
    simp only [ih (fun h => h10 (by simp [h])) (fun h => h13 (by simp [h])), ldifEmit, if_true, List.nil_append]

private theorem feed_lineO {t : QByteArray} {o : Option QByteArray} (h : LineO t o) (s : Ldif) (hs : s.isNewLine = true) :
    (ldifFeed s (t ++ [10])).1.map LdifEvent.noLine = (ldifEmit s.next.1 s.next.2).map LdifEvent.noLine ∧
    Alike (pend s.next.2 o) (ldifFeed s (t ++ [10])).2 := by
  cases o with
  | some u => exact ldifFeed_line h s hs
  | none =>
    obtain ⟨c, rfl, h10, h13⟩ := h
    have e : s.char (c! '#') = (s.next.1, { s.next.2 with isComment := true }) := by
      simp [Ldif.char, Ldif.next, hs]
    have hn : ({ s.next.2 with isComment := true } : Ldif).isNewLine = false := next_newLine s
    have e10 : ∀ w : Ldif, w.isNewLine = false → w.char 10 = (.none, { w with lineNumber := w.lineNumber + 1, isNewLine := true }) := by
      intro w hw; simp [Ldif.char, hw]
    rw [List.cons_append, ldifFeed, e]
    dsimp only
    rw [ldifFeed_append, in_comment c h10 h13 _ hn rfl]
    dsimp only
    simp only [ldifFeed, e10 _ hn, List.nil_append, List.append_nil]
    have hl : s.next.2.line = [] := rfl
    refine ⟨?_, s.next.2.rest, s.next.2.lineNumber + 1, s.next.2.last, Iff.rfl, ?_⟩
    · have e0 : ∀ w : Ldif, ldifEmit .none w = [] := fun _ => rfl
      rw [e0, List.append_nil]
      unfold ldifEmit; split <;> rfl
    · unfold pend Ldif.around
      rw [← hl]

private theorem runO_alike (os : List (Option QByteArray)) : ∀ {s s' : Ldif}, Alike s s' → (runO s' os).map LdifEvent.noLine = (runO s os).map LdifEvent.noLine := by
  induction os with
  | nil => intros; rfl
  | cons o os ih =>
    intro s s' h
    have hp : Alike (pend s o) (pend s' o) := by
      obtain ⟨r, n, l, hl, rfl⟩ := h
      cases o <;> exact ⟨r, n, l, hl, rfl⟩
    have hn := next_alike hp
    simp only [runO, List.map_append]
    rw [hn.1, ldifEmit_alike _ hn.2, ih hn.2]

private theorem feed_linesO {ls : List (QByteArray × Option QByteArray)} (h : ∀ p ∈ ls, LineO p.1 p.2) : ∀ (s : Ldif), s.isNewLine = true →
    (ldifFeed s (textOf (ls.map Prod.fst ++ [[]]))).1.map LdifEvent.noLine = (ldifEmit s.next.1 s.next.2 ++ runO s.next.2 (ls.map Prod.snd)).map LdifEvent.noLine := by
  induction ls with
  | nil =>
    intro s hs
    have hl := feed_lineO (t := []) (o := some []) (.inl ⟨rfl, rfl⟩) s hs
    simp only [textOf, List.nil_append, List.map_cons, List.map_nil, List.flatten_cons, List.flatten_nil, List.append_nil, runO]
    exact hl.1
  | cons p ls ih =>
    intro s hs
    have hl := feed_lineO (h p (by simp)) s hs
    have e : textOf ((p :: ls).map Prod.fst ++ [[]]) = (p.1 ++ [10]) ++ textOf (ls.map Prod.fst ++ [[]]) := by simp [textOf]
    have hp : (pend s.next.2 p.2).isNewLine = true := by cases p.2 <;> rfl
    rw [e, ldifFeed_append]
    simp only [List.map_append]
    rw [hl.1, (ldifFeed_alike hl.2 _).1, ih (fun q hq => h q (by simp [hq])) _ hp]
    simp only [List.map_cons, runO, List.map_append]

/-! ### the lines of a text with comments -/

private theorem comments_only {t t' : QByteArray} (h : WithComments t t') (ht : t = []) :
    ∃ ms : List (QByteArray × Option QByteArray), t' = textOf (ms.map Prod.fst) ∧ (∀ p ∈ ms, LineO p.1 p.2) ∧ ms.filterMap Prod.snd = [] := by
  induction h with
  | nil => exact ⟨[], rfl, by simp, rfl⟩
  | line => simp at ht
  | @comment c t t' h1 h2 _ _ ih =>
    obtain ⟨ms, k1, k2, k3⟩ := ih ht
    refine ⟨(c! '#' :: c, none) :: ms, by rw [k1]; simp [textOf], ?_, by simp [k3]⟩
    intro p hp
    rcases List.mem_cons.1 hp with rfl | hp
    · exact ⟨c, rfl, h1, h2⟩
    · exact k2 p hp

/-- Every line end within is that of a fold. -/
private def Fold10 (r : QByteArray) : Prop := ∀ a b, r = a ++ 10 :: b → ∃ d b', b = d :: b' ∧ (d = 32 ∨ d = 9)

private theorem folded_fold10 {t u : QByteArray} (h : Folded t u) : Fold10 t := by
  induction h with
  | nil => intro a b e; simp at e
  | @char c t u h1 h2 h ih =>
    intro a b e
    cases a with
    | nil => simp at e; exact absurd e.1 h1
    | cons x a => simp at e; exact ih a b e.2
  | @fold w t u hw h ih =>
    intro a b e
    cases a with
    | nil => simp at e; exact ⟨w, t, e.symm, hw⟩
    | cons x a =>
      simp at e
      cases a with
      | nil => simp at e; rcases hw with hw | hw <;> simp [hw] at e
      | cons y a => simp at e; exact ih a b e.2.2

private theorem lineText_fold10 {t u : QByteArray} (h : LineText t u) : Fold10 t ∧ ∀ d, (t ++ [10]).head? = some d → d ≠ 32 ∧ d ≠ 9 := by
  rcases h with ⟨rfl, rfl⟩ | ⟨c, t', u', rfl, rfl, hc, hf⟩
  · exact ⟨fun a b e => by simp at e, fun d hd => by simp at hd; subst hd; decide⟩
  · exact ⟨folded_fold10 (.char hc.1 hc.2.1 hf), fun d hd => by simp at hd; subst hd; exact ⟨hc.2.2.1, hc.2.2.2.1⟩⟩

private theorem cut10 {l t r s : QByteArray} (hl : 10 ∉ l) (h : l ++ 10 :: t = r ++ 10 :: s) : (l = r ∧ t = s) ∨ ∃ w, r = l ++ 10 :: w ∧ t = w ++ 10 :: s := by
  induction l generalizing r with
  | nil =>
    cases r with
    | nil => simp at h; exact .inl ⟨rfl, h⟩
    | cons x r => simp at h; exact .inr ⟨r, by simp [h.1], h.2⟩
  | cons y l ih =>
    have hy : y ≠ 10 := fun e => hl (by simp [e])
    cases r with
    | nil => simp at h; exact absurd h.1 hy
    | cons x r =>
      simp at h
      rcases ih (fun e => hl (by simp [e])) h.2 with ⟨k1, k2⟩ | ⟨w, k1, k2⟩
      · exact .inl ⟨by rw [h.1, k1], k2⟩
      · exact .inr ⟨w, by rw [h.1, k1]; rfl, k2⟩

private theorem comment_lines {t t' : QByteArray} (h : WithComments t t') : ∀ (r : QByteArray) (ls : List (QByteArray × QByteArray)),
    t = r ++ 10 :: textOf (ls.map Prod.fst) → Fold10 r → (∀ p ∈ ls, LineText p.1 p.2) →
    ∃ cs ms : List (QByteArray × Option QByteArray), t' = textOf (cs.map Prod.fst) ++ (r ++ 10 :: textOf (ms.map Prod.fst)) ∧
      (∀ p ∈ cs, LineO p.1 p.2 ∧ p.2 = none) ∧ (∀ p ∈ ms, LineO p.1 p.2) ∧ ms.filterMap Prod.snd = ls.map Prod.snd ∧
      ((∃ d, r.head? = some d ∧ (d = 32 ∨ d = 9)) → cs = []) := by
  induction h with
  | nil => intro r ls e; simp at e
  | @line l t t' hl h ih =>
    intro r ls e hr hls
    rcases cut10 hl e with ⟨rfl, rfl⟩ | ⟨w, rfl, rfl⟩
    · cases ls with
      | nil =>
        obtain ⟨ms, k1, k2, k3⟩ := comments_only h rfl
        exact ⟨[], ms, by rw [k1]; rfl, by simp, k2, by simp [k3], fun _ => rfl⟩
      | cons p ls =>
        have hp := lineText_fold10 (hls p (by simp))
        obtain ⟨cs, ms, k1, k2, k3, k4, -⟩ := ih p.1 ls (by simp [textOf]) hp.1 (fun q hq => hls q (by simp [hq]))
        refine ⟨[], cs ++ (p.1, some p.2) :: ms, ?_, by simp, ?_, ?_, fun _ => rfl⟩
        · rw [k1]; simp [textOf]
        · intro q hq
          simp only [List.mem_append, List.mem_cons] at hq
          rcases hq with hq | rfl | hq
          · exact (k2 q hq).1
          · exact hls p (by simp)
          · exact k3 q hq
        · have : cs.filterMap Prod.snd = [] := by
            rw [List.filterMap_eq_nil_iff]
            exact fun q hq => (k2 q hq).2
          simp [this, k4]
    · obtain ⟨d, w', rfl, hd⟩ := hr l w rfl
      obtain ⟨cs, ms, k1, k2, k3, k4, k5⟩ := ih (d :: w') ls rfl (by
        intro a b e
        obtain ⟨x, b', h1, h2⟩ := hr (l ++ 10 :: a) b (by rw [e]; simp)
        exact ⟨x, b', h1, h2⟩) hls
      have hcs := k5 ⟨d, rfl, hd⟩
      subst hcs
      exact ⟨[], ms, by rw [k1]; simp [textOf], by simp, k3, k4, fun _ => rfl⟩
  | @comment c t t' h1 h2 h3 h ih =>
    intro r ls e hr hls
    obtain ⟨cs, ms, k1, k2, k3, k4, k5⟩ := ih r ls e hr hls
    refine ⟨(c! '#' :: c, none) :: cs, ms, by rw [k1]; simp [textOf], ?_, k3, k4, ?_⟩
    · intro q hq
      rcases List.mem_cons.1 hq with rfl | hq
      · exact ⟨⟨c, rfl, h1, h2⟩, rfl⟩
      · exact k2 q hq
    · rintro ⟨d, hd, hd'⟩
      have : t.head? = some d := by
        rw [e]
        cases r with
        | nil => simp at hd
        | cons x r => simpa using hd
      have := h3 d this
      rcases hd' with rfl | rfl
      · exact absurd rfl this.1
      · exact absurd rfl this.2

/-- A text with comments, line by line. -/
private theorem all_lines {ls : List (QByteArray × QByteArray)} (hls : ∀ p ∈ ls, LineText p.1 p.2) {t' : QByteArray} (h : WithComments (textOf (ls.map Prod.fst)) t') :
    ∃ ms : List (QByteArray × Option QByteArray), t' = textOf (ms.map Prod.fst) ∧ (∀ p ∈ ms, LineO p.1 p.2) ∧ ms.filterMap Prod.snd = ls.map Prod.snd := by
  cases ls with
  | nil => exact comments_only h rfl
  | cons p ls =>
    have hp := lineText_fold10 (hls p (by simp))
    obtain ⟨cs, ms, k1, k2, k3, k4, -⟩ := comment_lines h p.1 ls (by simp [textOf]) hp.1 (fun q hq => hls q (by simp [hq]))
    refine ⟨cs ++ (p.1, some p.2) :: ms, by rw [k1]; simp [textOf], ?_, ?_⟩
    · intro q hq
      simp only [List.mem_append, List.mem_cons] at hq
      rcases hq with hq | rfl | hq
      · exact (k2 q hq).1
      · exact hls p (by simp)
      · exact k3 q hq
    · have : cs.filterMap Prod.snd = [] := by
        rw [List.filterMap_eq_nil_iff]
        exact fun q hq => (k2 q hq).2
      simp [this, k4]

/-! ### what the import sees -/

/-- In an entry of attributes or outside of any. -/
private def Plain (s : Ldif) : Prop := s.isComment = false ∧ (s.entryType = .none ∨ s.entryType = .add)

private theorem plain_cases {s : Ldif} (h : Plain s) : Ready s ∨ InEntry s := by
  obtain ⟨h1, h2⟩ := h
  by_cases hl : s.last = .endEntry
  · exact .inl ⟨h1, by rw [if_pos hl]⟩
  · rcases h2 with h2 | h2
    · exact .inl ⟨h1, by rw [if_neg hl, h2]⟩
    · exact .inr ⟨h1, h2, hl⟩

private theorem comment_next (s : Ldif) : (pend s none).next = (.none, { s with line := [], isNewLine := false, isComment := false, last := .none }) := by
  unfold pend Ldif.next Ldif.processLine
  rfl

private theorem advance (P : Ldif → Prop) (hP : ∀ s, P s → P (pend s none).next.2) (os : List (Option QByteArray)) : ∀ (s : Ldif) (u : QByteArray)
    (us : List QByteArray), P s → os.filterMap id = u :: us →
    ∃ s₁ os', P s₁ ∧ os'.filterMap id = us ∧ runO s os = ldifEmit (s₁.proc u).1 (s₁.proc u).2 ++ runO (s₁.proc u).2 os' := by
  induction os with
  | nil => intro s u us _ e; simp at e
  | cons o os ih =>
    intro s u us hs e
    cases o with
    | none =>
      obtain ⟨s₁, os', k1, k2, k3⟩ := ih _ u us (hP s hs) (by simpa using e)
      refine ⟨s₁, os', k1, k2, ?_⟩
      rw [runO, k3, comment_next]
      rfl
    | some v =>
      simp at e
      obtain ⟨rfl, e⟩ := e
      exact ⟨s, os, hs, e, rfl⟩

private theorem plain_comment (s : Ldif) (h : Plain s) : Plain (pend s none).next.2 := by
  rw [comment_next]
  exact ⟨rfl, h.2⟩

private theorem inEntry_comment (s : Ldif) (h : InEntry s) : InEntry (pend s none).next.2 := by
  rw [comment_next]
  exact ⟨rfl, h.2.1, fun e => by cases e⟩

private theorem inEntry_plain {s : Ldif} (h : InEntry s) : Plain s := ⟨h.1, .inr h.2.1⟩

section
variable (E : LdifEnv) (ids : Nat → QString) (now : QDateTime)

private def eff (es : List LdifEvent) (x : ImportState) : ImportState := (es.map LdifEvent.short).foldl (ldifStep E ids now) x

private theorem eff_append (a b : List LdifEvent) (x : ImportState) : eff E ids now (a ++ b) x = eff E ids now b (eff E ids now a x) := by
  unfold eff
  rw [List.map_append, List.foldl_append]

private theorem step_ignored (x : ImportState) (a : QString) (v : QByteArray) (u : Bool) (h : toLowerQ a = q! "dn" ∨ startsWith (q! "#") (toLowerQ a) = true) :
    ldifStep E ids now x ⟨.item, a, v, u⟩ = x := by
  unfold ldifStep evaluatePair
  have : ∀ b, ldifField b (toLowerQ a) = .ignored := by
    intro b
    unfold ldifField
    rcases h with h | h
    · rw [if_pos h]
    · rw [if_pos h, ite_self]
  simp only [this]
  rfl

/-- The line with the distinguished name changes nothing in the import. -/
private theorem plain_dn {s : Ldif} (h : Plain s) (v : QByteArray) (x : ImportState) :
    eff E ids now (ldifEmit (s.proc (plainLine (q! "dn") v)).1 (s.proc (plainLine (q! "dn") v)).2) x = x ∧ Plain (s.proc (plainLine (q! "dn") v)).2 := by
  have hsp := splitLine_plain dn_name v
  rcases plain_cases h with h' | h'
  · have k := ready_dn h' hsp
    refine ⟨by unfold eff; rw [k.1]; rfl, k.2.1, ?_⟩
    have e : ((s.proc (plainLine (q! "dn") v)).2.entryType) = .none := by
      rw [proc_eq s _ _ v false h'.1 hsp, h'.2]
      have e1 : q! "dn" ≠ q! "version" := by decide
      have e2 : toLowerQ (q! "dn") = q! "dn" := by decide
      simp only [Ldif.lineOf, Ldif.lineNone, e2, if_neg e1, if_true]
    exact .inl e
  · have k := inEntry_item h' hsp (by simp)
    refine ⟨?_, inEntry_plain k.2⟩
    unfold eff
    rw [k.1]
    exact step_ignored E ids now x _ _ _ (.inl (by decide))

private theorem plain_item {s : Ldif} (h : Plain s) {a : QString} {v : QByteArray} (ha : LdifName a) (hv : v ≠ []) (hk : toLowerQ a ∉ ldifKeywords) :
    (ldifEmit (s.proc (plainLine a v)).1 (s.proc (plainLine a v)).2).map LdifEvent.short = [⟨.item, a, v, false⟩] ∧ InEntry (s.proc (plainLine a v)).2 := by
  rcases plain_cases h with h' | h'
  · exact ready_item h' (splitLine_plain ha v) ha.nonempty hv hk
  · exact inEntry_item h' (splitLine_plain ha v) (plain_ne ha v)

private theorem attrs_eff (as : List (QString × QByteArray)) (h : ∀ a ∈ as, LdifName a.1) : ∀ (os : List (Option QByteArray)) (us : List QByteArray) (s : Ldif)
    (x : ImportState), InEntry s → os.filterMap id = (as.map fun a => plainLine a.1 a.2) ++ us →
    ∃ s' os', InEntry s' ∧ os'.filterMap id = us ∧
      eff E ids now (runO s os) x = eff E ids now (runO s' os') ((as.map fun a => (⟨.item, a.1, a.2, false⟩ : LdifItem)).foldl (ldifStep E ids now) x) := by
  induction as with
  | nil => intro os us s x hs e; exact ⟨s, os, hs, e, rfl⟩
  | cons a as ih =>
    intro os us s x hs e
    obtain ⟨s₁, os₁, k1, k2, k3⟩ := advance InEntry inEntry_comment os s _ _ hs e
    have hi := inEntry_item k1 (splitLine_plain (h a (by simp)) a.2) (plain_ne (h a (by simp)) a.2)
    obtain ⟨s', os', j1, j2, j3⟩ := ih (fun b hb => h b (by simp [hb])) os₁ us _ (eff E ids now (ldifEmit (s₁.proc (plainLine a.1 a.2)).1 (s₁.proc (plainLine a.1 a.2)).2) x) hi.2 k2
    refine ⟨s', os', j1, j2, ?_⟩
    rw [k3, eff_append, j3]
    have : eff E ids now (ldifEmit (s₁.proc (plainLine a.1 a.2)).1 (s₁.proc (plainLine a.1 a.2)).2) x = ldifStep E ids now x ⟨.item, a.1, a.2, false⟩ := by
      unfold eff
      rw [hi.1]
      rfl
    rw [this]
    rfl

private theorem record_eff (r : LdifRecord) (h : r.Proper) (os : List (Option QByteArray)) (us : List QByteArray) (s : Ldif) (x : ImportState) (hs : Plain s)
    (e : os.filterMap id = recordLines r ++ us) : ∃ s' os', Plain s' ∧ os'.filterMap id = us ∧
      eff E ids now (runO s os) x = eff E ids now (runO s' os') (r.items.foldl (ldifStep E ids now) x) := by
  obtain ⟨a, as, ha, hv, hk⟩ := h.first
  have hn := h.names
  rw [ha] at hn
  unfold recordLines at e
  rw [ha] at e
  simp only [List.map_cons, List.cons_append, List.append_assoc, List.nil_append] at e
  obtain ⟨s₁, os₁, k1, k2, k3⟩ := advance Plain plain_comment os s _ _ hs e
  have hd := plain_dn E ids now k1 r.dn x
  obtain ⟨s₂, os₂, l1, l2, l3⟩ := advance Plain plain_comment os₁ _ _ _ hd.2 k2
  have hi := plain_item l1 (hn a (by simp)) hv hk
  obtain ⟨s₃, os₃, m1, m2, m3⟩ := attrs_eff E ids now as (fun b hb => hn b (by simp [hb])) os₂ _ _ (ldifStep E ids now x ⟨.item, a.1, a.2, false⟩) hi.2 l2
  obtain ⟨s₄, os₄, p1, p2, p3⟩ := advance InEntry inEntry_comment os₃ s₃ _ _ m1 m2
  have he := inEntry_end p1
  refine ⟨_, os₄, ⟨he.2.1, ?_⟩, p2, ?_⟩
  · right
    rw [proc_eq s₄ [] [] [] false p1.1 splitLine_nil]
    simp [p1.2.2, p1.2.1, Ldif.lineOf]
  · rw [k3, eff_append, hd.1, l3, eff_append]
    have e1 : eff E ids now (ldifEmit (s₂.proc (plainLine a.1 a.2)).1 (s₂.proc (plainLine a.1 a.2)).2) x = ldifStep E ids now x ⟨.item, a.1, a.2, false⟩ := by
      unfold eff
      rw [hi.1]
      rfl
    rw [e1, m3, p3, eff_append]
    congr 1
    unfold eff
    rw [he.1]
    unfold LdifRecord.items
    rw [ha]
    simp only [List.map_cons, List.cons_append, List.foldl_cons, List.foldl_append]
    rfl

private theorem ends_eff (os : List (Option QByteArray)) : ∀ (s : Ldif), Plain s → (∀ u ∈ os.filterMap id, u = []) → Ends ((runO s os).map LdifEvent.short) := by
  induction os with
  | nil => intro s _ _ i hi; simp [runO] at hi
  | cons o os ih =>
    intro s hs hu i hi
    cases o with
    | none =>
      rw [runO, comment_next] at hi
      have hi' : i ∈ (runO (pend s none).next.2 os).map LdifEvent.short := by rw [comment_next]; exact hi
      exact ih _ (plain_comment s hs) (fun u hm => hu u (by simpa using hm)) i hi'
    | some u =>
      have : u = [] := hu u (by simp)
      subst this
      rw [runO, List.map_append, List.mem_append] at hi
      rcases plain_cases hs with h | h
      · have k := ready_blank h
        have k0 : ldifEmit (pend s (some [])).next.1 (pend s (some [])).next.2 = [] := k.1
        rw [k0] at hi
        rcases hi with hi | hi
        · simp at hi
        · refine ih _ ⟨rfl, ?_⟩ (fun u hm => hu u (by simp at hm ⊢; exact .inr hm)) i hi
          left
          show (s.proc []).2.entryType = .none
          rw [proc_eq s [] [] [] false h.1 splitLine_nil, h.2]
          simp only [Ldif.lineOf]
          rw [lineNone_blank _ rfl rfl]
      · have k := inEntry_end h
        have k0 : (ldifEmit (pend s (some [])).next.1 (pend s (some [])).next.2).map LdifEvent.short = [⟨.endEntry, [], [], false⟩] := k.1
        rw [k0] at hi
        rcases hi with hi | hi
        · simp at hi
          rw [hi]
        · refine ih _ ⟨rfl, ?_⟩ (fun u hm => hu u (by simp at hm ⊢; exact .inr hm)) i hi
          right
          show (s.proc []).2.entryType = .add
          rw [proc_eq s [] [] [] false h.1 splitLine_nil]
          simp [h.2.2, h.2.1, Ldif.lineOf]

private theorem records_eff (rs : List LdifRecord) (h : ∀ r ∈ rs, r.Proper) : ∀ (os : List (Option QByteArray)) (s : Ldif) (n : Nat) (b : Int × Int × Int)
    (out : List Contact × List Group), Plain s → os.filterMap id = rs.flatMap recordLines ++ [[], []] →
    (eff E ids now (runO s os) (ldifFresh E ids now n b.2.2 b.2.1 b.1, out)).2 =
      ((rs.flatMap LdifRecord.items).foldl (ldifStep E ids now) (ldifFresh E ids now n b.2.2 b.2.1 b.1, out)).2 := by
  induction rs with
  | nil =>
    intro os s n b out hs e
    refine ends_fresh E ids now _ (ends_eff os s hs ?_) _ _ _ _ _
    rw [e]
    simp
  | cons r rs ih =>
    intro os s n b out hs e
    rw [List.flatMap_cons, List.append_assoc] at e
    obtain ⟨s', os', k1, k2, k3⟩ := record_eff E ids now r (h r (by simp)) os _ s (ldifFresh E ids now n b.2.2 b.2.1 b.1, out) hs e
    rw [k3, List.flatMap_cons, List.foldl_append, step_record]
    exact ih (fun q hq => h q (by simp [hq])) os' s' _ (birthOf b r.attrs) _ k1 k2

private theorem split_hash (c : QByteArray) : (splitLine (c! '#' :: c)).1 = [] ∨ ∃ a, (splitLine (c! '#' :: c)).1 = qc! '#' :: a := by
  unfold splitLine
  cases hi : indexOf? (c! ':') (c! '#' :: c) with
  | none => exact .inl rfl
  | some p =>
    right
    have hp : ∃ k, p = k + 1 := by
      rw [indexOf?, if_neg (by decide)] at hi
      cases hj : indexOf? (c! ':') c with
      | none => rw [hj] at hi; simp at hi
      | some k => rw [hj] at hi; exact ⟨k, (by simpa using hi.symm)⟩
    obtain ⟨k, rfl⟩ := hp
    obtain ⟨m, hm⟩ := trim_start (c! '#') (c.take k) (by decide)
    have hf : ∃ a, fromUtf8 (trimmedB ((c! '#' :: c).take (k + 1))) = qc! '#' :: a := by
      rw [List.take_succ_cons, hm]
      unfold fromUtf8
      have hnb : (c! '#' :: m).take 3 ≠ [0xEF, 0xBB, 0xBF] := by
        intro h
        simp only [List.take_succ_cons, List.cons.injEq] at h
        exact absurd h.1 (by decide)
      rw [if_neg hnb, decodeUtf8]
      have : utf8Head (c! '#') m = ([qc! '#'], 0) := by
        unfold utf8Head
        rw [if_pos (by decide)]
        rfl
      rw [this]
      exact ⟨_, rfl⟩
    obtain ⟨a, ha⟩ := hf
    refine ⟨a, ?_⟩
    dsimp only
    repeat' split
    all_goals exact ha

/-- A comment in the first line is read as an attribute, which the import ignores. -/
private theorem first_comment (c : QByteArray) (x : ImportState) (k : Nat) :
    eff E ids now (ldifEmit (Ldif.next { line := c! '#' :: c, isNewLine := true, lineNumber := k }).1 (Ldif.next { line := c! '#' :: c, isNewLine := true, lineNumber := k }).2) x = x ∧
    Plain (Ldif.next { line := c! '#' :: c, isNewLine := true, lineNumber := k }).2 := by
  have hh := split_hash c
  unfold Ldif.next Ldif.processLine
  dsimp only
  rw [if_neg (by decide), if_neg (by decide)]
  generalize (splitLine (c! '#' :: c)).1 = a at hh
  generalize (splitLine (c! '#' :: c)).2.1 = v
  generalize (splitLine (c! '#' :: c)).2.2 = u
  have hk : ∀ w : QString, w.head? ≠ some (qc! '#') → w ≠ [] → toLowerQ a ≠ w := by
    intro w h1 h2 e
    rcases hh with rfl | ⟨b, rfl⟩
    · exact h2 e.symm
    · rw [← e] at h1
      exact h1 rfl
  simp only [Ldif.lineOf, Ldif.lineNone]
  rw [if_neg (hk _ (by decide) (by decide)), if_neg (hk _ (by decide) (by decide)), if_neg (hk _ (by decide) (by decide)), if_neg (hk _ (by decide) (by decide))]
  split
  · rename_i hv
    refine ⟨?_, rfl, .inr rfl⟩
    refine step_ignored E ids now x _ _ _ (.inr ?_)
    rcases hh with rfl | ⟨b, rfl⟩
    · simp at hv
    · show startsWith (q! "#") (toLowerQ (qc! '#' :: b)) = true
      rfl
  · exact ⟨rfl, rfl, .inl rfl⟩

end

/-- C102: comment lines anywhere in a file of properly written entries change nothing of what is imported from it. -/
theorem C102 (E : LdifEnv) (ids : Nat → QString) (now : QDateTime) (k linelen : Nat) (rs : List LdifRecord) (h : ∀ r ∈ rs, r.Proper) (text : QByteArray)
    (ht : WithComments (rs.flatMap (LdifRecord.text linelen)) text) (result : List Contact × List Group) :
    ImportGives E ids now k text result ↔ ImportGives E ids now k (rs.flatMap (LdifRecord.text linelen)) result := by
  unfold ImportGives
  generalize (fun i => ids (k + i)) = ids'
  rw [import_all E ids' now linelen rs h, import_eq, toLatin1_document]
  obtain ⟨ls, h1, h2, h3⟩ := records_text linelen rs (fun r hr => (h r hr).names)
  rw [h2] at ht
  obtain ⟨ms, m1, m2, m3⟩ := all_lines h1 ht
  rw [h3] at m3
  have goal : (importState E ids' now (text ++ [10, 10, 10])).2 =
      ((rs.flatMap LdifRecord.items).foldl (ldifStep E ids' now) (ldifFresh E ids' now 0 (-1) (-1) (-1), ([], []))).2 := by
    have e : text ++ [10, 10, 10] = textOf ((ms ++ [([], some []), ([], some [])]).map Prod.fst ++ [[]]) := by rw [m1]; simp [textOf]
    have m2' : ∀ p ∈ ms ++ [([], some []), ([], some [])], LineO p.1 p.2 := by
      intro p hp
      simp only [List.mem_append, List.mem_cons, List.not_mem_nil, or_false, or_self] at hp
      rcases hp with hp | rfl
      · exact m2 p hp
      · exact .inl ⟨rfl, rfl⟩
    have m3' : (ms ++ [([], some []), ([], some [])]).filterMap Prod.snd = rs.flatMap recordLines ++ [[], []] := by simp [m3]
    rw [e]
    revert m2' m3'
    cases hm : ms ++ [([], some []), ([], some [])] with
    | nil => simp at hm
    | cons p qs =>
      intro m2' m3'
      have hq := fun q hq => m2' q (List.mem_cons_of_mem _ hq)
      have hp := m2' p (by simp)
      have e2 : textOf ((p :: qs).map Prod.fst ++ [[]]) = (p.1 ++ [10]) ++ textOf (qs.map Prod.fst ++ [[]]) := by simp [textOf]
      obtain ⟨t, o⟩ := p
      cases o with
      | some u =>
        have hs := feed_linesO (ls := (t, some u) :: qs) m2' { isNewLine := true } rfl
        have n : Ldif.next { isNewLine := true } = (.none, {}) := by decide
        rw [n] at hs
        have hc : ∃ c w, textOf (((t, some u) :: qs).map Prod.fst ++ [[]]) = c :: w ∧ (c = 10 ∨ LineStart c) := by
          rcases hp with ⟨rfl, rfl⟩ | ⟨c, t', u', rfl, rfl, hc, hf⟩
          · exact ⟨10, _, by rw [e2]; rfl, .inl rfl⟩
          · exact ⟨c, _, by rw [e2]; rfl, .inr hc⟩
        obtain ⟨c, w, hw, hc⟩ := hc
        rw [hw] at hs ⊢
        unfold importState
        rw [ldifFeed_first w c hc, short_of_noLine hs]
        have e0 : ldifEmit .none ({} : Ldif) = [] := rfl
        rw [e0, List.nil_append]
        exact records_eff E ids' now rs h _ {} 0 (-1, -1, -1) ([], []) ⟨rfl, .inl rfl⟩ (by rw [← m3', List.filterMap_map]; rfl)
      | none =>
        obtain ⟨c, rfl, h10, h13⟩ := hp
        have hf : Folded (c! '#' :: c) (c! '#' :: c) := by
          have : ∀ d : QByteArray, 10 ∉ d → 13 ∉ d → Folded d d := by
            intro d
            induction d with
            | nil => intros; exact .nil
            | cons x d ih =>
              intro h1 h2
              exact .char (fun e => h1 (by simp [e])) (fun e => h2 (by simp [e])) (ih (fun e => h1 (by simp [e])) (fun e => h2 (by simp [e])))
          exact this _ (by simp [h10]) (by simp [h13])
        obtain ⟨k, hk⟩ := ldifFeed_in_line hf {} rfl rfl
        have e10 : ∀ w : Ldif, w.isNewLine = false → w.char 10 = (.none, { w with lineNumber := w.lineNumber + 1, isNewLine := true }) := by
          intro w hw; simp [Ldif.char, hw]
        have h0 : ∃ j, ldifFeed {} (c! '#' :: c ++ [10]) = ([], { line := c! '#' :: c, isNewLine := true, lineNumber := j }) := by
          rw [ldifFeed_append, hk]
          dsimp only
          rw [ldifFeed, e10 _ rfl]
          exact ⟨_, rfl⟩
        obtain ⟨j, h0⟩ := h0
        have hs := feed_linesO (ls := qs) hq { line := c! '#' :: c, isNewLine := true, lineNumber := j } rfl
        obtain ⟨f1, f2⟩ := first_comment E ids' now c (ldifFresh E ids' now 0 (-1) (-1) (-1), ([], [])) j
        unfold importState
        rw [e2, ldifFeed_append]
        simp only [h0, List.nil_append]
        rw [short_of_noLine hs]
        have := eff_append E ids' now (ldifEmit (Ldif.next { line := c! '#' :: c, isNewLine := true, lineNumber := j }).1
          (Ldif.next { line := c! '#' :: c, isNewLine := true, lineNumber := j }).2)
          (runO (Ldif.next { line := c! '#' :: c, isNewLine := true, lineNumber := j }).2 (qs.map Prod.snd)) (ldifFresh E ids' now 0 (-1) (-1) (-1), ([], []))
        rw [f1] at this
        refine (congrArg Prod.snd this).trans ?_
        exact records_eff E ids' now rs h _ _ 0 (-1, -1, -1) ([], []) f2 (by rw [← m3', List.filterMap_map]; rfl)
  rw [goal]

/-- C102 does not hold for files with change records: behind a comment, an entry that is to be deleted is imported. -/
theorem C102_change_false : ¬ ∀ (E : LdifEnv) (ids : Nat → QString) (now : QDateTime) (t text : QByteArray), WithComments t text → ∀ result,
    ImportGives E ids now 0 text result → ImportGives E ids now 0 t result := by
  intro h
  have w : WithComments (b! "dn: a\ncn: a\n\ndn: b\nchangetype: delete\ncn: b\n\n") (b! "dn: a\ncn: a\n\n# old\ndn: b\nchangetype: delete\ncn: b\n\n") :=
    .line (l := b! "dn: a") (by decide) (.line (l := b! "cn: a") (by decide) (.line (l := []) (by decide) (.comment (c := b! " old") (by decide) (by decide)
      (by intro d hd; simp at hd; subst hd; decide) (.line (l := b! "dn: b") (by decide) (.line (l := b! "changetype: delete") (by decide)
        (.line (l := b! "cn: b") (by decide) (.line (l := []) (by decide) .nil)))))))
  obtain ⟨r, hr⟩ := C43_total sampleLdifEnv (fun i => (fun _ => []) (0 + i)) sampleNow (documentString (b! "dn: a\ncn: a\n\n# old\ndn: b\nchangetype: delete\ncn: b\n\n"))
  have h1 : ldifToAddressee sampleLdifEnv (fun i => (fun _ => []) (0 + i)) sampleNow (documentString (b! "dn: a\ncn: a\n\ndn: b\nchangetype: delete\ncn: b\n\n")) = some r :=
    h sampleLdifEnv (fun _ => []) sampleNow _ _ w r hr
  have b1 : (ldifToAddressee sampleLdifEnv (fun i => (fun _ => []) (0 + i)) sampleNow (documentString (b! "dn: a\ncn: a\n\ndn: b\nchangetype: delete\ncn: b\n\n"))).map
      (fun r => r.1.length) = some 1 := by decide +kernel
  have b2 : (ldifToAddressee sampleLdifEnv (fun i => (fun _ => []) (0 + i)) sampleNow (documentString (b! "dn: a\ncn: a\n\n# old\ndn: b\nchangetype: delete\ncn: b\n\n"))).map
      (fun r => r.1.length) = some 2 := by decide +kernel
  rw [h1] at b1
  rw [hr] at b2
  exact absurd (b1.symm.trans b2) (by decide)

-- comments in the first line, after the distinguished name, between two entries and at the end; the first line of a comment may look like an attribute
example : (∀ r ∈ [LdifRecord.mk (b! "a") [(q! "cn", b! "a")], ⟨b! "b", [(q! "cn", b! "b")]⟩].map (LdifRecord.text 0), 10 ∈ r) ∧
    WithComments ([LdifRecord.mk (b! "a") [(q! "cn", b! "a")], ⟨b! "b", [(q! "cn", b! "b")]⟩].flatMap (LdifRecord.text 0))
      (b! "#sn: x\ndn: a\n# y\ncn: a\n\n#\n#cn:: z\ndn: b\ncn: b\n\n# end\n") :=
  ⟨by decide +kernel, .comment (c := b! "sn: x") (by decide) (by decide) (by decide) (.line (l := b! "dn: a") (by decide) (.comment (c := b! " y") (by decide) (by decide) (by decide)
    (.line (l := b! "cn: a") (by decide) (.line (l := []) (by decide) (.comment (c := []) (by decide) (by decide) (by decide)
      (.comment (c := b! "cn:: z") (by decide) (by decide) (by decide) (.line (l := b! "dn: b") (by decide) (.line (l := b! "cn: b") (by decide)
        (.line (l := []) (by decide) (.comment (c := b! " end") (by decide) (by decide) (by decide) .nil))))))))))⟩
example : LdifRecord.Proper ⟨b! "a", [(q! "cn", b! "a")]⟩ :=
  ⟨by simpa using name_of (q! "cn") (by decide) (by decide) ⟨"cn".toList, by decide⟩, ⟨_, _, rfl, by decide, by decide⟩⟩

end KC
