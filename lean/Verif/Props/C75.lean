import Verif.Spec.LdifChange
import Verif.Lemmas.Ldif
import Verif.Lemmas.LdifPairs
import Verif.Props.C38
/-
  C75 — LDIF change records are read as the changes they describe.
-/
namespace KC
open KC.Spec

/-! ### the lines of a record -/

private abbrev Pair := QByteArray × QByteArray

private def ln (n : Nat) (name : QString) (v : QByteArray) : Pair := (assembleLine name v n false, plainLine name v)
private def dash : Pair := (b! "-", b! "-")

private def modPairs (n : Nat) (m : LdifMod) : List Pair := ln n m.op.word (toUtf8 m.attr) :: (m.values.map fun v => ln n m.attr v) ++ [dash]

private def changePairs (n : Nat) : LdifChange → List Pair
  | .add attrs => ln n (q! "changetype") (b! "add") :: attrs.map fun a => ln n a.1 a.2
  | .delete => [ln n (q! "changetype") (b! "delete")]
  | .modify mods => ln n (q! "changetype") (b! "modify") :: mods.flatMap (modPairs n)
  | .rename word rdn old sup =>
    [ln n (q! "changetype") (if word then b! "moddn" else b! "modrdn"), ln n (q! "newrdn") (toUtf8 rdn),
     ln n (q! "deleteoldrdn") (if old then b! "1" else b! "0")] ++
    (match sup with | none => [] | some p => [ln n (q! "newsuperior") (toUtf8 p)])

private def recPairs (n : Nat) (r : LdifChangeRecord) : List Pair :=
  ln n (q! "dn") r.dn :: (r.controls.map fun c => ln n (q! "control") c.text) ++ changePairs n r.change ++ [([], [])]

private theorem textOf_append (a b : List QByteArray) : textOf (a ++ b) = textOf a ++ textOf b := by simp [textOf]
private theorem textOf_cons (a : QByteArray) (b : List QByteArray) : textOf (a :: b) = a ++ [10] ++ textOf b := by simp [textOf]

private theorem text_lines {α : Type} (n : Nat) (l : List α) (f : α → QString) (g : α → QByteArray) :
    (l.flatMap fun a => ldifLine n (f a) (g a)) = textOf ((l.map fun a => ln n (f a) (g a)).map Prod.fst) := by
  induction l with
  | nil => rfl
  | cons a l ih => simp only [List.flatMap_cons, List.map_cons, textOf_cons, ih]; simp [ldifLine, ln]

private theorem mod_text (n : Nat) (m : LdifMod) : m.text n = textOf ((modPairs n m).map Prod.fst) := by
  unfold LdifMod.text modPairs
  rw [text_lines n m.values (fun _ => m.attr) (fun v => v)]
  simp [textOf, ldifLine, ln, dash]

private theorem change_text (n : Nat) (c : LdifChange) : c.text n = textOf ((changePairs n c).map Prod.fst) := by
  cases c with
  | add attrs =>
    simp only [LdifChange.text, changePairs]
    rw [text_lines n attrs (fun a => a.1) (fun a => a.2)]
    simp [textOf, ldifLine, ln]
  | delete => simp [LdifChange.text, changePairs, textOf, ldifLine, ln]
  | modify mods =>
    simp only [LdifChange.text, changePairs]
    have : mods.flatMap (LdifMod.text n) = textOf ((mods.flatMap (modPairs n)).map Prod.fst) := by
      induction mods with
      | nil => rfl
      | cons m ms ih => simp only [List.flatMap_cons, List.map_append, textOf_append, ih, mod_text]
    rw [this]
    simp [textOf, ldifLine, ln]
  | rename word rdn old sup =>
    cases sup <;> simp [LdifChange.text, changePairs, textOf, ldifLine, ln]

private theorem rec_text (n : Nat) (r : LdifChangeRecord) : r.text n = textOf ((recPairs n r).map Prod.fst) := by
  unfold LdifChangeRecord.text recPairs
  rw [text_lines n r.controls (fun _ => q! "control") (fun c => c.text), change_text]
  simp [textOf, ldifLine, ln]

private theorem word_name (s : QString) (h : (!s.isEmpty && s.all fun c => 97 ≤ c && c ≤ 122) = true) : LdifName s := by
  simp only [Bool.and_eq_true, List.all_eq_true, decide_eq_true_eq, Bool.not_eq_true', List.isEmpty_eq_false_iff] at h
  obtain ⟨hne, hs⟩ := h
  have big : ∀ c ∈ s, ¬ AsciiSpace c ∧ c ≠ 0xFEFF ∧ c ≠ qc! ':' ∧ c ≠ qc! '#' ∧ c ≠ 10 ∧ c ≠ 13 ∧ c.toNat < 128 := by
    intro c hc
    have h1 := UInt16.le_iff_toNat_le.1 (hs c hc).1
    have h2 := UInt16.le_iff_toNat_le.1 (hs c hc).2
    have e1 : (97 : UInt16).toNat = 97 := rfl
    have e2 : (122 : UInt16).toNat = 122 := rfl
    refine ⟨?_, ?_, ?_, ?_, ?_, ?_, by omega⟩
    · rintro (rfl | ⟨_, h⟩)
      · exact absurd h1 (by decide)
      · have := UInt16.le_iff_toNat_le.1 h
        have e3 : (13 : UInt16).toNat = 13 := rfl
        omega
    all_goals (rintro rfl; first | exact absurd h1 (by decide) | exact absurd h2 (by decide))
  exact ⟨hne, ascii_wellFormed fun c hc => (big c hc).2.2.2.2.2.2, fun he => (big _ (List.mem_of_mem_head? he)).2.1 rfl,
    fun hm => (big _ hm).2.2.1 rfl, fun hm => (big _ hm).2.2.2.2.1 rfl, fun hm => (big _ hm).2.2.2.2.2.1 rfl,
    fun he => (big _ (List.mem_of_mem_head? he)).2.2.2.1 rfl, fun c hc => (big _ (List.mem_of_mem_head? hc)).1,
    fun c hc => (big _ (List.mem_of_mem_getLast? hc)).1⟩

private theorem nm_changetype : LdifName (q! "changetype") := word_name _ (by decide)
private theorem nm_control : LdifName (q! "control") := word_name _ (by decide)
private theorem nm_newrdn : LdifName (q! "newrdn") := word_name _ (by decide)
private theorem nm_old : LdifName (q! "deleteoldrdn") := word_name _ (by decide)
private theorem nm_sup : LdifName (q! "newsuperior") := word_name _ (by decide)
private theorem nm_op (o : LdifOp) : LdifName o.word := by cases o <;> exact word_name _ (by decide)

private theorem ln_text {name : QString} (h : LdifName name) (n : Nat) (v : QByteArray) : LineText (ln n name v).1 (ln n name v).2 :=
  assembleLine_text h v n

private theorem dash_text : LineText dash.1 dash.2 :=
  .inr ⟨c! '-', _, _, rfl, rfl, by unfold LineStart; decide, Folded.plain _ (by decide) (by decide)⟩

private theorem rec_lines (n : Nat) (r : LdifChangeRecord) (h : r.Proper) : ∀ p ∈ recPairs n r, LineText p.1 p.2 := by
  intro p hp
  unfold recPairs at hp
  simp only [List.cons_append, List.mem_cons, List.mem_append, List.mem_map, List.not_mem_nil, or_false] at hp
  rcases hp with rfl | (⟨c, _, rfl⟩ | hp) | rfl
  · exact ln_text dn_name n _
  · exact ln_text nm_control n _
  · have hc := h.change
    revert hp hc
    cases r.change with
    | add attrs =>
      intro hp hc
      simp only [changePairs, List.mem_cons, List.mem_map] at hp
      rcases hp with rfl | ⟨a, ha, rfl⟩
      · exact ln_text nm_changetype n _
      · exact ln_text (hc a ha) n _
    | delete =>
      intro hp _
      simp only [changePairs, List.mem_singleton] at hp
      subst hp; exact ln_text nm_changetype n _
    | modify mods =>
      intro hp hc
      simp only [changePairs, List.mem_cons, List.mem_flatMap, modPairs, List.cons_append, List.mem_append, List.mem_map, List.not_mem_nil, or_false] at hp
      rcases hp with rfl | ⟨m, hm, rfl | ⟨v, _, rfl⟩ | rfl⟩
      · exact ln_text nm_changetype n _
      · exact ln_text (nm_op _) n _
      · exact ln_text (hc m hm) n _
      · exact dash_text
    | rename word rdn old sup =>
      intro hp _
      simp only [changePairs, List.cons_append, List.nil_append, List.mem_cons] at hp
      rcases hp with rfl | rfl | rfl | hp
      · exact ln_text nm_changetype n _
      · exact ln_text nm_newrdn n _
      · exact ln_text nm_old n _
      · cases sup with
        | none => simp at hp
        | some p' =>
          simp only [List.mem_singleton] at hp
          subst hp; exact ln_text nm_sup n _
  · exact .inl ⟨rfl, rfl⟩

/-! ### controls -/

private theorem oid_name {s : QString} (hne : s ≠ []) (h : ∀ u ∈ s, u = qc! '.' ∨ (qc! '0' ≤ u ∧ u ≤ qc! '9')) (t : QString)
    (ht : t = [] ∨ t = q! " true" ∨ t = q! " false") : LdifName (s ++ t) ∧ (∀ u ∈ s ++ t, u.toNat < 128) := by
  have big : ∀ c ∈ s, ¬ AsciiSpace c ∧ c ≠ 0xFEFF ∧ c ≠ qc! ':' ∧ c ≠ qc! '#' ∧ c ≠ 10 ∧ c ≠ 13 ∧ c.toNat < 128 := by
    intro c hc
    rcases h c hc with rfl | ⟨h1, h2⟩
    · unfold AsciiSpace; decide
    · have h1 := UInt16.le_iff_toNat_le.1 h1
      have h2 := UInt16.le_iff_toNat_le.1 h2
      have e1 : (qc! '0' : UInt16).toNat = 48 := rfl
      have e2 : (qc! '9' : UInt16).toNat = 57 := rfl
      refine ⟨?_, ?_, ?_, ?_, ?_, ?_, by omega⟩
      · rintro (rfl | ⟨_, h⟩)
        · exact absurd h1 (by decide)
        · have := UInt16.le_iff_toNat_le.1 h
          have e3 : (13 : UInt16).toNat = 13 := rfl
          omega
      all_goals (rintro rfl; first | exact absurd h1 (by decide) | exact absurd h2 (by decide))
  have small : ∀ c ∈ t, c ≠ qc! ':' ∧ c ≠ 10 ∧ c ≠ 13 ∧ c.toNat < 128 := by rcases ht with rfl | rfl | rfl <;> decide
  obtain ⟨x, xs, rfl⟩ := List.exists_cons_of_ne_nil hne
  have hx := big x (by simp)
  have hall : ∀ u ∈ (x :: xs) ++ t, u.toNat < 128 := by
    intro u hu
    rcases List.mem_append.1 hu with hu | hu
    · exact (big u hu).2.2.2.2.2.2
    · exact (small u hu).2.2.2
  refine ⟨⟨by simp, ascii_wellFormed hall, by simpa using hx.2.1, ?_, ?_, ?_, by simpa using hx.2.2.2.1, ?_, ?_⟩, hall⟩
  · intro hm
    rcases List.mem_append.1 hm with hm | hm
    · exact (big _ hm).2.2.1 rfl
    · exact (small _ hm).1 rfl
  · intro hm
    rcases List.mem_append.1 hm with hm | hm
    · exact (big _ hm).2.2.2.2.1 rfl
    · exact (small _ hm).2.1 rfl
  · intro hm
    rcases List.mem_append.1 hm with hm | hm
    · exact (big _ hm).2.2.2.2.2.1 rfl
    · exact (small _ hm).2.2.1 rfl
  · intro c hc
    simp only [List.cons_append, List.head?_cons, Option.some.injEq] at hc
    subst hc; exact hx.1
  · intro c hc
    rcases ht with rfl | rfl | rfl
    · rw [List.append_nil] at hc; exact (big c (List.mem_of_mem_getLast? hc)).1
    · rw [last_append _ _ (by decide)] at hc
      have : c = qc! 'e' := by simpa using hc.symm
      subst this; unfold AsciiSpace; decide
    · rw [last_append _ _ (by decide)] at hc
      have : c = qc! 'e' := by simpa using hc.symm
      subst this; unfold AsciiSpace; decide

private theorem endsWith_append (s t : QString) : endsWith t (s ++ t) = true := by simp [endsWith]

private theorem endsWith_last {s t : QString} {c : UInt16} (ht : t.getLast? = some c) (h : endsWith t s = true) : c ∈ s := by
  unfold endsWith at h
  simp only [Bool.and_eq_true, beq_iff_eq] at h
  have : c ∈ s.drop (s.length - t.length) := by rw [h.2]; exact List.mem_of_mem_getLast? ht
  exact List.mem_of_mem_drop this

/-- The first part of a control: its identifier and the word after it. -/
private def flag : Option Bool → QString
  | none => []
  | some true => q! " true"
  | some false => q! " false"

private theorem control_text (c : LdifControl) : c.text = match c.value with
    | none => toUtf8 (c.oid ++ flag c.critical)
    | some v => assembleLine (c.oid ++ flag c.critical) v 0 false := by
  obtain ⟨o, cr, v⟩ := c
  rcases cr with _ | _ | _ <;> cases v <;> simp [LdifControl.text, flag]

private theorem control_head (oid : QString) (hne : oid ≠ []) (h : ∀ u ∈ oid, u = qc! '.' ∨ (qc! '0' ≤ u ∧ u ≤ qc! '9')) (crit : Option Bool)
    (v : QByteArray) (url : Bool) :
    (if endsWith (q! "true") (oid ++ flag crit) then ((oid ++ flag crit).take ((oid ++ flag crit).length - 5), true, v, url)
     else if endsWith (q! "false") (oid ++ flag crit) then ((oid ++ flag crit).take ((oid ++ flag crit).length - 6), false, v, url)
     else (oid ++ flag crit, false, v, url)) = (oid, decide (crit = some true), v, url) := by
  have hno : qc! 'e' ∉ oid := by
    intro hm
    rcases h _ hm with h | ⟨_, h⟩
    · exact absurd h (by decide)
    · exact absurd h (by decide)
  rcases crit with _ | b
  · have h1 : endsWith (q! "true") (oid ++ flag none) = false := by
      rw [Bool.eq_false_iff]; intro he
      have := endsWith_last (c := qc! 'e') (by decide) he
      simp [flag] at this; exact hno this
    have h2 : endsWith (q! "false") (oid ++ flag none) = false := by
      rw [Bool.eq_false_iff]; intro he
      have := endsWith_last (c := qc! 'e') (by decide) he
      simp [flag] at this; exact hno this
    rw [h1, h2]; simp [flag]
  · cases b
    · have h1 : endsWith (q! "true") (oid ++ flag (some false)) = false := by
        have : oid ++ flag (some false) = (oid ++ q! " f") ++ q! "alse" := by simp [flag]
        rw [this]
        simp [endsWith]
      have h2 : endsWith (q! "false") (oid ++ flag (some false)) = true := by
        have : oid ++ flag (some false) = (oid ++ q! " ") ++ q! "false" := by simp [flag]
        rw [this]; exact endsWith_append _ _
      rw [h1, h2]
      simp [flag]
    · have h1 : endsWith (q! "true") (oid ++ flag (some true)) = true := by
        have : oid ++ flag (some true) = (oid ++ q! " ") ++ q! "true" := by simp [flag]
        rw [this]; exact endsWith_append _ _
      rw [h1]
      simp [flag]

private theorem splitControl_text (c : LdifControl) (hne : c.oid ≠ []) (h : ∀ u ∈ c.oid, u = qc! '.' ∨ (qc! '0' ≤ u ∧ u ≤ qc! '9')) :
    splitControl c.text = (c.oid, decide (c.critical = some true), c.value.getD [], false) := by
  have hn := oid_name hne h (flag c.critical) (by rcases c.critical with _ | b; exact .inl rfl; cases b; exact .inr (.inr rfl); exact .inr (.inl rfl))
  rw [control_text]
  have head := control_head c.oid hne h c.critical
  have hname : fromUtf8 (toUtf8 (c.oid ++ flag c.critical)) = c.oid ++ flag c.critical := C11_utf8_roundtrip_partial _ hn.1.wellFormed hn.1.noBom
  unfold splitControl
  cases c.value with
  | none =>
    obtain ⟨_, hcol, _, _, _, htr⟩ := LdifName.bytes hn.1
    have : splitLine (toUtf8 (c.oid ++ flag c.critical)) = ([], toUtf8 (c.oid ++ flag c.critical), false) := by
      unfold splitLine
      rw [indexOf?_none _ _ hcol]
      simp [htr]
    simp only [this, List.isEmpty_nil, if_true, hname, Option.getD_none]
    exact head [] false
  | some v =>
    have hemp : (c.oid ++ flag c.critical).isEmpty = false := by cases hh : c.oid with | nil => exact absurd hh hne | cons => rfl
    simp only [C38_split _ hn.1 v, hemp, Bool.false_eq_true, if_false, Option.getD_some]
    exact head v false

/-! ### the parser -/

/-- What the parser shows for one line. -/
private def shown (s : Ldif) (u : QByteArray) : List LdifStep := (ldifEmit (s.proc u).1 (s.proc u).2).map LdifEvent.step

/-- After the distinguished name. -/
private def Named (s : Ldif) : Prop :=
  s.isComment = false ∧ (if s.last = .endEntry then EntryType.none else s.entryType) = .none ∧ s.dn ≠ [] ∧ s.modType = .none

/-- Within a change. -/
private def In (e : EntryType) (m : ModType) (s : Ldif) : Prop := s.isComment = false ∧ s.entryType = e ∧ s.last ≠ .endEntry ∧ s.modType = m

private theorem at_dn {s : Ldif} (h : Ready s) (dn : QByteArray) (hd : dn ≠ []) :
    shown s (plainLine (q! "dn") dn) = [.entry dn] ∧ Named (s.proc (plainLine (q! "dn") dn)).2 := by
  obtain ⟨h1, h2⟩ := h
  unfold shown
  rw [proc_eq s _ _ dn false h1 (splitLine_plain dn_name dn), h2]
  have e1 : toLowerQ (q! "dn") ≠ q! "version" := by decide
  have e2 : toLowerQ (q! "dn") = q! "dn" := by decide
  simp only [Ldif.lineOf, Ldif.lineNone, e1, e2, if_false, if_true]
  simp [ldifEmit, LdifEvent.step, observe, Named, hd]

private theorem at_control {s : Ldif} (h : Named s) (c : LdifControl) (hne : c.oid ≠ []) (ho : ∀ u ∈ c.oid, u = qc! '.' ∨ (qc! '0' ≤ u ∧ u ≤ qc! '9')) :
    shown s (plainLine (q! "control") c.text) = [c.step] ∧ Named (s.proc (plainLine (q! "control") c.text)).2 := by
  obtain ⟨h1, h2, h3, h4⟩ := h
  unfold shown
  rw [proc_eq s _ _ c.text false h1 (splitLine_plain nm_control c.text), h2]
  have e : toLowerQ (q! "control") = q! "control" := by decide
  have e1 : q! "control" ≠ q! "version" := by decide
  have e2 : q! "control" ≠ q! "dn" := by decide
  have e3 : q! "control" ≠ q! "changetype" := by decide
  simp only [Ldif.lineOf, Ldif.lineNone, e, e1, e2, e3, if_false, if_true, splitControl_text c hne ho]
  simp [ldifEmit, LdifEvent.step, LdifControl.step, observe, Named, h3, h4]

/-- The line that says what kind of change it is. -/
private theorem at_changetype {s : Ldif} (h : Named s) (v : QByteArray) (e : EntryType)
    (hv : v = b! "add" ∧ e = .add ∨ v = b! "delete" ∧ e = .del ∨ (v = b! "moddn" ∨ v = b! "modrdn") ∧ e = .modrdn ∨ v = b! "modify" ∧ e = .mod) :
    shown s (plainLine (q! "changetype") v) = [] ∧ In e .none (s.proc (plainLine (q! "changetype") v)).2 ∧
    (e = .modrdn → (s.proc (plainLine (q! "changetype") v)).2.newRdn = [] ∧ (s.proc (plainLine (q! "changetype") v)).2.newSuperior = [] ∧
      (s.proc (plainLine (q! "changetype") v)).2.delOldRdn = true) := by
  obtain ⟨h1, h2, h3, h4⟩ := h
  unfold shown
  rw [proc_eq s _ _ v false h1 (splitLine_plain nm_changetype v), h2]
  have e0 : toLowerQ (q! "changetype") = q! "changetype" := by decide
  have e1 : q! "changetype" ≠ q! "version" := by decide
  have e2 : q! "changetype" ≠ q! "dn" := by decide
  have h3' : s.dn.isEmpty = false := by simpa using h3
  simp only [Ldif.lineOf, Ldif.lineNone, e0, e1, e2, if_false, if_true, h3', Bool.false_eq_true]
  have f1 : fromUtf8 (b! "add") = q! "add" := by decide
  have f2 : fromUtf8 (b! "delete") = q! "delete" := by decide
  have f3 : fromUtf8 (b! "moddn") = q! "moddn" := by decide
  have f4 : fromUtf8 (b! "modrdn") = q! "modrdn" := by decide
  have f5 : fromUtf8 (b! "modify") = q! "modify" := by decide
  rcases hv with ⟨rfl, rfl⟩ | ⟨rfl, rfl⟩ | ⟨rfl | rfl, rfl⟩ | ⟨rfl, rfl⟩ <;>
    simp [f1, f2, f3, f4, f5, ldifEmit, In, h4]

private theorem at_blank {e : EntryType} {s : Ldif} (h : In e .none s) (he : e = .add ∨ e = .del ∨ e = .mod) :
    shown s [] = [.finish e] ∧ Ready (s.proc []).2 := by
  obtain ⟨h1, h2, h3, h4⟩ := h
  unfold shown
  rw [proc_eq s [] [] [] false h1 splitLine_nil]
  rcases he with rfl | rfl | rfl <;>
    simp [h3, h2, Ldif.lineOf, Ldif.lineMod, h4, ldifEmit, LdifEvent.step, observe, Ready]

private theorem at_item {e : EntryType} {m : ModType} {s : Ldif} (h : In e m s) (he : e = .add ∧ m = .none ∨ e = .mod ∧ m ≠ .none)
    {a : QString} (ha : LdifName a) (v : QByteArray) :
    shown s (plainLine a v) = [.item e m a v] ∧ In e m (s.proc (plainLine a v)).2 := by
  obtain ⟨h1, h2, h3, h4⟩ := h
  unfold shown
  rw [proc_eq s _ a v false h1 (splitLine_plain ha v)]
  have hne : a.isEmpty = false := by simpa using ha.nonempty
  rcases he with ⟨rfl, rfl⟩ | ⟨rfl, hm⟩
  · simp [h3, h2, h4, Ldif.lineOf, hne, ldifEmit, LdifEvent.step, observe, In]
  · simp [h3, h2, h4, Ldif.lineOf, Ldif.lineMod, hm, hne, ldifEmit, LdifEvent.step, observe, In]

private theorem run_items {e : EntryType} {m : ModType} (he : e = .add ∧ m = .none ∨ e = .mod ∧ m ≠ .none) (as : List (QString × QByteArray))
    (ha : ∀ a ∈ as, LdifName a.1) {s : Ldif} (h : In e m s) :
    (ldifRun s (as.map fun a => plainLine a.1 a.2)).1.map LdifEvent.step = as.map (fun a => .item e m a.1 a.2) ∧
    In e m (ldifRun s (as.map fun a => plainLine a.1 a.2)).2 := by
  induction as generalizing s with
  | nil => exact ⟨rfl, h⟩
  | cons a as ih =>
    have h1 := at_item h he (ha a (by simp)) a.2
    have h2 := ih (fun b hb => ha b (by simp [hb])) h1.2
    simp only [List.map_cons, ldifRun, List.map_append]
    unfold shown at h1
    rw [h1.1, h2.1]
    exact ⟨rfl, h2.2⟩

/-- The line that starts a modification. -/
private theorem at_op {s : Ldif} (h : In .mod .none s) (m : LdifMod) (ha : LdifName m.attr) :
    shown s (plainLine m.op.word (toUtf8 m.attr)) = (if m.op = .add then [] else [.item .mod m.op.code m.attr []]) ∧
    In .mod m.op.code (s.proc (plainLine m.op.word (toUtf8 m.attr))).2 := by
  obtain ⟨h1, h2, h3, h4⟩ := h
  have hname : fromUtf8 (toUtf8 m.attr) = m.attr := C11_utf8_roundtrip_partial _ ha.wellFormed ha.noBom
  have hw : m.op.word.isEmpty = false := by cases m.op <;> rfl
  have hl : toLowerQ m.op.word = m.op.word := by cases m.op <;> decide
  unfold shown
  rw [proc_eq s _ _ _ false h1 (splitLine_plain (nm_op m.op) _)]
  simp only [h3, if_false, h2, Ldif.lineOf, Ldif.lineMod, h4, if_true, hw, Bool.false_and, Bool.false_eq_true, hl, hname]
  cases m.op <;> simp [LdifOp.word, LdifOp.code, ldifEmit, LdifEvent.step, observe, In, h2]

private theorem at_dash {m : ModType} {s : Ldif} (h : In .mod m s) (hm : m ≠ .none) :
    shown s (b! "-") = [] ∧ In .mod .none (s.proc (b! "-")).2 := by
  obtain ⟨h1, h2, h3, h4⟩ := h
  unfold shown
  rw [proc_eq s (b! "-") [] (b! "-") false h1 (by decide)]
  have f : fromUtf8 (b! "-") = q! "-" := by decide
  simp [h3, h2, Ldif.lineOf, Ldif.lineMod, h4, hm, f, ldifEmit, In]

private theorem run_mod (n : Nat) (m : LdifMod) (ha : LdifName m.attr) {s : Ldif} (h : In .mod .none s) :
    (ldifRun s ((modPairs n m).map Prod.snd)).1.map LdifEvent.step = m.steps ∧ In .mod .none (ldifRun s ((modPairs n m).map Prod.snd)).2 := by
  have hc : m.op.code ≠ .none := by cases m.op <;> decide
  have h1 := at_op h m ha
  have h2 := run_items (.inr ⟨rfl, hc⟩) (m.values.map fun v => (m.attr, v)) (by simp [ha]) h1.2
  have h3 := at_dash h2.2 hc
  have e : (modPairs n m).map Prod.snd = plainLine m.op.word (toUtf8 m.attr) :: ((m.values.map fun v => (m.attr, v)).map fun a => plainLine a.1 a.2) ++ [b! "-"] := by
    simp [modPairs, ln, dash]
  rw [e]
  unfold shown at h1 h3
  simp only [List.cons_append, ldifRun, ldifRun_append, List.map_append]
  rw [h1.1, h2.1, h3.1]
  exact ⟨by simp [LdifMod.steps], h3.2⟩

private theorem run_mods (n : Nat) (ms : List LdifMod) (ha : ∀ m ∈ ms, LdifName m.attr) {s : Ldif} (h : In .mod .none s) :
    (ldifRun s ((ms.flatMap (modPairs n)).map Prod.snd)).1.map LdifEvent.step = ms.flatMap LdifMod.steps ∧
    In .mod .none (ldifRun s ((ms.flatMap (modPairs n)).map Prod.snd)).2 := by
  induction ms generalizing s with
  | nil => exact ⟨rfl, h⟩
  | cons m ms ih =>
    have h1 := run_mod n m (ha m (by simp)) h
    have h2 := ih (fun b hb => ha b (by simp [hb])) h1.2
    simp only [List.flatMap_cons, List.map_append, ldifRun_append]
    rw [h1.1, h2.1]
    exact ⟨rfl, h2.2⟩

/-! ### renaming -/

private def Renaming (rdn sup : QString) (old : Bool) (s : Ldif) : Prop :=
  s.isComment = false ∧ s.entryType = .modrdn ∧ s.last ≠ .endEntry ∧ s.newRdn = rdn ∧ s.newSuperior = sup ∧ s.delOldRdn = old

private theorem at_rdn {rdn sup : QString} {old : Bool} {s : Ldif} (h : Renaming rdn sup old s) (x : QString) (hx : Utf8Text x) :
    shown s (plainLine (q! "newrdn") (toUtf8 x)) = [] ∧ Renaming x sup old (s.proc (plainLine (q! "newrdn") (toUtf8 x))).2 := by
  obtain ⟨h1, h2, h3, h4, h5, h6⟩ := h
  have hname : fromUtf8 (toUtf8 x) = x := C11_utf8_roundtrip_partial _ hx.1 hx.2
  have hl : toLowerQ (q! "newrdn") = q! "newrdn" := by decide
  unfold shown
  rw [proc_eq s _ _ _ false h1 (splitLine_plain nm_newrdn _)]
  simp [h3, h2, h4, h5, h6, Ldif.lineOf, Ldif.lineModrdn, hl, hname, ldifEmit, Renaming]

private theorem at_sup {rdn sup : QString} {old : Bool} {s : Ldif} (h : Renaming rdn sup old s) (x : QString) (hx : Utf8Text x) :
    shown s (plainLine (q! "newsuperior") (toUtf8 x)) = [] ∧ Renaming rdn x old (s.proc (plainLine (q! "newsuperior") (toUtf8 x))).2 := by
  obtain ⟨h1, h2, h3, h4, h5, h6⟩ := h
  have hname : fromUtf8 (toUtf8 x) = x := C11_utf8_roundtrip_partial _ hx.1 hx.2
  have hl : toLowerQ (q! "newsuperior") = q! "newsuperior" := by decide
  unfold shown
  rw [proc_eq s _ _ _ false h1 (splitLine_plain nm_sup _)]
  simp [h3, h2, h4, h5, h6, Ldif.lineOf, Ldif.lineModrdn, hl, hname, ldifEmit, Renaming]

private theorem at_old {rdn sup : QString} {old : Bool} {s : Ldif} (h : Renaming rdn sup old s) (x : Bool) :
    shown s (plainLine (q! "deleteoldrdn") (if x then b! "1" else b! "0")) = [] ∧
    Renaming rdn sup x (s.proc (plainLine (q! "deleteoldrdn") (if x then b! "1" else b! "0"))).2 := by
  obtain ⟨h1, h2, h3, h4, h5, h6⟩ := h
  have hl : toLowerQ (q! "deleteoldrdn") = q! "deleteoldrdn" := by decide
  unfold shown
  rw [proc_eq s _ _ _ false h1 (splitLine_plain nm_old _)]
  cases x <;> simp [h3, h2, h4, h5, h6, Ldif.lineOf, Ldif.lineModrdn, hl, ldifEmit, Renaming]

private theorem at_renamed {rdn sup : QString} {old : Bool} {s : Ldif} (h : Renaming rdn sup old s) :
    shown s [] = [.renamed rdn sup old] ∧ Ready (s.proc []).2 := by
  obtain ⟨h1, h2, h3, h4, h5, h6⟩ := h
  unfold shown
  rw [proc_eq s [] [] [] false h1 splitLine_nil]
  simp [h3, h2, h4, h5, h6, Ldif.lineOf, Ldif.lineModrdn, ldifEmit, LdifEvent.step, observe, Ready]

/-! ### records -/

private theorem run_change (n : Nat) (c : LdifChange) (hc : c.Proper) {s : Ldif} (h : Named s) :
    (ldifRun s ((changePairs n c).map Prod.snd ++ [[]])).1.map LdifEvent.step = c.steps ∧
    Ready (ldifRun s ((changePairs n c).map Prod.snd ++ [[]])).2 := by
  cases c with
  | add attrs =>
    have h1 := at_changetype h (b! "add") .add (.inl ⟨rfl, rfl⟩)
    have h2 := run_items (.inl ⟨rfl, rfl⟩) attrs hc h1.2.1
    have h3 := at_blank h2.2 (.inl rfl)
    have e : (changePairs n (.add attrs)).map Prod.snd = plainLine (q! "changetype") (b! "add") :: attrs.map fun a => plainLine a.1 a.2 := by
      simp [changePairs, ln]
    rw [e]
    unfold shown at h1 h3
    simp only [List.cons_append, ldifRun, ldifRun_append, List.map_append]
    rw [h1.1, h2.1, h3.1]
    exact ⟨by simp [LdifChange.steps], h3.2⟩
  | delete =>
    have h1 := at_changetype h (b! "delete") .del (.inr (.inl ⟨rfl, rfl⟩))
    have h3 := at_blank h1.2.1 (.inr (.inl rfl))
    have e : (changePairs n .delete).map Prod.snd = [plainLine (q! "changetype") (b! "delete")] := by simp [changePairs, ln]
    rw [e]
    unfold shown at h1 h3
    simp only [List.cons_append, List.nil_append, ldifRun, List.map_append]
    rw [h1.1, h3.1]
    exact ⟨by simp [LdifChange.steps], h3.2⟩
  | modify mods =>
    have h1 := at_changetype h (b! "modify") .mod (.inr (.inr (.inr ⟨rfl, rfl⟩)))
    have h2 := run_mods n mods hc h1.2.1
    have h3 := at_blank h2.2 (.inr (.inr rfl))
    have e : (changePairs n (.modify mods)).map Prod.snd = plainLine (q! "changetype") (b! "modify") :: (mods.flatMap (modPairs n)).map Prod.snd := by
      simp [changePairs, ln]
    rw [e]
    unfold shown at h1 h3
    simp only [List.cons_append, ldifRun, ldifRun_append, List.map_append]
    rw [h1.1, h2.1, h3.1]
    exact ⟨by simp [LdifChange.steps], h3.2⟩
  | rename word rdn old sup =>
    have h1 := at_changetype h (if word then b! "moddn" else b! "modrdn") .modrdn (.inr (.inr (.inl ⟨by cases word <;> simp, rfl⟩)))
    obtain ⟨i1, i2, i3, _⟩ := h1.2.1
    have h2 := at_rdn ⟨i1, i2, i3, h1.2.2 rfl⟩ rdn hc.1
    have h3 := at_old h2.2 old
    unfold shown at h1 h2 h3
    cases sup with
    | none =>
      have h4 := at_renamed h3.2
      unfold shown at h4
      simp only [changePairs, ln, List.append_nil, List.map_cons, List.map_nil, List.cons_append, List.nil_append, ldifRun, List.map_append]
      rw [h1.1, h2.1, h3.1, h4.1]
      exact ⟨by simp [LdifChange.steps], h4.2⟩
    | some p =>
      have h4 := at_sup h3.2 p (hc.2 p rfl)
      have h5 := at_renamed h4.2
      unfold shown at h4 h5
      simp only [changePairs, ln, List.map_cons, List.map_nil, List.cons_append, List.nil_append, ldifRun, List.map_append]
      rw [h1.1, h2.1, h3.1, h4.1, h5.1]
      exact ⟨by simp [LdifChange.steps], h5.2⟩

private theorem run_controls (cs : List LdifControl) (hc : ∀ c ∈ cs, c.oid ≠ [] ∧ ∀ u ∈ c.oid, u = qc! '.' ∨ (qc! '0' ≤ u ∧ u ≤ qc! '9'))
    {s : Ldif} (h : Named s) :
    (ldifRun s (cs.map fun c => plainLine (q! "control") c.text)).1.map LdifEvent.step = cs.map LdifControl.step ∧
    Named (ldifRun s (cs.map fun c => plainLine (q! "control") c.text)).2 := by
  induction cs generalizing s with
  | nil => exact ⟨rfl, h⟩
  | cons c cs ih =>
    have h1 := at_control h c (hc c (by simp)).1 (hc c (by simp)).2
    have h2 := ih (fun b hb => hc b (by simp [hb])) h1.2
    simp only [List.map_cons, ldifRun, List.map_append]
    unfold shown at h1
    rw [h1.1, h2.1]
    exact ⟨rfl, h2.2⟩

private theorem run_record (n : Nat) (r : LdifChangeRecord) (hr : r.Proper) {s : Ldif} (h : Ready s) :
    (ldifRun s ((recPairs n r).map Prod.snd)).1.map LdifEvent.step = r.steps ∧ Ready (ldifRun s ((recPairs n r).map Prod.snd)).2 := by
  have h1 := at_dn h r.dn hr.dn
  have h2 := run_controls r.controls hr.oids h1.2
  have h3 := run_change n r.change hr.change h2.2
  have e : (recPairs n r).map Prod.snd = plainLine (q! "dn") r.dn :: (r.controls.map fun c => plainLine (q! "control") c.text) ++
      ((changePairs n r.change).map Prod.snd ++ [[]]) := by
    simp [recPairs, ln]
  rw [e]
  unfold shown at h1
  simp only [List.cons_append, ldifRun]
  rw [ldifRun_append]
  simp only [List.map_append]
  rw [h1.1, h2.1, h3.1]
  exact ⟨by simp [LdifChangeRecord.steps], h3.2⟩

private theorem run_records (n : Nat) (rs : List LdifChangeRecord) (hr : ∀ r ∈ rs, r.Proper) {s : Ldif} (h : Ready s) :
    (ldifRun s ((rs.flatMap (recPairs n)).map Prod.snd)).1.map LdifEvent.step = rs.flatMap LdifChangeRecord.steps ∧
    Ready (ldifRun s ((rs.flatMap (recPairs n)).map Prod.snd)).2 := by
  induction rs generalizing s with
  | nil => exact ⟨rfl, h⟩
  | cons r rs ih =>
    have h1 := run_record n r (hr r (by simp)) h
    have h2 := ih (fun b hb => hr b (by simp [hb])) h1.2
    simp only [List.flatMap_cons, List.map_append, ldifRun_append]
    rw [h1.1, h2.1]
    exact ⟨rfl, h2.2⟩

/-- C75: a document of any number of change records — with any controls, new entries, deletions, any sequence of modifications, renamings — written line
    by line with any line length, is read as exactly those changes in that order. -/
theorem C75_partial (linelen : Nat) (rs : List LdifChangeRecord) (h : ∀ r ∈ rs, r.Proper) (es : List LdifEvent)
    (he : DocumentItems (rs.flatMap (LdifChangeRecord.text linelen)) es) : es.map LdifEvent.step = rs.flatMap LdifChangeRecord.steps := by
  have ht : rs.flatMap (LdifChangeRecord.text linelen) = textOf ((rs.flatMap (recPairs linelen)).map Prod.fst) := by
    clear h he
    induction rs with
    | nil => rfl
    | cons r rs ih => simp only [List.flatMap_cons, List.map_append, textOf_append, ih, rec_text]
  rw [ht] at he
  have hd := document_lines (by
    intro p hp
    obtain ⟨r, hr, hp⟩ := List.mem_flatMap.1 hp
    exact rec_lines linelen r (h r hr) p hp) es he
  have hs : es.map LdifEvent.step = (ldifRun {} ((rs.flatMap (recPairs linelen)).map Prod.snd ++ [[], []])).1.map LdifEvent.step := by
    have := congrArg (List.map LdifEvent.step) hd
    rw [List.map_map, List.map_map] at this
    exact this
  rw [hs, ldifRun_append]
  have hr := run_records linelen rs h ready_new
  have hb := ready_blanks hr.2 2
  simp only [List.map_append]
  rw [hr.1]
  have : (ldifRun (ldifRun {} ((rs.flatMap (recPairs linelen)).map Prod.snd)).2 [[], []]).1 = [] := hb.1
  rw [this]
  simp

/-! ### Examples and counterexamples -/

private theorem nm_mail : LdifName (q! "mail") := word_name _ (by decide)

/-- The change records of an address book: a critical control, a modification in three parts, a renaming, a deletion and a new entry. -/
def sampleChanges : List LdifChangeRecord :=
  [⟨b! "cn=a", [⟨q! "1.2.840.113556.1.4.805", some true, none⟩, ⟨q! "1.3", none, some (b! "a:b")⟩],
    .modify [⟨.add, q! "mail", [b! "x", b! "y"]⟩, ⟨.delete, q! "mail", []⟩, ⟨.replace, q! "mail", [[0, 10]]⟩]⟩,
   ⟨b! "cn=b", [], .rename false (q! "cn=c") false (some (q! "o=d"))⟩,
   ⟨b! "cn=e", [], .delete⟩,
   ⟨b! "cn=f", [], .add [(q! "mail", b! "z")]⟩]

example : ∀ r ∈ sampleChanges, r.Proper := by
  intro r hr
  simp only [sampleChanges, List.mem_cons, List.not_mem_nil, or_false] at hr
  rcases hr with rfl | rfl | rfl | rfl
  · exact ⟨by decide, by decide, by intro m hm; simp at hm; rcases hm with rfl | rfl | rfl <;> exact nm_mail⟩
  · exact ⟨by decide, by decide, ⟨ascii_wellFormed (by decide), by decide⟩, fun p hp => by
      simp only [Option.some.injEq] at hp; subst hp; exact ⟨ascii_wellFormed (by decide), by decide⟩⟩
  · exact ⟨by decide, by decide, trivial⟩
  · exact ⟨by decide, by decide, by intro a ha; simp at ha; subst ha; exact nm_mail⟩

example : sampleChanges.flatMap (LdifChangeRecord.text 0) = b! "dn: cn=a\ncontrol: 1.2.840.113556.1.4.805 true\ncontrol: 1.3: a:b\nchangetype: modify\nadd: mail\nmail: x\nmail: y\n-\ndelete: mail\n-\nreplace: mail\nmail:: AAo=\n-\n\ndn: cn=b\nchangetype: modrdn\nnewrdn: cn=c\ndeleteoldrdn: 0\nnewsuperior: o=d\n\ndn: cn=e\nchangetype: delete\n\ndn: cn=f\nchangetype: add\nmail: z\n\n" := by
  decide +kernel

/-- The property fails for the entry with the empty name (the root of a directory): the kind of change is an error, and the changes themselves are read as the
    attributes of an entry. -/
theorem C75_false : ¬ ∀ (linelen : Nat) (r : LdifChangeRecord), r.change.Proper → r.controls = [] → ∀ es, DocumentItems (r.text linelen) es →
    es.map LdifEvent.step = r.steps := by
  intro h
  have := h 0 ⟨[], [], .modify [⟨.replace, q! "mail", [b! "x"]⟩]⟩ (by intro m hm; simp at hm; subst hm; exact nm_mail) rfl _ ((document_feed _ _).2 rfl)
  revert this
  decide

end KC
