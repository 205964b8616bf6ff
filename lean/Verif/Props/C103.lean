import Verif.Props.C101
/-
  C103: how the lines of an LDIF file are folded does not matter.
-/
namespace KC
open KC.Spec

namespace Spec

/-- The text with the folds taken out: each line end that is followed by a space or a tab, with that character. -/
def unfoldLdif : QByteArray → QByteArray
  | [] => []
  | [c] => [c]
  | c :: d :: t => if c = 10 ∧ (d = 32 ∨ d = 9) then unfoldLdif t else c :: unfoldLdif (d :: t)

/-- No empty line is continued. -/
def EmptyNotFolded (d : QByteArray) : Prop := ∀ a c b, d = a ++ 10 :: 10 :: c :: b → c ≠ 32 ∧ c ≠ 9

end Spec

private theorem unfold_feed (d : QByteArray) : ∀ (s : Ldif), 13 ∉ d → EmptyNotFolded d → (s.isNewLine = true → EmptyNotFolded (10 :: d)) →
    ∀ tail, (tail = [] ∨ tail.head? = some 10) →
    (ldifFeed s (unfoldLdif d ++ tail)).1.map LdifEvent.noLine = (ldifFeed s (d ++ tail)).1.map LdifEvent.noLine := by
  have rest : ∀ {c : UInt8} {t : QByteArray}, EmptyNotFolded (c :: t) → EmptyNotFolded t := by
    intro c t h a x b e
    exact h (c :: a) x b (by rw [e]; rfl)
  have newline : ∀ (s : Ldif) (c : UInt8), c ≠ 13 → c ≠ 10 → (s.char c).2.isNewLine = false := by
    intro s c h13 h10
    have := processLine_newLine { s with isNewLine := false }
    unfold Ldif.char
    split
    · rename_i h; simp [h13] at h
    · split
      · rfl
      · cases hn : s.isNewLine
        · simp only [Bool.false_eq_true, if_false, h10, h13, decide_false, Bool.or_self]
          split <;> exact hn
        · simp only [if_true, h10, h13, decide_false, Bool.or_self, Bool.false_eq_true, if_false]
          split <;> exact this
  fun_induction unfoldLdif d with
  | case1 => intros; rfl
  | case2 c => intros; rfl
  | case3 c d t hf ih =>
    intro s h13 hg hn tail htail
    obtain ⟨rfl, hd⟩ := hf
    have hs : s.isNewLine = false := by
      cases h : s.isNewLine
      · rfl
      · have := hn h [] d t rfl
        rcases hd with rfl | rfl
        · exact absurd rfl this.1
        · exact absurd rfl this.2
    have e1 : s.char 10 = (.none, { s with lineNumber := s.lineNumber + 1, isNewLine := true }) := by simp [Ldif.char, hs]
    have e2 : ({ s with lineNumber := s.lineNumber + 1, isNewLine := true } : Ldif).char d = (.none, { s with lineNumber := s.lineNumber + 1 }) := by
      rcases hd with rfl | rfl
      · rw [show ({ s with lineNumber := s.lineNumber + 1 } : Ldif) = { s with lineNumber := s.lineNumber + 1, isNewLine := false } by rw [← hs]]
        simp [Ldif.char]
      · rw [show ({ s with lineNumber := s.lineNumber + 1 } : Ldif) = { s with lineNumber := s.lineNumber + 1, isNewLine := false } by rw [← hs]]
        simp [Ldif.char]
    rw [List.cons_append, List.cons_append, ldifFeed, e1]
    dsimp only
    rw [ldifFeed, e2]
    dsimp only
    have e0 : ∀ w : Ldif, ldifEmit .none w = [] := fun _ => rfl
    rw [e0, e0, List.nil_append, List.nil_append]
    rw [ih s (fun h => h13 (by simp [h])) (rest (rest hg)) (by rw [hs]; intro h; cases h) tail htail]
    exact ((ldifFeed_alike (s := s) (s' := { s with lineNumber := s.lineNumber + 1 }) ⟨s.rest, s.lineNumber + 1, s.last, Iff.rfl, rfl⟩ (t ++ tail)).1).symm
  | case4 c d t hf ih =>
    intro s h13 hg hn tail htail
    rw [List.cons_append, List.cons_append, ldifFeed, ldifFeed]
    simp only [List.map_append]
    congr 1
    refine ih _ (fun h => h13 (by simp only [List.mem_cons] at h ⊢; exact .inr h)) (rest hg) ?_ tail htail
    intro h
    by_cases hc : c = 10
    · subst hc; exact hg
    · exact absurd h (by rw [newline s c (fun e => h13 (by simp [e])) hc]; decide)

/-- C103: a document with LF line ends is read as the document with the folds taken out, the line numbers aside. -/
theorem C103 (d : QByteArray) (h13 : 13 ∉ d) (h : EmptyNotFolded d) (es fs : List LdifEvent) (he : DocumentItems d es) (hf : DocumentItems (unfoldLdif d) fs) :
    fs.map LdifEvent.noLine = es.map LdifEvent.noLine := by
  rw [document_feed] at he hf
  subst he hf
  exact unfold_feed d {} h13 h (by intro h; cases h) [10, 10, 10] (.inr rfl)

/-- C103: two documents that are the same but for their folds give the same contacts and groups. -/
theorem C103_import (E : LdifEnv) (ids : Nat → QString) (now : QDateTime) (k : Nat) (d d' : QByteArray) (h13 : 13 ∉ d) (h13' : 13 ∉ d') (h : EmptyNotFolded d)
    (h' : EmptyNotFolded d') (same : unfoldLdif d = unfoldLdif d') (result : List Contact × List Group) :
    ImportGives E ids now k d result ↔ ImportGives E ids now k d' result := by
  have key : ∀ d : QByteArray, 13 ∉ d → EmptyNotFolded d → ldifToAddressee E (fun i => ids (k + i)) now (documentString d) =
      ldifToAddressee E (fun i => ids (k + i)) now (documentString (unfoldLdif d)) := by
    intro d h1 h2
    obtain ⟨es, he⟩ := C42_readable d
    obtain ⟨fs, hf⟩ := C42_readable (unfoldLdif d)
    rw [ldifToAddressee_items E _ now _ es (by rw [toLatin1_document]; exact he), ldifToAddressee_items E _ now _ fs (by rw [toLatin1_document]; exact hf),
      short_of_noLine (C103 d h1 h2 es fs he hf)]
  unfold ImportGives
  rw [key d h13 h, key d' h13' h', same]

/-- C103 does not hold for folds directly after an empty line: a comment sign there does not begin a comment. -/
theorem C103_empty_false : ¬ ∀ (d : QByteArray), 13 ∉ d → ∀ es fs, DocumentItems d es → DocumentItems (unfoldLdif d) fs →
    fs.map LdifEvent.noLine = es.map LdifEvent.noLine := by
  intro h
  have := h (b! "\n\n #a: b\n") (by decide) _ _ ((document_feed _ _).2 rfl) ((document_feed _ _).2 rfl)
  revert this
  decide

/-- C103 does not hold for CR LF line ends: there each line is followed by an empty one, which takes the fold, so that a
    comment sign there does not begin a comment. -/
theorem C103_crlf_false : ¬ ∀ (d : QByteArray), EmptyNotFolded d → ∀ es fs, DocumentItems d es → DocumentItems (unfoldLdif d) fs →
    fs.map LdifEvent.noLine = es.map LdifEvent.noLine := by
  intro h
  have hg : EmptyNotFolded (b! "a: b\r\n #\n") := by
    intro a c b e
    rcases a with _ | ⟨x0, _ | ⟨x1, _ | ⟨x2, _ | ⟨x3, _ | ⟨x4, _ | ⟨x5, _ | ⟨x6, _ | ⟨x7, _ | ⟨x8, a⟩⟩⟩⟩⟩⟩⟩⟩⟩ <;> simp at e
  have := h (b! "a: b\r\n #\n") hg _ _ ((document_feed _ _).2 rfl) ((document_feed _ _).2 rfl)
  revert this
  decide

-- a folded name, a value folded three times (with a tab, and with a space of its own), a folded comment
example : unfoldLdif (b! "dn: a\nc\n n: b\n\tc\n \n  d\n# x\n y\n\n") = b! "dn: a\ncn: bc d\n# xy\n\n" ∧ 13 ∉ (b! "dn: a\nc\n n: b\n\tc\n \n  d\n# x\n y\n\n") ∧
    (ldifToAddressee sampleLdifEnv (fun _ => []) sampleNow (documentString (b! "dn: a\nc\n n: b\n\tc\n \n  d\n# x\n y\n\n"))).map (fun r => r.1.map (·.formattedName)) =
      some [q! "bc d"] := by
  refine ⟨by decide, by decide, by decide +kernel⟩
example : EmptyNotFolded (b! "c\n n: b\n") := by
  intro a c b e
  rcases a with _ | ⟨x0, _ | ⟨x1, _ | ⟨x2, _ | ⟨x3, _ | ⟨x4, _ | ⟨x5, _ | ⟨x6, _ | ⟨x7, a⟩⟩⟩⟩⟩⟩⟩⟩ <;> simp at e

end KC
