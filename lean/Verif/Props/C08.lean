import Verif.Lemmas.ReadLines
import Verif.Spec.Lines
/-
  C08: the line-ending style does not matter for vCards.
-/
namespace KC
open Spec

def addCRs : List QByteArray → List QByteArray
  | [] => []
  | [l] => [l]
  | l :: m :: r => (l ++ [13]) :: addCRs (m :: r)

theorem addCRs_cons_ne (l : QByteArray) (ls : List QByteArray) (h : ls ≠ []) : addCRs (l :: ls) = (l ++ [13]) :: addCRs ls := by
  cases ls with
  | nil => exact absurd rfl h
  | cons m r => rfl

theorem splitOn_withCRLF (t : QByteArray) : splitOn 10 (withCRLF t) = addCRs (splitOn 10 t) := by
  induction t with
  | nil => rfl
  | cons c t ih =>
    have e : withCRLF (c :: t) = (if c = 10 then [13, 10] else [c]) ++ withCRLF t := by simp [withCRLF]
    rw [e]
    by_cases hc : c = 10
    · subst hc
      simp only [if_true, splitOn]
      rw [addCRs_cons_ne _ _ (splitOn_ne_nil _ _), ← ih]
      have : splitOn (10 : UInt8) ([13] ++ 10 :: withCRLF t) = [13] :: splitOn 10 (withCRLF t) :=
        splitOn_append 10 [13] _ (by decide)
      simpa using this
    · simp only [hc, if_false, List.singleton_append, splitOn]
      cases hs : splitOn 10 t with
      | nil => exact absurd hs (splitOn_ne_nil 10 t)
      | cons a b =>
        rw [ih, hs]
        cases b <;> rfl

theorem chopCR_append (l : QByteArray) : chopCR (l ++ [13]) = l := by
  simp [chopCR, endsWithChar, chop1]

theorem physLines_withCRLF (t : QByteArray) (h : ∀ pre post, t ≠ pre ++ 13 :: 10 :: post) :
    physLines (withCRLF t) = physLines t := by
  have key : ∀ ls : List QByteArray, (∀ l ∈ ls.dropLast, l.getLast? ≠ some 13) →
      (addCRs ls).map chopCR = ls.map chopCR := by
    intro ls
    induction ls with
    | nil => intro _; rfl
    | cons l r ih =>
      intro hl
      cases r with
      | nil => rfl
      | cons m r =>
        rw [List.dropLast_cons_of_ne_nil (by simp)] at hl
        have h1 := hl l (by simp)
        have h2 := ih (fun x hx => hl x (List.mem_cons_of_mem _ hx))
        have e : chopCR l = l := by simp [chopCR, endsWithChar, h1]
        simp only [addCRs, List.map_cons, chopCR_append, e] at h2 ⊢
        rw [h2]
  unfold physLines rawLines
  rw [splitOn_withCRLF]
  apply key
  -- a line other than the last is followed by LF in the text
  intro l hl hlast
  have hne := splitOn_ne_nil (10 : UInt8) t
  obtain ⟨a, b, hab⟩ := List.append_of_mem hl
  have hfull : splitOn 10 t = a ++ l :: (b ++ [(splitOn 10 t).getLast hne]) := by
    conv => lhs; rw [← List.dropLast_concat_getLast hne, hab]
    simp
  have hj := join_splitOn (10 : UInt8) t
  rw [hfull] at hj
  have hl13 : ∃ l', l = l' ++ [13] := by
    have hn : l ≠ [] := by intro e; subst e; simp at hlast
    rw [List.getLast?_eq_some_getLast hn] at hlast
    simp only [Option.some.injEq] at hlast
    exact ⟨l.dropLast, by rw [← hlast]; exact (List.dropLast_concat_getLast hn).symm⟩
  obtain ⟨l', rfl⟩ := hl13
  have hjoin : ∀ (a : List QByteArray) (x : QByteArray) (r : List QByteArray), r ≠ [] →
      ∃ pre, join [10] (a ++ (x ++ [13]) :: r) = pre ++ 13 :: 10 :: join [10] r := by
    intro a x r hr
    induction a with
    | nil =>
      cases r with
      | nil => exact absurd rfl hr
      | cons m r => exact ⟨x, by simp [join]⟩
    | cons y a ih =>
      obtain ⟨pre, hp⟩ := ih
      refine ⟨y ++ [10] ++ pre, ?_⟩
      have : ∃ z w, a ++ (x ++ [13]) :: r = z :: w := by
        cases a with
        | nil => exact ⟨_, _, rfl⟩
        | cons z w => exact ⟨_, _, rfl⟩
      obtain ⟨z, w, hz⟩ := this
      rw [List.cons_append, hz]
      simp only [join]
      rw [← hz, hp]
      simp
  obtain ⟨pre, hp⟩ := hjoin a l' (b ++ [(splitOn 10 t).getLast hne]) (by simp)
  rw [hp] at hj
  exact h pre _ hj.symm

/-- C08: for every text with LF line ends (no CR directly before an LF), the same text with CR LF line ends is read to the same cards,
    with the same number of rounds of the reading loop - in particular one is read to its end iff the other is. -/
theorem C08_line_endings (E : Codecs) (text : List UInt8) (h : ∀ pre post, text ≠ pre ++ 13 :: 10 :: post) (fuel : Nat) :
    parseVCards E fuel (withCRLF text) = parseVCards E fuel text := by
  rw [parseVCards_eq, parseVCards_eq, physLines_withCRLF text h]

/-- a complete card meets the hypothesis, and reading it gives a card with one line -/
example (E : Codecs) :
    withCRLF (b! "BEGIN:VCARD\nFN:A\nEND:VCARD\n") = b! "BEGIN:VCARD\r\nFN:A\r\nEND:VCARD\r\n" ∧
    (parseVCards E 6 (b! "BEGIN:VCARD\nFN:A\nEND:VCARD\n")).map (fun c => c.map VCard.identifiers) = some [[q! "FN"]] := by
  constructor
  · decide
  · rfl

end KC
