import Verif.Model.Names
import Verif.Spec.Text
/-
  Specification side of names: the words of a text.
-/
namespace KC.Spec

/-- `ws` are the words of the text: the longest runs of elements that are not spaces, in order. -/
inductive Words {α : Type} (sp : α → Bool) : List α → List (List α) → Prop where
  | nil : Words sp [] []
  | space {x t ws} : sp x = true → Words sp t ws → Words sp (x :: t) ws
  | last {w} : w ≠ [] → (∀ x ∈ w, sp x = false) → Words sp w [w]
  | word {w x t ws} : w ≠ [] → (∀ x ∈ w, sp x = false) → sp x = true → Words sp t ws → Words sp (w ++ x :: t) (w :: ws)

/-- The space character, the only separator when a name is split. -/
def isBlankChar (c : UInt16) : Bool := c = 32

/-- The name without quotes around it: they must be the first and the last of at least two characters. -/
def Unquoted (s t : QString) : Prop := s = qc! '"' :: t ++ [qc! '"'] ∨ ((∀ x, s ≠ qc! '"' :: x ++ [qc! '"']) ∧ t = s)

/-- Nothing but the parts of the name is different. -/
def SameButName (c c' : Contact) : Prop :=
  { c with formattedName := [], name := [], prefix_ := [], givenName := [], additionalName := [], familyName := [], suffix := [], empty := false } =
  { c' with formattedName := [], name := [], prefix_ := [], givenName := [], additionalName := [], familyName := [], suffix := [], empty := false }

/-- The words of the five parts, one part after the other. -/
def PartWords (c : Contact) (ws : List QString) : Prop :=
  ∃ w1 w2 w3 w4 w5, Words isBlankChar c.prefix_ w1 ∧ Words isBlankChar c.givenName w2 ∧ Words isBlankChar c.additionalName w3 ∧
    Words isBlankChar c.familyName w4 ∧ Words isBlankChar c.suffix w5 ∧ ws = w1 ++ w2 ++ w3 ++ w4 ++ w5

/-- The words known without any configuration, addresseehelper.cpp:46-61 (untranslated). -/
def plainHelper : NameHelper where
  title w := w ∈ [q! "Dr.", q! "Miss", q! "Mr.", q! "Mrs.", q! "Ms.", q! "Prof."]
  suffix w := w ∈ [q! "I", q! "II", q! "III", q! "Jr.", q! "Sr."]
  prefix_ w := w ∈ [q! "van", q! "von", q! "de"]
  treatAsFamilyName := true
  lower := toLowerQ

/-! ### "Name <address>" -/

/-- The text does not begin or end with an ASCII space character. -/
def TrimmedText (s : QString) : Prop := ∀ x, s.head? = some x ∨ s.getLast? = some x → x.toNat ≠ 32 ∧ ¬ (9 ≤ x.toNat ∧ x.toNat ≤ 13)

/-- Addresses that can be taken out of "Name <address>": Unicode text without quotes, backslashes, '>' and NUL, no spaces at the ends. -/
structure MailAddress (e : QString) : Prop where
  ne : e ≠ []
  wellFormed : WellFormed e ∧ e.head? ≠ some 0xFEFF
  chars : ∀ x ∈ [0, qc! '"', qc! '\\', qc! '>'], x ∉ e
  ends : TrimmedText e

/-- The characters of a name that is written without quotes. -/
def BareNameChar (x : UInt16) : Prop :=
  x.toNat = 32 ∨ (48 ≤ x.toNat ∧ x.toNat ≤ 57) ∨ (65 ≤ x.toNat ∧ x.toNat ≤ 90) ∨ (97 ≤ x.toNat ∧ x.toNat ≤ 122) ∨
    (128 ≤ x.toNat ∧ ¬ (0xD800 ≤ x.toNat ∧ x.toNat < 0xE000))

/-- From the left, every backslash is followed by another character that is not a quote; the two belong together. -/
def backslashesPaired : QString → Bool
  | [] => true
  | [x] => x ≠ qc! '\\'
  | x :: y :: t => if x = qc! '\\' then y ≠ qc! '"' && backslashesPaired t else backslashesPaired (y :: t)

/-- Names that can be taken out of "Name <address>": Unicode text without NUL in which every
    backslash is followed by a character other than a quote. If it is written without quotes it has no spaces at
    the ends. -/
structure MailName (n : QString) : Prop where
  ne : n ≠ []
  wellFormed : WellFormed n
  chars : backslashesPaired n = true ∧ 0 ∉ n
  bare : (∀ x ∈ n, BareNameChar x) → TrimmedText n ∧ n.head? ≠ some 0xFEFF

end KC.Spec
