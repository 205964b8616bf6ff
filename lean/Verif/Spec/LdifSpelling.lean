import Verif.Spec.Ldif
import Mathlib.Data.List.Forall2
/-
  The ways in which the lines of an LDIF entry can be written.
-/
namespace KC.Spec

/-- `SpelledLine name value line`: the line gives the attribute of this name the value. White space (`pad`) may stand between the name and the colon. -/
inductive SpelledLine (name : QString) (value : QByteArray) : QByteArray → Prop
  /-- the value as it is; it has no line end -/
  | plain (pad : QByteArray) : (∀ c ∈ pad, c = 32 ∨ c = 9) → 10 ∉ value → 13 ∉ value → SpelledLine name value (toUtf8 name ++ pad ++ b! ": " ++ value)
  /-- the value in base64 -/
  | encoded (pad : QByteArray) : (∀ c ∈ pad, c = 32 ∨ c = 9) → SpelledLine name value (toUtf8 name ++ pad ++ b! ":: " ++ toBase64 value)
  /-- no value -/
  | bare (pad : QByteArray) : (∀ c ∈ pad, c = 32 ∨ c = 9) → value = [] → SpelledLine name value (toUtf8 name ++ pad ++ b! ":")

/-- A record: its distinguished name and its attributes, each spelled in one of these ways, and one or more empty lines. -/
def LdifRecord.SpelledAs (r : LdifRecord) (text : QByteArray) : Prop :=
  ∃ (lines : List QByteArray) (n : Nat), List.Forall₂ (fun a l => SpelledLine a.1 a.2 l) ((q! "dn", r.dn) :: r.attrs) lines ∧
    text = lines.flatMap (· ++ b! "\n") ++ List.replicate (n + 1) 10

/-- A file of records spelled in these ways; empty lines may come first. -/
def SpelledFile (rs : List LdifRecord) (text : QByteArray) : Prop :=
  ∃ (n : Nat) (texts : List QByteArray), List.Forall₂ LdifRecord.SpelledAs rs texts ∧ text = List.replicate n 10 ++ texts.flatten

end KC.Spec
