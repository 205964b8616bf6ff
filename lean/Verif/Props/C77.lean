import Verif.Spec.LdifConverter
/-
  C77 — an LDIF export adds the texts of its contacts and groups to the text, one after the other, and says whether there was something to export.
-/
namespace KC
open KC.Spec

/-- C77: a contact. An empty contact adds nothing and is reported. -/
theorem C77_contact (E : LdifEnv) (fresh : QString) (c : Contact) (str : QString) :
    addresseeToLDIF E fresh c str = (!c.empty, str ++ (addresseeToLDIF E fresh c []).2) ∧ (c.empty = true → (addresseeToLDIF E fresh c []).2 = []) := by
  unfold addresseeToLDIF
  cases h : c.empty with
  | true => simp
  | false => simp only [Bool.false_eq_true, if_false, List.append_assoc, List.nil_append, Bool.not_false, false_implies, and_true]

/-- C77: a group. A group without data of its own adds nothing and is reported. -/
theorem C77_group (g : Group) (str : QString) :
    contactGroupToLDIF g str = (decide (g.data ≠ []), str ++ (contactGroupToLDIF g []).2) ∧ (g.data = [] → (contactGroupToLDIF g []).2 = []) := by
  unfold contactGroupToLDIF
  cases h : g.data with
  | nil => simp
  | cons d l =>
    refine ⟨?_, fun h => absurd h (by simp)⟩
    simp only [List.isEmpty_cons, Bool.false_eq_true, if_false, List.append_assoc, List.nil_append]
    simp

private theorem fold_export {α : Type} (f : α → QString → Bool × QString) (hf : ∀ a s, (f a s).2 = s ++ (f a []).2) (l : List α) (s : QString) :
    l.foldl (fun acc a => let r := f a acc.2; (r.1 || acc.1, r.2)) (true, s) = (true, s ++ l.flatMap fun a => (f a []).2) := by
  induction l generalizing s with
  | nil => simp
  | cons a l ih =>
    rw [List.foldl_cons]
    dsimp only
    rw [Bool.or_true, ih, hf, List.flatMap_cons, List.append_assoc]

/-- C77: a list of contacts. -/
theorem C77_contacts (E : LdifEnv) (fresh : QString) (cs : List Contact) (str : QString) :
    addresseesToLDIF E fresh cs str = (decide (cs ≠ []), str ++ cs.flatMap fun c => (addresseeToLDIF E fresh c []).2) := by
  unfold addresseesToLDIF
  cases cs with
  | nil => simp
  | cons c cs =>
    rw [if_neg (by simp)]
    rw [fold_export (fun c s => addresseeToLDIF E fresh c s) (fun c s => by rw [(C77_contact E fresh c s).1])]
    simp

/-- C77: a list of groups. -/
theorem C77_groups (gs : List Group) (str : QString) :
    contactGroupsToLDIF gs str = (decide (gs ≠ []), str ++ gs.flatMap fun g => (contactGroupToLDIF g []).2) := by
  unfold contactGroupsToLDIF
  cases gs with
  | nil => simp
  | cons g gs =>
    rw [if_neg (by simp)]
    rw [fold_export (fun g s => contactGroupToLDIF g s) (fun g s => by rw [(C77_group g s).1])]
    simp

/-- C77: contacts and groups: first all contacts, then all groups. -/
theorem C77 (E : LdifEnv) (fresh : QString) (cs : List Contact) (gs : List Group) (str : QString) :
    addresseeAndContactGroupToLDIF E fresh cs gs str =
      (decide (cs ≠ [] ∨ gs ≠ []), str ++ (cs.flatMap fun c => (addresseeToLDIF E fresh c []).2) ++ gs.flatMap fun g => (contactGroupToLDIF g []).2) := by
  unfold addresseeAndContactGroupToLDIF
  rw [C77_contacts]
  cases gs with
  | nil => simp
  | cons g gs =>
    dsimp only
    rw [if_neg (by simp), C77_groups]
    simp

example : (addresseesToLDIF sampleLdifEnv (q! "f") [] (q! "x")) = (false, q! "x") ∧ (addresseesToLDIF sampleLdifEnv (q! "f") [{ uid := q! "u" }] (q! "x")) = (true, q! "x") := by
  decide

/-- A list of empty contacts is reported as exported although nothing was written. -/
theorem C77_empty_false (E : LdifEnv) (fresh u : QString) (str : QString) : addresseesToLDIF E fresh [Contact.new u] str = (true, str) ∧
    addresseeToLDIF E fresh (Contact.new u) str = (false, str) := ⟨rfl, rfl⟩

end KC
