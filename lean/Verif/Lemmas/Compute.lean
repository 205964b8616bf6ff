import Verif.Props.C24
/- Helper lemmas: what writing and reading gives, by computation. -/
namespace KC

/-- the single contact that is read back, if that is the outcome -/
def oneBack (E : ToolEnv) (v : Version) (ids : IdKind → Nat → QString) (c : Contact) : Option Contact :=
  match readText E.toCodecs (createContacts E v false [c]) with
  | none => none
  | some cards =>
    match readCards E ids 0 0 0 0 cards with
    | some [c'] => some c'
    | _ => none

theorem oneBack_read {E : ToolEnv} {v : Version} {ids : IdKind → Nat → QString} {c c' : Contact} (h : oneBack E v ids c = some c') : WrittenAndRead E v ids c c' := by
  unfold oneBack at h
  cases h1 : readText E.toCodecs (createContacts E v false [c]) with
  | none => rw [h1] at h; simp at h
  | some cards =>
    rw [h1] at h
    simp only at h
    refine ⟨(physLines (createContacts E v false [c])).length + 2, fun fuel hf => ?_⟩
    unfold parseContacts
    rw [parseVCards_of_readText _ _ _ h1 fuel hf]
    simp only
    revert h
    split
    · intro h
      rename_i h2
      cases h
      rw [h2]
    · intro h; cases h

/-- a counterexample by computation -/
theorem oneBack_not {E : ToolEnv} {v : Version} {ids : IdKind → Nat → QString} (c : Contact) (P : Contact → Prop) [DecidablePred P]
    (h : (oneBack E v ids c).any (fun c' => !decide (P c')) = true) : ∃ c', WrittenAndRead E v ids c c' ∧ ¬ P c' := by
  cases h1 : oneBack E v ids c with
  | none => rw [h1] at h; simp at h
  | some c' => rw [h1] at h; exact ⟨c', oneBack_read h1, by simpa using h⟩

/-- the contacts in a text, if they can be read -/
def contactsIn (E : ToolEnv) (ids : IdKind → Nat → QString) (text : QByteArray) : Option (List Contact) :=
  (readText E.toCodecs text).bind (readCards E ids 0 0 0 0)

theorem contactsIn_read {E : ToolEnv} {ids : IdKind → Nat → QString} {text : QByteArray} {cs : List Contact} (h : contactsIn E ids text = some cs) :
    ∃ n, ∀ fuel, n ≤ fuel → parseContacts E ids fuel text = .ok cs := by
  unfold contactsIn at h
  cases h1 : readText E.toCodecs text with
  | none => rw [h1] at h; simp at h
  | some cards =>
    rw [h1, Option.bind_some] at h
    refine ⟨(physLines text).length + 2, fun fuel hf => ?_⟩
    unfold parseContacts
    rw [parseVCards_of_readText _ _ _ h1 fuel hf]
    simp only
    rw [h]

/-- a fact about the only contact in a text, by computation -/
theorem contactsIn_one {E : ToolEnv} {ids : IdKind → Nat → QString} {text : QByteArray} (P : Contact → Prop) [DecidablePred P]
    (h : (match contactsIn E ids text with | some [c] => decide (P c) | _ => false) = true) :
    ∃ c', (∃ n, ∀ fuel, n ≤ fuel → parseContacts E ids fuel text = .ok [c']) ∧ P c' := by
  revert h
  split
  · rename_i c hc
    intro h
    exact ⟨c, contactsIn_read hc, by simpa using h⟩
  · intro h; cases h

end KC
