import Verif.Spec.LdifConverter
import Verif.Lemmas.Ldif
/-
  Lemmas about the LDIF import: it is a fold over the items of the document.
-/
namespace KC
open KC.Spec

/-- What the import does with one item. -/
def ldifStep (E : LdifEnv) (ids : Nat → QString) (qdt : QDateTime) (x : LdifState × (List Contact × List Group)) (i : LdifItem) :
    LdifState × (List Contact × List Group) :=
  match i.kind with
  | .item => (evaluatePair E ids x.1 (toLowerQ i.attr) (fromUtf8 i.value), x.2)
  | .endEntry => (ldifFresh E ids qdt x.1.next x.1.birthday x.1.birthmonth x.1.birthyear, (x.2.1 ++ (ldifResult x.1).1, x.2.2 ++ (ldifResult x.1).2))
  | _ => x

theorem ldifLoop_items (E : LdifEnv) (ids : Nat → QString) (qdt : QDateTime) {l l' : Ldif} {es : List LdifEvent} (h : Items l es l') (b : Bool) (k : Nat)
    (x : LdifState × (List Contact × List Group)) :
    ldifLoop E ids qdt (k + 1 + es.length) l b x.1 x.2 =
      (let y := (es.map LdifEvent.short).foldl (ldifStep E ids qdt) x
       if b then some y.2 else ldifLoop E ids qdt k l'.endLdif true y.1 y.2) := by
  induction h generalizing x with
  | done h =>
    simp only [List.length_nil, Nat.add_zero, ldifLoop, h, List.map_nil, List.foldl_nil]
  | @item s s₁ s' r es h hr _ ih =>
    have e : k + 1 + (observe r s₁ :: es).length = (k + 1 + es.length) + 1 := by simp [Nat.add_assoc]
    rw [e, ldifLoop, h]
    simp only [List.map_cons, List.foldl_cons]
    cases r with
    | moreData => exact absurd rfl hr
    | item => exact ih (evaluatePair E ids x.1 (toLowerQ s₁.attr) (fromUtf8 s₁.value), x.2)
    | endEntry => exact ih (ldifFresh E ids qdt x.1.next x.1.birthday x.1.birthmonth x.1.birthyear, (x.2.1 ++ (ldifResult x.1).1, x.2.2 ++ (ldifResult x.1).2))
    | none => exact ih x
    | newEntry => exact ih x
    | control => exact ih x
    | err => exact ih x

theorem ldifLoop_more (E : LdifEnv) (ids : Nat → QString) (qdt : QDateTime) (k : Nat) : ∀ (l : Ldif) (b : Bool) (s : LdifState) (o r : List Contact × List Group),
    ldifLoop E ids qdt k l b s o = some r → ldifLoop E ids qdt (k + 1) l b s o = some r := by
  induction k with
  | zero => intro l b s o r h; simp [ldifLoop] at h
  | succ k ih =>
    intro l b s o r h
    rw [ldifLoop] at h ⊢
    cases hn : l.nextItem with
    | mk v l' =>
      rw [hn] at h
      cases v <;> simp only at h ⊢
      case moreData =>
        cases b
        · exact ih _ _ _ _ _ h
        · exact h
      all_goals exact ih _ _ _ _ _ h

theorem ldifLoop_le (E : LdifEnv) (ids : Nat → QString) (qdt : QDateTime) {k k' : Nat} (hk : k ≤ k') {l : Ldif} {b : Bool} {s : LdifState} {o r : List Contact × List Group}
    (h : ldifLoop E ids qdt k l b s o = some r) : ldifLoop E ids qdt k' l b s o = some r := by
  induction hk with
  | refl => exact h
  | step _ ih => exact ldifLoop_more _ _ _ _ _ _ _ _ _ ih

theorem ldifFeed_length (s : Ldif) (t : QByteArray) : (ldifFeed s t).1.length ≤ t.length := by
  induction t generalizing s with
  | nil => simp [ldifFeed]
  | cons c t ih =>
    have := ih (s.char c).2
    simp only [ldifFeed, List.length_append, List.length_cons]
    have : (ldifEmit (s.char c).1 (s.char c).2).length ≤ 1 := by unfold ldifEmit; split <;> simp
    omega

/-- The import of a document is a fold over its items. -/
theorem ldifToAddressee_items (E : LdifEnv) (ids : Nat → QString) (now : QDateTime) (str : QString) (es : List LdifEvent)
    (he : DocumentItems (toLatin1 str) es) :
    ldifToAddressee E ids now str = some ((es.map LdifEvent.short).foldl (ldifStep E ids now) (ldifFresh E ids now 0 (-1) (-1) (-1), ([], []))).2 := by
  have hlen : es.length ≤ str.length + 3 := by
    rw [(document_feed _ _).1 he]
    have := ldifFeed_length {} (toLatin1 str ++ [10, 10, 10])
    simpa [toLatin1] using this
  unfold ldifToAddressee
  split
  · rename_i h
    have : str = [] := by simpa using h
    subst this
    have hd := (document_feed _ _).1 he
    have : (ldifFeed {} (toLatin1 [] ++ [10, 10, 10])).1 = [] := by decide
    rw [this] at hd
    subst hd
    rfl
  · obtain ⟨es₁, s₁, es₂, s₂, h1, h2, rfl⟩ := he
    have l1 := ldifLoop_items E ids now h1 false (1 + es₂.length) (ldifFresh E ids now 0 (-1) (-1) (-1), ([], []))
    have l2 := ldifLoop_items E ids now h2 true 0 ((es₁.map LdifEvent.short).foldl (ldifStep E ids now) (ldifFresh E ids now 0 (-1) (-1) (-1), ([], [])))
    rw [Nat.zero_add] at l2
    simp only [Bool.false_eq_true, if_false, if_true] at l1 l2
    rw [l2] at l1
    rw [List.map_append, List.foldl_append]
    refine ldifLoop_le E ids now ?_ l1
    simp only [List.length_append] at hlen
    omega

/-! ### UUIDs and birth dates do not matter for the rest -/

/-- The state with other birth values and another count of UUIDs. -/
def LdifState.moved (s : LdifState) (n : Nat) (b : Int × Int × Int) : LdifState :=
  { s with next := n + s.next, birthyear := b.1, birthmonth := b.2.1, birthday := b.2.2 }

/-- What an attribute does to the birth values. -/
def birthStep (b : Int × Int × Int) (name value : QString) : Int × Int × Int :=
  if name = q! "birthyear" then ((toInt32 value).getD (-1), b.2)
  else if name = q! "birthmonth" then (b.1, (toInt32 value).getD 0, b.2.2)
  else if name = q! "birthday" then (b.1, b.2.1, (toInt32 value).getD 0)
  else b

/-- The birth values of the state. -/
def LdifState.birth (s : LdifState) : Int × Int × Int := (s.birthyear, s.birthmonth, s.birthday)

theorem ldifField_birth (hn : Bool) (name : QString) :
    (ldifField hn name = .birthYear ↔ name = q! "birthyear") ∧ (ldifField hn name = .birthMonth ↔ name = q! "birthmonth") ∧
    (ldifField hn name = .birthDay ↔ name = q! "birthday") := by
  unfold ldifField
  split
  · rename_i h; subst h; decide
  split
  · rename_i h0 h
    refine ⟨⟨nofun, ?_⟩, ⟨nofun, ?_⟩, ⟨nofun, ?_⟩⟩ <;> (rintro rfl; exact absurd h (by decide))
  split
  · rename_i h
    refine ⟨⟨nofun, ?_⟩, ⟨nofun, ?_⟩, ⟨nofun, ?_⟩⟩ <;> (rintro rfl; exact absurd h (by simp))
  · have key : ∀ (f : LdifField) (n : QString), f ≠ .unknown → (∀ p ∈ ldifFieldNames, p.2 = f ↔ p.1 = n) → (∃ p ∈ ldifFieldNames, p.1 = n) →
        (((ldifFieldNames.find? fun p => p.1 = name).map (·.2)).getD .unknown = f ↔ name = n) := by
      intro f n hf hp hex
      cases hq : ldifFieldNames.find? fun p => p.1 = name with
      | none =>
        have hnone := List.find?_eq_none.1 hq
        simp only [Option.map_none, Option.getD_none]
        refine ⟨fun e => absurd e.symm hf, ?_⟩
        rintro rfl
        obtain ⟨p, hp1, hp2⟩ := hex
        exact absurd (by simpa using hp2) (hnone p hp1)
      | some p =>
        have h1 : p.1 = name := by simpa using List.find?_some hq
        simp only [Option.map_some, Option.getD_some]
        rw [hp p (List.mem_of_find?_eq_some hq), h1]
    exact ⟨key _ _ (by decide) (by decide) (by decide), key _ _ (by decide) (by decide) (by decide), key _ _ (by decide) (by decide) (by decide)⟩

theorem evaluatePair_moved (E : LdifEnv) (ids : Nat → QString) (s : LdifState) (n : Nat) (b : Int × Int × Int) (name value : QString) :
    evaluatePair E ids (s.moved n b) name value = (evaluatePair E (fun i => ids (n + i)) s name value).moved n (birthStep b name value) := by
  obtain ⟨h1, h2, h3⟩ := ldifField_birth (!s.a.note.isEmpty) name
  have ha : (s.moved n b).a = s.a := rfl
  unfold evaluatePair ldifApply birthStep
  rw [ha]
  cases hf : ldifField (!s.a.note.isEmpty) name <;> rw [hf] at h1 h2 h3 <;> simp only [reduceCtorEq, false_iff, true_iff] at h1 h2 h3
  case birthYear => subst h1; simp [LdifState.moved]
  case birthMonth => subst h2; simp [LdifState.moved]
  case birthDay => subst h3; simp [LdifState.moved]
  all_goals simp only [h1, h2, h3, if_false]
  all_goals rfl

theorem ldifFresh_moved (E : LdifEnv) (ids : Nat → QString) (qdt : QDateTime) (n : Nat) (b : Int × Int × Int) :
    ldifFresh E ids qdt n b.2.2 b.2.1 b.1 = (ldifFresh E (fun i => ids (n + i)) qdt 0 (-1) (-1) (-1)).moved n b := by
  simp [ldifFresh, LdifState.moved]

end KC
