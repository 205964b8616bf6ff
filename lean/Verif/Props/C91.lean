import Verif.Lemmas.Rewritten
import Verif.Props.C89
/-
  C91. Importing a vCard file that this library wrote and exporting the contacts again in the same version gives the same bytes, however the contacts
  and their lists are filled; also when they are exported with the public names of custom fields instead (`exportVCards`), the text is the one the
  contacts themselves would have given.

  Proved for all contacts a version can carry (`Readable`, the class of C24). Keys with a type of their own are excluded in version 4, where the second
  text differs (`C91_custom_key_false`). Contacts with texts that a vCard changes (C89) settle with the first import: from the second export on the bytes
  stay the same (`C91_settles`), unless components that end in a backslash are left where they are merged again (`C91_settles_false`).
-/
namespace KC
open Spec

/-! ### Proof -/

theorem version_line (E : ToolEnv) (v : Version) (ex : Bool) (c : Contact) : ∃ l ∈ contactLines E v ex c, l.identifier = q! "VERSION" :=
  ⟨_, List.mem_append_left _ (List.mem_singleton.2 rfl), rfl⟩

theorem readAs_text {E : ToolEnv} {v : Version} {ids : IdKind → Nat → QString} {cs cs' : List Contact} {a p k : Nat} (h : ReadAs E v ids a p k cs cs') :
    (∀ c ∈ cs, Readable E v c) → (v = .v4_0 → ∀ c ∈ cs, ∀ k ∈ c.keys, k.type ≠ .custom) → ∀ ex, createContacts E v ex cs' = createContacts E v ex cs := by
  induction h with
  | nil => intros; rfl
  | @cons a p k c c' cs cs' he _ ih =>
    intro hR hk ex
    have ih := ih (fun d hd => hR d (by simp [hd])) (fun hv d hd => hk hv d (by simp [hd])) ex
    have one : writeCard E.toCodecs (cardAfter (contactLines E v ex c')) = writeCard E.toCodecs (cardAfter (contactLines E v ex c)) := by
      apply card_text
      · exact version_line E v ex c'
      · exact version_line E v ex c
      · intro n
        rw [he]
        exact restored_texts (hR c (by simp)) (fun hv => hk hv c (by simp)) ids a p k (byField c.fieldGroups) (regrouped_byField _) ex n
    unfold createContacts createVCardText at *
    rw [List.map_cons, List.map_cons, List.flatMap_cons, List.flatMap_cons, ih]
    exact congrArg (· ++ _) one

/-! ### Theorems -/

/-- Any number of contacts, written as one text: what is read from it is written as that text again. -/
theorem C91_text_partial (E : ToolEnv) (v : Version) (ids : IdKind → Nat → QString) (hinj : ∀ k i j, ids k i = ids k j → i = j) (cs : List Contact)
    (hR : ∀ c ∈ cs, Readable E v c) (hk : v = .v4_0 → ∀ c ∈ cs, ∀ k ∈ c.keys, k.type ≠ .custom) (hu : ∀ c ∈ cs, ∀ i, c.uid ≠ ids .contact i) :
    ∃ n, ∀ fuel, n ≤ fuel → ∃ cs', parseContacts E ids fuel (createContacts E v false cs) = .ok cs' ∧
      createContacts E v false cs' = createContacts E v false cs ∧ createContacts E v true cs' = createContacts E v true cs := by
  obtain ⟨cs', h, n, hn⟩ := C24_contacts E v ids hinj cs hR hu
  exact ⟨n, fun fuel hf => ⟨cs', hn fuel hf, readAs_text h hR hk false, readAs_text h hR hk true⟩⟩

/-- One contact, any number of rounds: the text is the same each time. -/
theorem C91_rounds_partial (E : ToolEnv) (v : Version) (c : Contact) (h : Readable E v c) (hk : v = .v4_0 → ∀ k ∈ c.keys, k.type ≠ .custom)
    (n : Nat) (d : Contact) (hn : Rounds E v n c d) : createContacts E v false [d] = createContacts E v false [c] := by
  induction hn with
  | zero => rfl
  | @succ m c d d' ids hr hrd ih =>
    have hd : Readable E v d ∧ (v = .v4_0 → ∀ k ∈ d.keys, k.type ≠ .custom) := by
      cases m with
      | zero => cases hr; exact ⟨h, hk⟩
      | succ m =>
        obtain ⟨h1, h2, -⟩ := rounds_inv h hk hr fun _ _ => []
        exact ⟨h1, h2⟩
    rw [← ih h hk]
    obtain ⟨j, hj⟩ := C91_text_partial E v ids hrd.fresh.1 [d] (by simpa using hd.1) (by simpa using hd.2) (by simpa using hrd.fresh.2)
    obtain ⟨i, hi⟩ := hrd.read
    obtain ⟨cs', h1, h2, -⟩ := hj (max i j) (by omega)
    rw [hi (max i j) (by omega)] at h1
    cases h1
    exact h2

/-- Contacts with any texts, in version 3.0 and 4.0: what is read from the first export may have other texts (`carried`, `merged`, see C89), but exporting
    that, importing it and exporting it again gives the same bytes. -/
theorem C91_settles (E : ToolEnv) (v : Version) (hv : v ≠ .v2_1) (ids : IdKind → Nat → QString) (hinj : ∀ k i j, ids k i = ids k j → i = j) (cs : List Contact)
    (hR : ∀ c ∈ cs, Carriable E v ((c.carried v).written v)) (hM : ∀ c ∈ cs, Readable E v ((c.carried v).written v).merged)
    (hk : v = .v4_0 → ∀ c ∈ cs, ∀ k ∈ c.keys, k.type ≠ .custom) (hu : ∀ c ∈ cs, ∀ i, carried c.uid ≠ ids .contact i) :
    ∃ cs' n, ∀ fuel, n ≤ fuel → parseContacts E ids fuel (createContacts E v false cs) = .ok cs' ∧
      ∃ cs'', parseContacts E ids fuel (createContacts E v false cs') = .ok cs'' ∧ createContacts E v false cs'' = createContacts E v false cs' := by
  obtain ⟨cs', h1, n, hn⟩ := C89_contacts E v hv ids hinj cs hR hu
  have hM' : ∀ c ∈ cs.map (fun c => ((c.carried v).written v).merged), Readable E v c := by
    intro c hc; obtain ⟨d, hd, rfl⟩ := List.mem_map.1 hc; exact hM d hd
  have hk' : v = .v4_0 → ∀ c ∈ cs.map (fun c => ((c.carried v).written v).merged), ∀ k ∈ c.keys, k.type ≠ .custom := by
    intro hv c hc k hkm
    obtain ⟨d, hd, rfl⟩ := List.mem_map.1 hc
    obtain ⟨k', hk', rfl⟩ := List.mem_map.1 (show k ∈ d.keys.map Key.carried from hkm)
    exact hk hv d hd k' hk'
  have ht := readAs_text h1 hM' hk' false
  obtain ⟨m, hm⟩ := C91_text_partial E v ids hinj _ hM' hk' (by
    intro c hc i; obtain ⟨d, hd, rfl⟩ := List.mem_map.1 hc; exact hu d hd i)
  refine ⟨cs', max n m, fun fuel hf => ⟨hn fuel (by omega), ?_⟩⟩
  obtain ⟨cs'', e1, e2, -⟩ := hm fuel (by omega)
  rw [ht]
  exact ⟨cs'', e1, e2⟩

/-- In version 4 the name of a key's own type is in the first text and not in the second. -/
theorem C91_custom_key_false : ∃ c1, Rounds Sample.env .v4_0 1 Sample.customKey c1 ∧
    createContacts Sample.env .v4_0 false [c1] ≠ createContacts Sample.env .v4_0 false [Sample.customKey] := by
  obtain ⟨c1, h1, h1'⟩ := back_is (v := .v4_0) Sample.customKey
    (fun c1 => decide (createContacts Sample.env .v4_0 false [c1] ≠ createContacts Sample.env .v4_0 false [Sample.customKey]) = true) (by decide +kernel)
  exact ⟨c1, .succ Sample.ids (.zero Sample.customKey) ⟨⟨Sample.ids_inj, customKey_uid _ rfl⟩, h1⟩, of_decide_eq_true h1'⟩

/-- A title and a suffix that both end in a backslash: the second and the third export differ. -/
def Sample.twoBackslashes : Contact := { uid := q! "u", prefix_ := q! "Dr.\\", suffix := q! "Jr.\\" }

theorem C91_settles_false : ∃ c1 c2, Rounds Sample.env .v3_0 1 Sample.twoBackslashes c1 ∧ Rounds Sample.env .v3_0 2 Sample.twoBackslashes c2 ∧
    createContacts Sample.env .v3_0 false [c2] ≠ createContacts Sample.env .v3_0 false [c1] := by
  obtain ⟨c1, h1, hu, h1'⟩ := back_is (v := .v3_0) Sample.twoBackslashes (fun c1 => c1.uid = q! "u" ∧ (oneBack Sample.env .v3_0 Sample.ids c1).any (fun c2 =>
      decide (decide (createContacts Sample.env .v3_0 false [c2] ≠ createContacts Sample.env .v3_0 false [c1]) = true)) = true) (by decide +kernel)
  obtain ⟨c2, h2, h2'⟩ := back_is c1 (fun c2 => decide (createContacts Sample.env .v3_0 false [c2] ≠ createContacts Sample.env .v3_0 false [c1]) = true) h1'
  have r1 := Rounds.succ Sample.ids (.zero Sample.twoBackslashes) ⟨⟨Sample.ids_inj, customKey_uid _ rfl⟩, h1⟩
  exact ⟨c1, c2, r1, .succ Sample.ids r1 ⟨⟨Sample.ids_inj, customKey_uid _ hu⟩, h2⟩, of_decide_eq_true h2'⟩

/-! ### The hypotheses are met -/

example (v : Version) (hv : v ≠ .v2_1) : Carriable Sample.env v ((backslashes.carried v).written v) ∧ Readable Sample.env v ((backslashes.carried v).written v).merged ∧
    (v = .v4_0 → ∀ k ∈ backslashes.keys, k.type ≠ .custom) ∧ ∀ i, carried backslashes.uid ≠ Sample.ids .contact i := by
  rw [(C89_sample_merged v).1, (C89_sample_merged v).2]
  exact ⟨(C89_sample_readable v hv).carriable, C89_sample_readable v hv, fun _ => by decide, C24_sample_uid⟩

example (v : Version) : (∀ c ∈ [Sample.contact, Sample.contact], Readable Sample.env v c) ∧
    (v = .v4_0 → ∀ c ∈ [Sample.contact, Sample.contact], ∀ k ∈ c.keys, k.type ≠ .custom) ∧
    (∀ k i j, Sample.ids k i = Sample.ids k j → i = j) ∧ (∀ c ∈ [Sample.contact, Sample.contact], ∀ i, c.uid ≠ Sample.ids .contact i) :=
  ⟨by simpa using C24_sample_readable v, fun _ => by decide, Sample.ids_inj, by simpa using C24_sample_uid⟩

end KC
