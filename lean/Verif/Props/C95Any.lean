import Verif.Props.C89
import Verif.Props.C99
/- C92, C95 and C99 for contacts with any texts, in versions 3.0 and 4.0. -/
namespace KC
namespace Spec

/-- The version can carry what is left of the contact when every text is `carried` and the addresses without content are left out. -/
structure Carries (E : ToolEnv) (v : Version) (c : Contact) : Prop where
  version : v ≠ .v2_1
  contact : Carriable E v ((c.carried v).written v)

/-- What is left of the contact then, with the components that end in a backslash joined to the next ones. -/
def leftOf (v : Version) (c : Contact) : Contact := ((c.carried v).written v).merged

end Spec
open Spec

/-! ### Proof -/

private abbrev readAny (l : VCardLine) : Option VCardLine := readBack (carriedLine l)

private theorem any_lines {E : ToolEnv} {v : Version} {c : Contact} (h : Carries E v c) :
    contactLines E v false ((c.carried v).written v) = (contactLines E v false c).map carriedLine := by
  have h' := h.contact
  rw [← carried_written_swap] at h' ⊢
  have e : contactLines E v false ((c.written v).carried v) = (contactLines E v false (c.written v)).map carriedLine :=
    carried_lines (E := E.plain) h.version rfl (carriable_plain h.version h')
  rw [e, same_lines_written]

private theorem any_reads {E : ToolEnv} {v : Version} {c : Contact} (h : Carries E v c) (l : VCardLine)
    (hl : l ∈ (writeOrder (cardAfter (contactLines E v false c))).flatMap (cardAfter (contactLines E v false c)).lines) : Reads E.toCodecs l (readAny l) := by
  refine reads_carried E.toCodecs E.plain.toCodecs rfl l (fine_all (carriable_plain h.version h.contact) _ ?_)
  show _ ∈ contactLines E v false ((c.carried v).written v)
  rw [any_lines h]
  exact List.mem_map.2 ⟨l, mem_flatMap_lines _ _ _ hl, rfl⟩

private theorem any_card {E : ToolEnv} {v : Version} {c : Contact} (h : Carries E v c) :
    cardAfter (((writeOrder (cardAfter (contactLines E v false c))).flatMap (cardAfter (contactLines E v false c)).lines).filterMap readAny) =
      cardAfter (writtenBack (contactLines E v false ((c.carried v).written v))) := by
  rw [any_lines h]
  unfold writtenBack
  rw [carried_written carriedLine (fun _ => rfl), List.filterMap_map]
  rfl

private theorem any_mixed {E : ToolEnv} (ids : IdKind → Nat → QString) (hinj : ∀ k i j, ids k i = ids k j → i = j) (l : List (Version × Contact))
    (hR : ∀ x ∈ l, Carries E x.1 x.2) (hu : ∀ x ∈ l, ∀ i, carried x.2.uid ≠ ids .contact i) (n a p k : Nat) :
    ∃ cs', readCards E ids n a p k (l.map fun x => cardAfter (writtenBack (contactLines E x.1 false ((x.2.carried x.1).written x.1)))) = some cs' ∧
      EachReadAs E ids a p k (l.map fun x => (x.1, leftOf x.1 x.2)) cs' := by
  induction l generalizing n a p k with
  | nil => exact ⟨[], rfl, .nil⟩
  | cons x l ih =>
    obtain ⟨v, c⟩ := x
    have hRc : Carries E v c := hR (v, c) (by simp)
    have huc : ∀ i, carried c.uid ≠ ids .contact i := hu (v, c) (by simp)
    generalize hd : (c.carried v).written v = d
    have hC : Carriable E v d := hd ▸ hRc.contact
    obtain ⟨h1, h3, h4, h5, h6⟩ := back_contact hC ids hinj (ids .contact n) (by rw [← hd]; exact huc n)
      { c := Contact.new (ids .contact n), addresses := a, phones := p, keys := k } rfl rfl
    obtain ⟨cs', e, hcs⟩ := ih (fun x hx => hR x (by simp [hx])) (fun x hx => hu x (by simp [hx])) (n + 1) (a + d.addresses.length) (p + d.phoneNumbers.length)
      (k + (d.keys.filter Key.hasData).length)
    have hl : leftOf v c = d.merged := by unfold leftOf; rw [hd]
    refine ⟨d.merged.restored E v ids a p k :: cs', ?_, ?_⟩
    · rw [List.map_cons, readCards]
      simp only [hd]
      change (if (back E v ids d _).ub then none else (readCards E ids (n + 1) (back E v ids d _).addresses (back E v ids d _).phones (back E v ids d _).keys _).map _) = _
      rw [h6, h3, h4, h5]
      change Option.map _ (readCards E ids (n + 1) (a + d.addresses.length) (p + d.phoneNumbers.length) (k + (d.keys.filter Key.hasData).length) _) = _
      rw [e, ← h1]
      rfl
    · rw [List.map_cons]
      show EachReadAs E ids a p k ((v, leftOf v c) :: _) _
      rw [hl]
      refine .cons ?_
      rw [show d.merged.addresses.length = d.addresses.length from List.length_map _]
      exact hcs

/-- a text with the cards of these contacts -/
private theorem any_parsed {E : ToolEnv} (ids : IdKind → Nat → QString) (hinj : ∀ k i j, ids k i = ids k j → i = j) (l : List (Version × Contact))
    (hR : ∀ x ∈ l, Carries E x.1 x.2) (hu : ∀ x ∈ l, ∀ i, carried x.2.uid ≠ ids .contact i) (T : QByteArray)
    (hT : readText E.toCodecs T = some ((l.map fun x => cardAfter (contactLines E x.1 false x.2)).map fun c => cardAfter (((writeOrder c).flatMap c.lines).filterMap readAny))) :
    ∃ cs', EachReadAs E ids 0 0 0 (l.map fun x => (x.1, leftOf x.1 x.2)) cs' ∧ ∃ n, ∀ fuel ≥ n, parseContacts E ids fuel T = .ok cs' := by
  obtain ⟨cs', e, h⟩ := any_mixed ids hinj l hR hu 0 0 0 0
  refine ⟨cs', h, (physLines T).length + 2, fun fuel hf => ?_⟩
  unfold parseContacts
  rw [parseVCards_of_readText _ _ _ hT fuel hf, List.map_map]
  have he : l.map ((fun c => cardAfter (((writeOrder c).flatMap c.lines).filterMap readAny)) ∘ fun x : Version × Contact => cardAfter (contactLines E x.1 false x.2)) =
      l.map fun x => cardAfter (writtenBack (contactLines E x.1 false ((x.2.carried x.1).written x.1))) :=
    List.map_congr_left fun x hx => any_card (hR x hx)
  rw [he]
  simp only [e]

private theorem any_all {E : ToolEnv} {l : List (Version × Contact)} (hR : ∀ x ∈ l, Carries E x.1 x.2) :
    ∀ card ∈ l.map (fun x => cardAfter (contactLines E x.1 false x.2)), ∀ y ∈ (writeOrder card).flatMap card.lines, Reads E.toCodecs y (readAny y) := by
  intro card hc y hy
  obtain ⟨x, hx, rfl⟩ := List.mem_map.1 hc
  exact any_reads (hR x hx) y hy

private theorem one_version {E : ToolEnv} {v : Version} (cs : List Contact) :
    (cs.map fun c => cardAfter (contactLines E v false c)) = (cs.map fun c => (v, c)).map fun x => cardAfter (contactLines E x.1 false x.2) := by
  rw [List.map_map]; rfl

private theorem pairs_all {P : Version → Contact → Prop} {v : Version} {cs : List Contact} (h : ∀ c ∈ cs, P v c) : ∀ x ∈ cs.map (fun c => (v, c)), P x.1 x.2 := by
  intro x hx
  obtain ⟨c, hc, rfl⟩ := List.mem_map.1 hx
  exact h c hc

private theorem any_cut {E : ToolEnv} {v : Version} {cs : List Contact} (hR : ∀ c ∈ cs, Carries E v c) (k j : Nat) (hj : Complete E v cs k j) :
    readText E.toCodecs ((createContacts E v false cs).take k) = some
      ((((cs.take j).map fun c => (v, c)).map fun x => cardAfter (contactLines E x.1 false x.2)).map fun c => cardAfter (((writeOrder c).flatMap c.lines).filterMap readAny)) := by
  have hL := any_all (E := E) (pairs_all hR)
  rw [← one_version] at hL
  have key := readText_cut_written E.toCodecs readAny (cs.map fun c => cardAfter (contactLines E v false c)) hL k j
    (by rw [← List.map_take]; exact hj.within) (by rw [← List.map_take, List.length_map]; exact hj.beyond)
  refine key.trans ?_
  rw [← List.map_take, one_version]
  exact reads_text E.toCodecs readAny _ (any_all (pairs_all fun c hc => hR c (List.mem_of_mem_take hc)))

/-! ### The property -/

/-- C92 for any texts: files of version 3.0 or 4.0 with any contacts, joined to one text; of each contact is read what its version carries of it. -/
theorem C92_any (E : ToolEnv) (ids : IdKind → Nat → QString) (hinj : ∀ k i j, ids k i = ids k j → i = j) (files : List Export)
    (hR : ∀ f ∈ files, ∀ c ∈ f.contacts, Carries E f.version c) (hu : ∀ f ∈ files, ∀ c ∈ f.contacts, ∀ i, carried c.uid ≠ ids .contact i) :
    ∃ cs', EachReadAs E ids 0 0 0 ((allContacts files).map fun x => (x.1, leftOf x.1 x.2)) cs' ∧
      ∃ n, ∀ fuel ≥ n, parseContacts E ids fuel (files.flatMap fun f => createContacts E f.version false f.contacts) = .ok cs' := by
  have hmem : ∀ x ∈ allContacts files, ∃ f ∈ files, x.1 = f.version ∧ x.2 ∈ f.contacts := by
    intro x hx
    obtain ⟨f, hf, hx⟩ := List.mem_flatMap.1 hx
    obtain ⟨c, hc, rfl⟩ := List.mem_map.1 hx
    exact ⟨f, hf, rfl, hc⟩
  have hR' : ∀ x ∈ allContacts files, Carries E x.1 x.2 := by
    intro x hx
    obtain ⟨f, hf, e, hc⟩ := hmem x hx
    rw [e]; exact hR f hf _ hc
  refine any_parsed ids hinj (allContacts files) hR' (fun x hx => ?_) _ ?_
  · obtain ⟨f, hf, -, hc⟩ := hmem x hx
    exact hu f hf _ hc
  · rw [joined_text]
    exact reads_text E.toCodecs readAny _ (any_all hR')

/-- C95 for any texts: contacts of any content are written as one text of version 3.0 or 4.0, and the text is cut off after any number of bytes. -/
theorem C95_any (E : ToolEnv) (v : Version) (ids : IdKind → Nat → QString) (hinj : ∀ k i j, ids k i = ids k j → i = j) (cs : List Contact)
    (hR : ∀ c ∈ cs, Carries E v c) (hu : ∀ c ∈ cs, ∀ i, carried c.uid ≠ ids .contact i) (k j : Nat) (hj : Complete E v cs k j) :
    ∃ cs', EachReadAs E ids 0 0 0 ((cs.take j).map fun c => (v, leftOf v c)) cs' ∧
      ∃ n, ∀ fuel ≥ n, parseContacts E ids fuel ((createContacts E v false cs).take k) = .ok cs' := by
  have h := any_parsed ids hinj ((cs.take j).map fun c => (v, c)) (pairs_all fun c hc => hR c (List.mem_of_mem_take hc))
    (pairs_all (P := fun _ c => ∀ i, carried c.uid ≠ ids .contact i) fun c hc => hu c (List.mem_of_mem_take hc)) _ (any_cut hR k j hj)
  rw [List.map_map] at h
  exact h

/-- C99 for any texts: the export breaks off after any number of bytes, and a line end and another export follow. -/
theorem C99_any (E : ToolEnv) (ids : IdKind → Nat → QString) (hinj : ∀ k i j, ids k i = ids k j → i = j) (v v' : Version)
    (cs next : List Contact) (hR : ∀ c ∈ cs, Carries E v c) (hR' : ∀ c ∈ next, Carries E v' c)
    (hu : ∀ c ∈ cs, ∀ i, carried c.uid ≠ ids .contact i) (hu' : ∀ c ∈ next, ∀ i, carried c.uid ≠ ids .contact i)
    (k j : Nat) (hj : Complete E v cs k j) (hq : NoSoftBreak ((createContacts E v false cs).take k)) :
    ∃ cs', EachReadAs E ids 0 0 0 ((cs.take j).map (fun c => (v, leftOf v c)) ++ next.map (fun c => (v', leftOf v' c))) cs' ∧
      ∃ n, ∀ fuel ≥ n, parseContacts E ids fuel ((createContacts E v false cs).take k ++ [10] ++ createContacts E v' false next) = .ok cs' := by
  have hRt : ∀ c ∈ cs.take j, Carries E v c := fun c hc => hR c (List.mem_of_mem_take hc)
  have happ : ∀ {P : Version → Contact → Prop}, (∀ c ∈ cs.take j, P v c) → (∀ c ∈ next, P v' c) →
      ∀ x ∈ (cs.take j).map (fun c => (v, c)) ++ next.map (fun c => (v', c)), P x.1 x.2 := by
    intro P h1 h2 x hx
    rcases List.mem_append.1 hx with hx | hx
    · exact pairs_all h1 x hx
    · exact pairs_all h2 x hx
  have hse : startsWithCI (b! "end:vcard") ((createContacts E v false cs).take k) = false :=
    text_start E.toCodecs _ _ (List.take_prefix _ _)
  have hcut := readText_line_end E.toCodecs _ _ hse (any_cut hR k j hj)
  have h := any_parsed ids hinj ((cs.take j).map (fun c => (v, c)) ++ next.map (fun c => (v', c))) (happ hRt hR')
    (happ (P := fun _ c => ∀ i, carried c.uid ≠ ids .contact i) (fun c hc => hu c (List.mem_of_mem_take hc)) hu')
    ((createContacts E v false cs).take k ++ [10] ++ createContacts E v' false next) (by
      rw [List.map_append, List.map_append]
      by_cases hn : next = []
      · subst hn
        change readText E.toCodecs (_ ++ []) = _
        rw [List.append_nil, hcut]
        simp
      · have hrb : readText E.toCodecs (createContacts E v' false next) = some _ :=
          reads_text E.toCodecs readAny (next.map fun c => cardAfter (contactLines E v' false c)) (by rw [one_version]; exact any_all (pairs_all hR'))
        obtain ⟨ca, g1, g2⟩ := readText_after E.toCodecs _ (createContacts E v' false next) (.inr ⟨_, rfl⟩) (nosoft_line_end _ hq)
          (begin_written _ _ (by simpa using hn)) _ hrb
        rw [hcut] at g1
        obtain rfl := Option.some.inj g1
        rw [g2, one_version])
  rw [List.map_append, List.map_map, List.map_map] at h
  exact h

/-! ### The hypotheses are met -/

private theorem backslashes_carries (v : Version) (hv : v ≠ .v2_1) : Carries Sample.env v backslashes :=
  ⟨hv, by rw [(C89_sample_merged v).1]; exact (C89_sample_readable v hv).carriable⟩

private theorem backslashes_left (v : Version) : leftOf v backslashes = backslashesRead := by
  unfold leftOf; rw [(C89_sample_merged v).1, (C89_sample_merged v).2]

private theorem backslashes_uid (i : Nat) : carried backslashes.uid ≠ Sample.ids .contact i := by
  have e : carried backslashes.uid = Sample.contact.uid := by decide +kernel
  rw [e]; exact C24_sample_uid i

/-- Two contacts with half a surrogate pair and backslashes before letters in version 4.0, and one in 3.0, in one text. -/
example : ∃ cs', EachReadAs Sample.env Sample.ids 0 0 0 [(.v4_0, backslashesRead), (.v4_0, backslashesRead), (.v3_0, backslashesRead)] cs' ∧
    ∃ n, ∀ fuel ≥ n, parseContacts Sample.env Sample.ids fuel
      (createContacts Sample.env .v4_0 false [backslashes, backslashes] ++ (createContacts Sample.env .v3_0 false [backslashes] ++ [])) = .ok cs' := by
  have h := C92_any Sample.env Sample.ids Sample.ids_inj [⟨.v4_0, [backslashes, backslashes]⟩, ⟨.v3_0, [backslashes]⟩]
    (by intro f hf c hc
        simp only [List.mem_cons, List.not_mem_nil, or_false] at hf
        rcases hf with rfl | rfl
        · have : c = backslashes := by simpa using hc
          subst this; exact backslashes_carries _ (by decide)
        · have : c = backslashes := by simpa using hc
          subst this; exact backslashes_carries _ (by decide))
    (by intro f hf c hc
        simp only [List.mem_cons, List.not_mem_nil, or_false] at hf
        rcases hf with rfl | rfl
        · have : c = backslashes := by simpa using hc
          subst this; exact backslashes_uid
        · have : c = backslashes := by simpa using hc
          subst this; exact backslashes_uid)
  simpa [allContacts, backslashes_left] using h

/-- Two of them in one text that is cut off anywhere: there is a number `j` of contacts that are complete, and these are read. -/
example (v : Version) (hv : v ≠ .v2_1) (k : Nat) : ∃ j cs', Complete Sample.env v [backslashes, backslashes] k j ∧
    EachReadAs Sample.env Sample.ids 0 0 0 (([backslashes, backslashes].take j).map fun _ => (v, backslashesRead)) cs' ∧
    ∃ n, ∀ fuel ≥ n, parseContacts Sample.env Sample.ids fuel ((createContacts Sample.env v false [backslashes, backslashes]).take k) = .ok cs' := by
  obtain ⟨j, hj⟩ := C95_every_cut Sample.env v [backslashes, backslashes] k
  have hm : ∀ c ∈ [backslashes, backslashes], c = backslashes := by simp
  obtain ⟨cs', h1, h2⟩ := C95_any Sample.env v Sample.ids Sample.ids_inj [backslashes, backslashes] (fun c hc => by rw [hm c hc]; exact backslashes_carries v hv)
    (fun c hc => by rw [hm c hc]; exact backslashes_uid) k j hj
  refine ⟨j, cs', hj, ?_, h2⟩
  have e : ([backslashes, backslashes].take j).map (fun c => (v, leftOf v c)) = ([backslashes, backslashes].take j).map fun _ => (v, backslashesRead) :=
    List.map_congr_left fun c hc => by rw [hm c (List.mem_of_mem_take hc), backslashes_left]
  rwa [e] at h1

/-- Two of them, broken off within the second, and then one in another version. -/
example (v v' : Version) (hv : v ≠ .v2_1) (hv' : v' ≠ .v2_1) : ∃ cs', EachReadAs Sample.env Sample.ids 0 0 0 [(v, backslashesRead), (v', backslashesRead)] cs' ∧ ∃ n, ∀ fuel ≥ n,
    parseContacts Sample.env Sample.ids fuel
      ((createContacts Sample.env v false [backslashes, backslashes]).take ((createContacts Sample.env v false [backslashes, backslashes]).length - 20) ++
        [10] ++ createContacts Sample.env v' false [backslashes]) = .ok cs' := by
  have hm : ∀ c ∈ [backslashes, backslashes], c = backslashes := by simp
  have hm' : ∀ c ∈ [backslashes], c = backslashes := by simp
  have h := C99_any Sample.env Sample.ids Sample.ids_inj v v' [backslashes, backslashes] [backslashes]
    (fun c hc => by rw [hm c hc]; exact backslashes_carries v hv) (fun c hc => by rw [hm' c hc]; exact backslashes_carries v' hv')
    (fun c hc => by rw [hm c hc]; exact backslashes_uid) (fun c hc => by rw [hm' c hc]; exact backslashes_uid)
    ((createContacts Sample.env v false [backslashes, backslashes]).length - 20) 1
    ⟨by decide, by cases v <;> decide +kernel, fun _ => by cases v <;> decide +kernel⟩ (nosoft_of_last _ (by cases v <;> decide +kernel))
  simpa [backslashes_left] using h

end KC
