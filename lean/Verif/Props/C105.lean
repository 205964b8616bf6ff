import Verif.Lemmas.Parameters
import Verif.Lemmas.Compute
import Mathlib.Data.List.Forall2
/-
  C105. How the parameters of a vCard property are written does not matter.
-/
namespace KC
open KC.Spec

private theorem lineOf_same (E : Codecs) {p q : WrittenProperty} (h : p.SameButParameters q) : lineOf E p.unfolded = lineOf E q.unfolded := by
  rcases h with h | ⟨name, a, b, value, hp, hq, hv⟩
  · rw [h]
  · rw [lineOf_says E hp, lineOf_says E hq, latin_same a b hv]
    unfold lastLower
    rw [hv, hv]

/-! ### The property -/

/-- **C105.** How the parameters of the properties of a vCard are written - `TYPE=HOME,CELL`, `TYPE=HOME;TYPE=CELL`, `HOME;CELL`, `type="HOME,CELL"` -
    and in which order parameters of different names stand makes no difference to the contact that is read. What is missing: a value after
    one that has quotes of its own (`C105_quoted_list_false`). -/
theorem C105_partial (E : ToolEnv) (ids : IdKind → Nat → QString) (ps qs : List WrittenProperty) (hp : ∀ p ∈ ps, p.Good) (hq : ∀ q ∈ qs, q.Good)
    (h : List.Forall₂ WrittenProperty.SameButParameters ps qs) :
    ∃ N, ∀ m ≥ N, parseContacts E ids m (cardText qs) = parseContacts E ids m (cardText ps) := by
  obtain ⟨n, hn⟩ := cardText_cards E.toCodecs ps hp
  obtain ⟨n', hn'⟩ := cardText_cards E.toCodecs qs hq
  have e : (ps.map fun p => lineOf E.toCodecs p.unfolded) = qs.map fun p => lineOf E.toCodecs p.unfolded := by
    clear hp hq hn hn'
    induction h with
    | nil => rfl
    | cons h _ ih => rw [List.map_cons, List.map_cons, lineOf_same _ h, ih]
  refine ⟨max n n', fun m hm => ?_⟩
  unfold parseContacts
  rw [hn m (by omega), hn' m (by omega), e]

/-- The parameters a property is given, however they are written: the parsed line has, under every name, exactly the distinct values, in order. -/
theorem C105_values (E : Codecs) (p : WrittenProperty) (name value : List UInt8) (params : List (List UInt8 × List UInt8)) (h : p.Says name params value) (k : List UInt8) :
    (lineOf E p.unfolded).parameters (fromLatin1 k) = distinct ((valuesOf params k).map fromLatin1) := by
  have e : (lineOf E p.unfolded).params = paramsAfter (latin params) := by
    rw [lineOf_says E h]
    simp only [PL.decodeValue]
    split
    · split <;> rfl
    · split <;> rfl
  have := C12_lookup (latin params) (fromLatin1 k)
  rw [valuesOf_latin] at this
  rw [← this]
  unfold VCardLine.parameters
  rw [e]

/-! ### Instances and limits -/

private def card (ls : List (List UInt8)) : List WrittenProperty := ls.map fun l => ⟨l, []⟩

private theorem good_line (c : UInt8) (t : List UInt8) (h1 : c ≠ 32) (h2 : ¬ (9 ≤ c ∧ c ≤ 13)) (h3 : ((c :: t).map lowerByte).take 11 ≠ b! "begin:vcard")
    (h4 : ((c :: t).map lowerByte).take 9 ≠ b! "end:vcard") (h5 : 10 ∉ c :: t) (h6 : (c :: t).getLast? ≠ some (c! '=')) : WrittenProperty.Good ⟨c :: t, []⟩ :=
  ⟨⟨c, t, rfl, h1, h2⟩, h3, h4, h5, (by simp), fun h => h6 (by simpa [WrittenProperty.unfolded] using h.2)⟩

private def telParams : List (List UInt8 × List UInt8) := [(b! "type", b! "HOME"), (b! "type", b! "CELL")]

private theorem says_list : (⟨b! "item1.TEL;TYPE=HOME,CELL:1", []⟩ : WrittenProperty).Says (b! "item1.TEL") telParams (b! "1") :=
  ⟨by decide, by decide, _, .plain (b! "TYPE") [b! "HOME", b! "CELL"] (by unfold ParameterName; decide) (by simp) (by unfold PlainValue; decide) .nil, by decide⟩

private theorem says_repeated : (⟨b! "item1.TEL;TYPE=HOME;Type=CELL:1", []⟩ : WrittenProperty).Says (b! "item1.TEL") telParams (b! "1") :=
  ⟨by decide, by decide, _, .plain (b! "TYPE") [b! "HOME"] (by unfold ParameterName; decide) (by simp) (by unfold PlainValue; decide)
    (.plain (b! "Type") [b! "CELL"] (by unfold ParameterName; decide) (by simp) (by unfold PlainValue; decide) .nil), by decide⟩

private theorem says_bare : (⟨b! "item1.TEL;HOME;CELL:1", []⟩ : WrittenProperty).Says (b! "item1.TEL") telParams (b! "1") :=
  ⟨by decide, by decide, _, .bareType (b! "HOME") (by unfold ParameterName; decide) (by decide) (by decide)
    (.bareType (b! "CELL") (by unfold ParameterName; decide) (by decide) (by decide) .nil), by decide⟩

private theorem says_mixed : (⟨b! "item1.TEL;TYPE=HOME,\"CELL\":1", []⟩ : WrittenProperty).Says (b! "item1.TEL") telParams (b! "1") :=
  ⟨by decide, by decide, _, .quoted (b! "TYPE") [b! "HOME"] (b! "CELL") (by unfold ParameterName; decide) (by unfold PlainValue; decide) (by decide) (by decide) .nil, by decide⟩

private theorem says_quoted : (⟨b! "item1.TEL;type=\"HOME,CELL\":1", []⟩ : WrittenProperty).Says (b! "item1.TEL") telParams (b! "1") :=
  ⟨by decide, by decide, _, .quotedTypes (b! "type") [] [b! "HOME", b! "CELL"] (by decide) (by simp) (by simp) (by decide) .nil, by decide⟩

-- the five ways of writing two types give the same contact
example : ∀ l ∈ [b! "item1.TEL;TYPE=HOME;Type=CELL:1", b! "item1.TEL;HOME;CELL:1", b! "item1.TEL;TYPE=HOME,\"CELL\":1", b! "item1.TEL;type=\"HOME,CELL\":1"],
    ∃ N, ∀ m ≥ N, parseContacts Sample.env Sample.ids m (cardText (card [b! "FN:John", l])) =
      parseContacts Sample.env Sample.ids m (cardText (card [b! "FN:John", b! "item1.TEL;TYPE=HOME,CELL:1"])) := by
  intro l hl
  have hs : (⟨l, []⟩ : WrittenProperty).Says (b! "item1.TEL") telParams (b! "1") := by
    simp only [List.mem_cons, List.not_mem_nil, or_false] at hl
    rcases hl with rfl | rfl | rfl | rfl
    · exact says_repeated
    · exact says_bare
    · exact says_mixed
    · exact says_quoted
  refine C105_partial _ _ _ _ ?_ ?_ (.cons (.inl rfl) (.cons (.inr ⟨_, _, _, _, says_list, hs, fun _ => rfl⟩) .nil))
  · intro p hp
    simp only [card, List.map_cons, List.map_nil, List.mem_cons, List.not_mem_nil, or_false] at hp
    rcases hp with rfl | rfl <;> exact good_line _ _ (by decide) (by decide) (by decide) (by decide) (by decide) (by decide)
  · intro p hp
    simp only [card, List.map_cons, List.map_nil, List.mem_cons, List.not_mem_nil, or_false] at hp hl
    rcases hp with rfl | rfl
    · exact good_line _ _ (by decide) (by decide) (by decide) (by decide) (by decide) (by decide)
    · rcases hl with rfl | rfl | rfl | rfl <;> exact good_line _ _ (by decide) (by decide) (by decide) (by decide) (by decide) (by decide)

-- and the contact has a number that is a private mobile one (`PhoneNumber::Home` = 1, `PhoneNumber::Cell` = 64)
example : ∃ c, (∃ n, ∀ m ≥ n, parseContacts Sample.env Sample.ids m (cardText (card [b! "TEL;HOME;CELL:1"])) = .ok [c]) ∧
    c.phoneNumbers.map (fun n => (n.number, n.type)) = [(q! "1", 1 + 64)] :=
  contactsIn_one _ (by decide +kernel)

-- parameters of different names in another order, one of them with a semicolon and a colon between quotes
example : (⟨b! "ADR;LABEL=\"a;b:c\";TYPE=home:;;x", []⟩ : WrittenProperty).SameButParameters ⟨b! "ADR;home;label=\"a;b:c\":;;x", []⟩ :=
  .inr ⟨b! "ADR", [(b! "label", b! "a;b:c"), (b! "type", b! "home")], [(b! "type", b! "home"), (b! "label", b! "a;b:c")], b! ";;x",
    ⟨by decide, by decide, _, .quoted (b! "LABEL") [] (b! "a;b:c") (by unfold ParameterName; decide) (by simp) (by decide) (by decide)
      (.plain (b! "TYPE") [b! "home"] (by unfold ParameterName; decide) (by simp) (by unfold PlainValue; decide) .nil), by decide⟩,
    ⟨by decide, by decide, _, .bareType (b! "home") (by unfold ParameterName; decide) (by decide) (by decide)
      (.quoted (b! "label") [] (b! "a;b:c") (by unfold ParameterName; decide) (by simp) (by decide) (by decide) .nil), by decide⟩, by
    intro k
    by_cases h : k = b! "label"
    · subst h; decide
    · by_cases h' : k = b! "type"
      · subst h'; decide
      · simp [valuesOf, Ne.symm h, Ne.symm h']⟩

/-- Two types each with its own quotes, which RFC 6350 allows: the second is lost. -/
theorem C105_quoted_list_false :
    (∃ c, (∃ n, ∀ m ≥ n, parseContacts Sample.env Sample.ids m (cardText (card [b! "TEL;TYPE=\"HOME\",\"CELL\":1"])) = .ok [c]) ∧
      c.phoneNumbers.map (fun n => (n.number, n.type)) = [(q! "1", 1)]) ∧
    (∃ c, (∃ n, ∀ m ≥ n, parseContacts Sample.env Sample.ids m (cardText (card [b! "TEL;TYPE=\"HOME,CELL\":1"])) = .ok [c]) ∧
      c.phoneNumbers.map (fun n => (n.number, n.type)) = [(q! "1", 1 + 64)]) :=
  ⟨contactsIn_one _ (by decide +kernel), contactsIn_one _ (by decide +kernel)⟩

end KC
