import Verif.Lemmas.LineSwap
import Verif.Lemmas.Compute
import Verif.Spec.Sample
/- C84: the letter case of the names in a vCard does not matter. -/
namespace KC
open Spec

/-- **C84, partial.** Two texts of a vCard whose properties correspond, one by one, with the same values and with names - of the property and of its
    parameters - that differ in letter case only, hold the same contact. So do they when the lines BEGIN:VCARD and END:VCARD are written in
    other letters. What is missing: the names of properties about the same thing must stand in the same order of character codes in both texts
    (`C84_order_false`, `C84_label_false`), and the names of custom fields keep their case (`C84_own_false`). -/
theorem C84_partial (E : ToolEnv) (ids : IdKind → Nat → QString) (ps qs : List WrittenProperty) (hp : ∀ p ∈ ps, p.Good) (hq : ∀ q ∈ qs, q.Good)
    (h : List.Forall₂ WrittenProperty.OtherCase ps qs) (ho : SameTopicOrder ps qs) (b e : List UInt8) (hb : SameLetters b (b! "BEGIN:VCARD"))
    (he : SameLetters e (b! "END:VCARD")) :
    ∃ N, ∀ m ≥ N, parseContacts E ids m (markedText b e qs) = parseContacts E ids m (cardText ps) := by
  obtain ⟨n1, h1⟩ := markedText_cards E.toCodecs qs hq b e hb he
  obtain ⟨n2, h2⟩ := cardText_cards E.toCodecs ps hp
  refine ⟨max n1 n2, fun m hm => ?_⟩
  unfold parseContacts
  rw [h1 m (by omega), h2 m (by omega)]
  simp only [readCards]
  rw [properties_topics E ids ps qs h ho]

/-- **C84.** When each of the texts spells every name in one way, whatever way that is, nothing else is needed for properties with different names that
    are about different things. -/
theorem C84_one_spelling (E : ToolEnv) (ids : IdKind → Nat → QString) (ps qs : List WrittenProperty) (hp : ∀ p ∈ ps, p.Good) (hq : ∀ q ∈ qs, q.Good)
    (h : List.Forall₂ WrittenProperty.OtherCase ps qs) (h1 : ∀ p ∈ ps, ∀ p' ∈ ps, SameLetters p.name p'.name → p.name = p'.name)
    (h2 : ∀ q ∈ qs, ∀ q' ∈ qs, SameLetters q.name q'.name → q.name = q'.name)
    (ht : ∀ p ∈ ps, ∀ p' ∈ ps, (∃ t ∈ p.topics, t ∈ p'.topics) → SameLetters p.name p'.name)
    (b e : List UInt8) (hb : SameLetters b (b! "BEGIN:VCARD")) (he : SameLetters e (b! "END:VCARD")) :
    ∃ N, ∀ m ≥ N, parseContacts E ids m (markedText b e qs) = parseContacts E ids m (cardText ps) := by
  refine C84_partial E ids ps qs hp hq h ?_ b e hb he
  have key : ∀ x ∈ ps.zip qs, SameLetters x.1.name x.2.name := by
    clear hp hq h1 h2 ht
    induction h with
    | nil => intro x hx; cases hx
    | cons hab _ ih =>
      intro x hx
      rw [List.zip_cons_cons] at hx
      rcases List.mem_cons.1 hx with rfl | hx
      · exact otherCase_name hab
      · exact ih x hx
  intro x hx y hy hs
  have hl := ht _ (List.of_mem_zip hx).1 _ (List.of_mem_zip hy).1 hs
  have hr : SameLetters x.2.name y.2.name := ((key x hx).symm.trans hl).trans (key y hy)
  have e1 := h1 _ (List.of_mem_zip hx).1 _ (List.of_mem_zip hy).1 hl
  have e2 := h2 _ (List.of_mem_zip hx).2 _ (List.of_mem_zip hy).2 hr
  rw [e1, e2]
  exact ⟨Iff.rfl.trans (by simp), by simp [List.lt_irrefl]⟩

/-- the order of all names -/
private theorem topics_of_names {ps qs : List WrittenProperty} (h : SameNameOrder ps qs) : SameTopicOrder ps qs := fun x hx y hy _ => h x hx y hy

/-- **C84.** The names of parameters may be written in any letter case: nothing else is needed when the names of the properties are the same. -/
theorem C84_parameters (E : ToolEnv) (ids : IdKind → Nat → QString) (ps qs : List WrittenProperty) (hp : ∀ p ∈ ps, p.Good) (hq : ∀ q ∈ qs, q.Good)
    (h : List.Forall₂ WrittenProperty.OtherCase ps qs) (hn : ps.map WrittenProperty.name = qs.map WrittenProperty.name) :
    ∃ N, ∀ m ≥ N, parseContacts E ids m (cardText qs) = parseContacts E ids m (cardText ps) := by
  refine C84_partial E ids ps qs hp hq h (topics_of_names ?_) _ _ rfl rfl
  have key : ∀ x ∈ ps.zip qs, x.1.name = x.2.name := by
    clear hp hq
    induction h with
    | nil => intro x hx; cases hx
    | cons _ _ ih =>
      rw [List.map_cons, List.map_cons, List.cons.injEq] at hn
      intro x hx
      rw [List.zip_cons_cons] at hx
      rcases List.mem_cons.1 hx with rfl | hx
      · exact hn.1
      · exact ih hn.2 x hx
  intro x hx y hy
  rw [key x hx, key y hy]
  exact ⟨Iff.rfl, Iff.rfl⟩

/-- a capital, a digit or '-' -/
def InCapitals (n : List UInt8) : Prop := ∀ c ∈ n, (65 ≤ c ∧ c ≤ 90) ∨ (48 ≤ c ∧ c ≤ 57) ∨ c = c! '-'

private theorem lower_mono : ∀ n m : Fin 256, ((65 ≤ UInt8.ofNat n.val ∧ UInt8.ofNat n.val ≤ 90) ∨ (48 ≤ UInt8.ofNat n.val ∧ UInt8.ofNat n.val ≤ 57) ∨ UInt8.ofNat n.val = c! '-') →
    ((65 ≤ UInt8.ofNat m.val ∧ UInt8.ofNat m.val ≤ 90) ∨ (48 ≤ UInt8.ofNat m.val ∧ UInt8.ofNat m.val ≤ 57) ∨ UInt8.ofNat m.val = c! '-') →
    (lowerByte (UInt8.ofNat n.val) = lowerByte (UInt8.ofNat m.val) → UInt8.ofNat n.val = UInt8.ofNat m.val) ∧
      (lowerByte (UInt8.ofNat n.val) < lowerByte (UInt8.ofNat m.val) ↔ UInt8.ofNat n.val < UInt8.ofNat m.val) := by
  decide +kernel

private theorem lower_order (a b : List UInt8) (ha : InCapitals a) (hb : InCapitals b) :
    (a = b ↔ a.map lowerByte = b.map lowerByte) ∧ (a < b ↔ a.map lowerByte < b.map lowerByte) := by
  induction a generalizing b with
  | nil => cases b <;> simp
  | cons x a ih =>
    cases b with
    | nil => simp
    | cons y b =>
      have hx := ha x (by simp)
      have hy := hb y (by simp)
      have h := lower_mono ⟨x.toNat, x.toNat_lt⟩ ⟨y.toNat, y.toNat_lt⟩ (by simpa using hx) (by simpa using hy)
      simp only [UInt8.ofNat_toNat] at h
      have hi := ih b (fun c hc => ha c (List.mem_cons_of_mem _ hc)) (fun c hc => hb c (List.mem_cons_of_mem _ hc))
      have hxy : x = y ↔ lowerByte x = lowerByte y := ⟨fun e => e ▸ rfl, h.1⟩
      simp only [List.map_cons, List.cons_lt_cons_iff, List.cons.injEq]
      rw [hi.1, hi.2, hxy, h.2]
      exact ⟨Iff.rfl, Iff.rfl⟩

/-- **C84.** A card whose property names are all written in capitals may be written with all of them in small letters. -/
theorem C84_small (E : ToolEnv) (ids : IdKind → Nat → QString) (ps qs : List WrittenProperty) (hp : ∀ p ∈ ps, p.Good) (hq : ∀ q ∈ qs, q.Good)
    (h : List.Forall₂ WrittenProperty.OtherCase ps qs) (hc : ∀ p ∈ ps, InCapitals p.name)
    (hn : qs.map WrittenProperty.name = ps.map fun p => p.name.map lowerByte) (b e : List UInt8) (hb : SameLetters b (b! "BEGIN:VCARD"))
    (he : SameLetters e (b! "END:VCARD")) :
    ∃ N, ∀ m ≥ N, parseContacts E ids m (markedText b e qs) = parseContacts E ids m (cardText ps) := by
  refine C84_partial E ids ps qs hp hq h (topics_of_names ?_) b e hb he
  have key : ∀ x ∈ ps.zip qs, InCapitals x.1.name ∧ x.2.name = x.1.name.map lowerByte := by
    clear hp hq
    induction h with
    | nil => intro x hx; cases hx
    | cons _ _ ih =>
      rw [List.map_cons, List.map_cons, List.cons.injEq] at hn
      intro x hx
      rw [List.zip_cons_cons] at hx
      rcases List.mem_cons.1 hx with rfl | hx
      · exact ⟨hc _ (by simp), hn.1⟩
      · exact ih (fun p hp => hc p (List.mem_cons_of_mem _ hp)) hn.2 x hx
  intro x hx y hy
  have := lower_order x.1.name y.1.name (key x hx).1 (key y hy).1
  rw [(key x hx).2, (key y hy).2]
  exact this

/-! ### Where the letter case does matter -/

private def card (ls : List (List UInt8)) : List WrittenProperty := ls.map fun l => ⟨l, []⟩

/-- a good property on one line -/
private theorem good_line (c : UInt8) (t : List UInt8) (h1 : c ≠ 32) (h2 : ¬ (9 ≤ c ∧ c ≤ 13)) (h3 : ((c :: t).map lowerByte).take 11 ≠ b! "begin:vcard")
    (h4 : ((c :: t).map lowerByte).take 9 ≠ b! "end:vcard") (h5 : 10 ∉ c :: t) (h6 : (c :: t).getLast? ≠ some (c! '=')) : WrittenProperty.Good ⟨c :: t, []⟩ :=
  ⟨⟨c, t, rfl, h1, h2⟩, h3, h4, h5, (by simp), fun h => h6 (by simpa [WrittenProperty.unfolded] using h.2)⟩

private theorem other (n n' : List UInt8) (ps ps' : List (List UInt8 × List UInt8)) (v : List UInt8) (h1 : ∀ c ∈ n, c ≠ c! ':' ∧ c ≠ c! ';' ∧ c ≠ c! '.')
    (h2 : ∀ p ∈ ps, (∀ c ∈ p.1, c ≠ c! ':' ∧ c ≠ c! ';' ∧ c ≠ c! '=') ∧ ∀ c ∈ p.2, c ≠ c! ':' ∧ c ≠ c! ';' ∧ c ≠ c! '"')
    (h3 : SameLetters n n') (h4 : List.Forall₂ (fun p q => SameLetters p.1 q.1 ∧ p.2 = q.2) ps ps')
    (h5 : (n.map lowerByte).take 2 = b! "x-" → n = n' ∨ fromLatin1 (n.map lowerByte) ∈ foreignNames.flatMap (·.2)) :
    WrittenProperty.OtherCase ⟨SpelledProperty.line ⟨n, ps, v⟩, []⟩ ⟨SpelledProperty.line ⟨n', ps', v⟩, []⟩ :=
  .inr ⟨⟨n, ps, v⟩, ⟨n', ps', v⟩, ⟨h1, fun p hp => ⟨(h2 p hp).1, .inl (h2 p hp).2⟩⟩, by simp [WrittenProperty.unfolded], by simp [WrittenProperty.unfolded], ⟨h3, h4, rfl, h5⟩⟩

private def phones : List WrittenProperty := card [b! "TEL:1", b! "TEL:2"]
private def phones' : List WrittenProperty := card [b! "tel:1", b! "TEL:2"]

/-- **C84 is false in general.** With one of two phone numbers under "tel" and the other under "TEL" the one under "TEL" comes first, wherever it stands:
    the names differ in letter case only, yet the contact has its numbers in the other order. -/
theorem C84_order_false : List.Forall₂ WrittenProperty.OtherCase phones phones' ∧ (∀ p ∈ phones ++ phones', p.Good) ∧
    (∃ c, (∃ n, ∀ m ≥ n, parseContacts Sample.env Sample.ids m (cardText phones) = .ok [c]) ∧ c.phoneNumbers.map (·.number) = [q! "1", q! "2"]) ∧
    (∃ c, (∃ n, ∀ m ≥ n, parseContacts Sample.env Sample.ids m (cardText phones') = .ok [c]) ∧ c.phoneNumbers.map (·.number) = [q! "2", q! "1"]) := by
  refine ⟨.cons (other (b! "TEL") (b! "tel") [] [] (b! "1") (by decide) (by decide) (by decide) .nil (by decide))
    (.cons (other (b! "TEL") (b! "TEL") [] [] (b! "2") (by decide) (by decide) (by decide) .nil (by decide)) .nil), ?_,
    contactsIn_one _ (by decide +kernel), contactsIn_one _ (by decide +kernel)⟩
  intro p hp
  simp only [phones, phones', card, List.map_cons, List.map_nil, List.cons_append, List.nil_append, List.mem_cons, List.not_mem_nil, or_false] at hp
  rcases hp with rfl | rfl | rfl | rfl <;> exact good_line _ _ (by decide) (by decide) (by decide) (by decide) (by decide) (by decide)

private def letter : List WrittenProperty := card [b! "ADR:;;Main Street 1;Berlin;;;", b! "LABEL:Main Street 1, Berlin"]
private def letter' : List WrittenProperty := card [b! "adr:;;Main Street 1;Berlin;;;", b! "LABEL:Main Street 1, Berlin"]

/-- **C84 is false in general.** A delivery label belongs to the address of its card; under "LABEL" with an address under "adr" it is read before
    the address is there and becomes an address of its own. -/
theorem C84_label_false : List.Forall₂ WrittenProperty.OtherCase letter letter' ∧ (∀ p ∈ letter ++ letter', p.Good) ∧
    (∃ c, (∃ n, ∀ m ≥ n, parseContacts Sample.env Sample.ids m (cardText letter) = .ok [c]) ∧
      c.addresses.map (fun a => (a.street, a.label)) = [(q! "Main Street 1", q! "Main Street 1, Berlin")]) ∧
    (∃ c, (∃ n, ∀ m ≥ n, parseContacts Sample.env Sample.ids m (cardText letter') = .ok [c]) ∧
      c.addresses.map (fun a => (a.street, a.label)) = [([], q! "Main Street 1, Berlin"), (q! "Main Street 1", [])]) := by
  refine ⟨.cons (other (b! "ADR") (b! "adr") [] [] (b! ";;Main Street 1;Berlin;;;") (by decide) (by decide) (by decide) .nil (by decide))
    (.cons (other (b! "LABEL") (b! "LABEL") [] [] (b! "Main Street 1, Berlin") (by decide) (by decide) (by decide) .nil (by decide)) .nil), ?_,
    contactsIn_one _ (by decide +kernel), contactsIn_one _ (by decide +kernel)⟩
  intro p hp
  simp only [letter, letter', card, List.map_cons, List.map_nil, List.cons_append, List.nil_append, List.mem_cons, List.not_mem_nil, or_false] at hp
  rcases hp with rfl | rfl | rfl | rfl <;> exact good_line _ _ (by decide) (by decide) (by decide) (by decide) (by decide) (by decide)

/-- **C84 is false of custom fields.** Their names are kept as they are spelled. -/
theorem C84_own_false :
    (∃ c, (∃ n, ∀ m ≥ n, parseContacts Sample.env Sample.ids m (cardText (card [b! "X-SHOP-SIZE:42"])) = .ok [c]) ∧
      c.custom (q! "SHOP") (q! "SIZE") = q! "42" ∧ c.custom (q! "shop") (q! "size") = []) ∧
    (∃ c, (∃ n, ∀ m ≥ n, parseContacts Sample.env Sample.ids m (cardText (card [b! "x-shop-size:42"])) = .ok [c]) ∧
      c.custom (q! "SHOP") (q! "SIZE") = [] ∧ c.custom (q! "shop") (q! "size") = q! "42") :=
  ⟨contactsIn_one _ (by decide +kernel), contactsIn_one _ (by decide +kernel)⟩

/-! ### Instances -/

private def capitals : List WrittenProperty :=
  card [b! "VERSION:3.0", b! "FN:John Doe", b! "TEL;TYPE=HOME:1", b! "TEL;PREF=1;TYPE=WORK:2", b! "X-AIM;TYPE=HOME:john", b! "x-shop-Size:42"]

private def respelled : List WrittenProperty :=
  card [b! "version:3.0", b! "fn:John Doe", b! "tel;Type=HOME:1", b! "tel;pref=1;type=WORK:2", b! "x-aim;type=HOME:john", b! "x-shop-Size:42"]

private theorem capitals_respelled : List.Forall₂ WrittenProperty.OtherCase capitals respelled :=
  .cons (other (b! "VERSION") (b! "version") [] [] (b! "3.0") (by decide) (by decide) (by decide) .nil (by decide))
  (.cons (other (b! "FN") (b! "fn") [] [] (b! "John Doe") (by decide) (by decide) (by decide) .nil (by decide))
  (.cons (other (b! "TEL") (b! "tel") [(b! "TYPE", b! "HOME")] [(b! "Type", b! "HOME")] (b! "1") (by decide) (by decide) (by decide)
    (.cons ⟨by decide, rfl⟩ .nil) (by decide))
  (.cons (other (b! "TEL") (b! "tel") [(b! "PREF", b! "1"), (b! "TYPE", b! "WORK")] [(b! "pref", b! "1"), (b! "type", b! "WORK")] (b! "2") (by decide) (by decide) (by decide)
    (.cons ⟨by decide, rfl⟩ (.cons ⟨by decide, rfl⟩ .nil)) (by decide))
  (.cons (other (b! "X-AIM") (b! "x-aim") [(b! "TYPE", b! "HOME")] [(b! "type", b! "HOME")] (b! "john") (by decide) (by decide) (by decide)
    (.cons ⟨by decide, rfl⟩ .nil) (by decide))
  (.cons (.inl rfl) .nil)))))

private theorem capitals_good : ∀ p ∈ capitals ++ respelled, p.Good := by
  intro p hp
  simp only [capitals, respelled, card, List.map_cons, List.map_nil, List.cons_append, List.nil_append, List.mem_cons, List.not_mem_nil, or_false] at hp
  rcases hp with rfl | rfl | rfl | rfl | rfl | rfl | rfl | rfl | rfl | rfl | rfl | rfl <;>
    exact good_line _ _ (by decide) (by decide) (by decide) (by decide) (by decide) (by decide)

-- the hypotheses are met: a card in capitals and one with names in small letters and an own name that is kept
example : ∃ N, ∀ m ≥ N, parseContacts Sample.env Sample.ids m (markedText (b! "begin:VCard") (b! "End:vcard") respelled) =
    parseContacts Sample.env Sample.ids m (cardText capitals) :=
  C84_partial _ _ capitals respelled (fun p hp => capitals_good p (List.mem_append_left _ hp)) (fun p hp => capitals_good p (List.mem_append_right _ hp))
    capitals_respelled (topics_of_names (by unfold SameNameOrder; decide +kernel)) _ _ (by decide) (by decide)

-- and the contact in both has the two phone numbers
example : ∃ c, (∃ n, ∀ m ≥ n, parseContacts Sample.env Sample.ids m (cardText respelled) = .ok [c]) ∧ c.phoneNumbers.map (·.number) = [q! "1", q! "2"] :=
  contactsIn_one _ (by decide +kernel)

-- names in mixed spellings, in another order of character codes
private def mixed : List WrittenProperty :=
  card [b! "Version:3.0", b! "fn:John Doe", b! "TEL;TYPE=HOME:1", b! "TEL;PREF=1;TYPE=WORK:2", b! "x-Aim;type=HOME:john"]

private theorem mixed_good : ∀ p ∈ mixed, p.Good := by
  intro p hp
  simp only [mixed, card, List.map_cons, List.map_nil, List.mem_cons, List.not_mem_nil, or_false] at hp
  rcases hp with rfl | rfl | rfl | rfl | rfl <;> exact good_line _ _ (by decide) (by decide) (by decide) (by decide) (by decide) (by decide)

private theorem capitals_mixed : List.Forall₂ WrittenProperty.OtherCase (capitals.take 5) mixed :=
  .cons (other (b! "VERSION") (b! "Version") [] [] (b! "3.0") (by decide) (by decide) (by decide) .nil (by decide))
  (.cons (other (b! "FN") (b! "fn") [] [] (b! "John Doe") (by decide) (by decide) (by decide) .nil (by decide))
  (.cons (.inl rfl) (.cons (.inl rfl)
  (.cons (other (b! "X-AIM") (b! "x-Aim") [(b! "TYPE", b! "HOME")] [(b! "type", b! "HOME")] (b! "john") (by decide) (by decide) (by decide)
    (.cons ⟨by decide, rfl⟩ .nil) (by decide)) .nil))))

example : ¬ SameNameOrder (capitals.take 5) mixed := by unfold SameNameOrder; decide +kernel

example : ∃ N, ∀ m ≥ N, parseContacts Sample.env Sample.ids m (markedText (b! "begin:vcard") (b! "end:vcard") mixed) =
    parseContacts Sample.env Sample.ids m (cardText (capitals.take 5)) :=
  C84_one_spelling _ _ _ _ (fun p hp => capitals_good p (List.mem_append_left _ (List.mem_of_mem_take hp))) mixed_good capitals_mixed
    (by decide +kernel) (by decide +kernel) (by decide +kernel) _ _ (by decide) (by decide)

-- all names in small letters
example : ∃ N, ∀ m ≥ N, parseContacts Sample.env Sample.ids m (markedText (b! "begin:vcard") (b! "end:vcard") (respelled.take 5)) =
    parseContacts Sample.env Sample.ids m (cardText (capitals.take 5)) :=
  C84_small _ _ _ _ (fun p hp => capitals_good p (List.mem_append_left _ (List.mem_of_mem_take hp)))
    (fun p hp => capitals_good p (List.mem_append_right _ (List.mem_of_mem_take hp))) (List.forall₂_take 5 capitals_respelled)
    (by unfold InCapitals; decide +kernel) (by decide +kernel) _ _ (by decide) (by decide)

-- other letters in the names of the parameters only
example : ∃ N, ∀ m ≥ N, parseContacts Sample.env Sample.ids m (cardText (card [b! "TEL;type=HOME:1"])) =
    parseContacts Sample.env Sample.ids m (cardText (card [b! "TEL;TYPE=HOME:1"])) :=
  C84_parameters _ _ (card [b! "TEL;TYPE=HOME:1"]) (card [b! "TEL;type=HOME:1"])
    (fun p hp => by
      obtain rfl := List.mem_singleton.1 hp
      exact good_line _ _ (by decide) (by decide) (by decide) (by decide) (by decide) (by decide))
    (fun p hp => by
      obtain rfl := List.mem_singleton.1 hp
      exact good_line _ _ (by decide) (by decide) (by decide) (by decide) (by decide) (by decide))
    (.cons (other (b! "TEL") (b! "TEL") [(b! "TYPE", b! "HOME")] [(b! "type", b! "HOME")] (b! "1") (by decide) (by decide) (by decide)
      (.cons ⟨by decide, rfl⟩ .nil) (by decide)) .nil)
    (by decide)

end KC
