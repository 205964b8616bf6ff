import Verif.Lemmas.Inserted
import Verif.Lemmas.HeadRead
import Verif.Props.C94
import Verif.Props.C95
import Verif.Props.C114
/- C115: an exported contact whose vCard another program has edited. -/
namespace KC
open Spec

/-! ### Proof -/

private theorem mem_orderedLines {L : List VCardLine} {l : VCardLine} (h : l ∈ orderedLines L) : l ∈ L := by
  unfold orderedLines at h
  obtain ⟨n, -, h⟩ := List.mem_flatMap.1 h
  exact (List.mem_filter.1 h).1

/-- the contacts of two texts with one card each -/
private theorem agree_texts (E : ToolEnv) (ids : IdKind → Nat → QString) (S T : QByteArray) (A B : List VCardLine)
    (hS : readText E.toCodecs S = some [cardAfter A]) (hT : ∃ n, ∀ m ≥ n, parseVCards E.toCodecs m T = some [cardAfter B]) (c : Contact)
    (hc : ∃ n, ∀ m ≥ n, parseContacts E ids m S = .ok [c]) :
    ∃ N, ∀ m ≥ N, ∀ ds, parseContacts E ids m T = .ok ds → ∃ d, ds = [d] ∧ ∀ f,
      (A.filter fun l => decide (∃ g ∈ withCompanion f, g ∈ lineFields l)) = (B.filter fun l => decide (∃ g ∈ withCompanion f, g ∈ lineFields l)) → SameIn c d f := by
  obtain ⟨n1, hT⟩ := hT
  obtain ⟨n2, hc⟩ := hc
  have hS := parseVCards_of_readText E.toCodecs S _ hS
  refine ⟨max n1 (max n2 ((physLines S).length + 2)), fun m hm ds hd => ?_⟩
  have hc := hc m (by omega)
  unfold parseContacts at hc hd
  rw [hS m (by omega)] at hc
  rw [hT m (by omega)] at hd
  simp only [readCards] at hc hd
  have key := fun f h => cards_agree E ids f A B h { c := Contact.new (ids .contact 0), addresses := 0, phones := 0, keys := 0 }
  revert hc hd key
  generalize (readingOrder (cardAfter A)).foldl (readLine E ids) _ = s
  generalize (readingOrder (cardAfter B)).foldl (readLine E ids) _ = t
  intro hd hc key
  have h1 : s.c = c := by
    cases hs : s.ub <;> simp [hs] at hc
    exact hc
  have h2 : ds = [t.c] := by
    cases ht : t.ub <;> simp [ht] at hd
    exact hd.symm
  exact ⟨t.c, h2, fun f h => h1 ▸ (key f h).fields f (mem_withCompanion f)⟩

private theorem filterMap_nil_insert (f : Field) (A B : List VCardLine) (E : Codecs) (ps : List WrittenProperty) (h : ∀ p ∈ ps, ¬ p.About f) :
    ((A ++ B).filter fun l => decide (∃ g ∈ withCompanion f, g ∈ lineFields l)) =
      ((A ++ (ps.map fun p => lineOf E p.unfolded) ++ B).filter fun l => decide (∃ g ∈ withCompanion f, g ∈ lineFields l)) := by
  have : ((ps.map fun p => lineOf E p.unfolded).filter fun l => decide (∃ g ∈ withCompanion f, g ∈ lineFields l)) = [] := by
    rw [List.filter_eq_nil_iff]
    intro l hl
    obtain ⟨p, hp, rfl⟩ := List.mem_map.1 hl
    rw [decide_eq_true_eq]
    exact fun hh => h p hp (lines_about E f p hh)
  rw [List.filter_append, List.filter_append, List.filter_append, this, List.append_nil]

/-! ### The property -/

/-- **C115.** The properties of an exported contact's text are edited in any way: left out, added, moved, folded otherwise. A field has the data it
    has when the text is read unedited, unless a property about it was edited. -/
theorem C115 (E : ToolEnv) (v : Version) (ids : IdKind → Nat → QString) (c c' : Contact) (hc : WrittenAndRead E v ids c c')
    (qs : List WrittenProperty) (hq : ∀ q ∈ qs, q.Good) (ht : createContacts E v false [c] = cardText qs ++ b! "\r\n")
    (ps : List WrittenProperty) (hp : ∀ p ∈ ps, p.Good) :
    ∃ N, ∀ m ≥ N, ∀ ds, parseContacts E ids m (cardText ps) = .ok ds → ∃ d, ds = [d] ∧ ∀ f,
      ((qs.filter fun q => q.About f).map WrittenProperty.unfolded) = (ps.filter fun p => p.About f).map WrittenProperty.unfolded → SameIn c' d f := by
  have hS : readText E.toCodecs (createContacts E v false [c]) = some [cardAfter (qs.map fun p => lineOf E.toCodecs p.unfolded)] := by
    have h := readText_inserted E.toCodecs readBack [] [] (by simp) (by simp) qs hq
    rw [ht, ← (by simpa using h : readText E.toCodecs _ = some [cardAfter (qs.map fun p => lineOf E.toCodecs p.unfolded)])]
    congr 1
    have e : cardText qs = b! "BEGIN:VCARD" ++ [13, 10] ++ (qs.flatMap fun p => p.first :: p.rest).flatMap (· ++ [13, 10]) ++ (b! "END:VCARD" ++ [13, 10]) := by
      simp [cardText]
    rw [e]
    have t : b! "BEGIN:VCARD" ++ [13, 10] = b! "BEGIN:VCARD\r\n" := by decide
    have t' : b! "END:VCARD" ++ [13, 10] ++ b! "\r\n" = b! "END:VCARD\r\n\r\n" := by decide
    rw [t, List.append_assoc, t']
    simp
  obtain ⟨N, h⟩ := agree_texts E ids _ _ _ _ hS (cardText_cards E.toCodecs ps hp) c' hc
  refine ⟨N, fun m hm ds hd => ?_⟩
  obtain ⟨d, e1, e2⟩ := h m hm ds hd
  refine ⟨d, e1, fun f hf => e2 f ?_⟩
  rw [filter_about, filter_about, hf]

/-- **C115.** The text of every contact a vCard can carry is a sequence of properties as C115 speaks of (if no line of it happens to look like
    a soft line break). -/
theorem C115_text (E : ToolEnv) (v : Version) (c : Contact) (hR : Carriable E v c) (hs : NoSoftBreak (createContacts E v false [c])) :
    ∃ qs : List WrittenProperty, (∀ q ∈ qs, q.Good) ∧ createContacts E v false [c] = cardText qs ++ b! "\r\n" := by
  have key : ∀ L : List VCardLine, (∀ l ∈ L, LineFine E.toCodecs l) → ∃ qs : List WrittenProperty,
      L.flatMap (writeLine E.toCodecs) = (qs.flatMap fun p => p.first :: p.rest).flatMap (· ++ [13, 10]) ∧
      Block (L.flatMap (writeLine E.toCodecs)) (qs.map WrittenProperty.unfolded) ∧
      ∀ q ∈ qs, ¬ (MentionsQP q.unfolded ∧ q.unfolded.getLast? = some (c! '=')) → q.Good := by
    intro L
    induction L with
    | nil => intro _; exact ⟨[], rfl, block_nil, by simp⟩
    | cons l L ih =>
      intro hL
      obtain ⟨qs, e, b, g⟩ := ih fun x hx => hL x (List.mem_cons_of_mem _ hx)
      rcases fine_phys E.toCodecs l (hL l (by simp)) with h | ⟨h0, ps, h, n0, hne, hst⟩
      · exact ⟨qs, by rw [List.flatMap_cons, h, e]; rfl, by rw [List.flatMap_cons, h]; exact b, g⟩
      · have hu : (⟨h0, ps.map ((32 : UInt8) :: ·)⟩ : WrittenProperty).unfolded = h0 ++ ps.flatten := by
          simp [WrittenProperty.unfolded, List.flatMap_map, List.flatMap_id']
        have hnl : (10 : UInt8) ∉ h0 ++ ps.flatten := by
          intro hm
          rcases List.mem_append.1 hm with hm | hm
          · exact n0 h0 (by simp [physList]) hm
          · obtain ⟨y, hy, hm⟩ := List.mem_flatten.1 hm
            exact n0 (32 :: y) (by simp [physList, hy]) (List.mem_cons_of_mem _ hm)
        refine ⟨⟨h0, ps.map ((32 : UInt8) :: ·)⟩ :: qs, ?_, ?_, ?_⟩
        · rw [List.flatMap_cons, h, e, List.flatMap_cons, List.flatMap_append]; rfl
        · rw [List.flatMap_cons, List.map_cons, hu]
          exact block_append (block_one h hnl hst hne rfl) b
        · intro q hq hsoft
          rcases List.mem_cons.1 hq with rfl | hq
          · obtain ⟨c0, hc0, hw1, hw2⟩ := hst.head
            obtain ⟨c1, r, rfl⟩ := List.exists_cons_of_ne_nil hne
            obtain rfl : c1 = c0 := by simpa using hc0
            refine ⟨⟨c1, r, rfl, hw1, hw2⟩, ?_, ?_, n0 _ (by simp [physList]), ?_, hsoft⟩
            · intro hb
              have := startsWithCI_prefix _ _ ps.flatten ((startsWithCI_take (b! "begin:vcard") _).2 hb)
              rw [hst.nobegin] at this; cases this
            · intro hb
              have := startsWithCI_prefix _ _ ps.flatten ((startsWithCI_take (b! "end:vcard") _).2 hb)
              rw [hst.noend] at this; cases this
            · intro x hx
              refine ⟨?_, n0 x (List.mem_cons_of_mem _ hx)⟩
              obtain ⟨y, -, rfl⟩ := List.mem_map.1 hx
              exact .inl rfl
          · exact g q hq hsoft
  obtain ⟨qs, e, b, g⟩ := key (orderedLines (contactLines E v false c)) fun l hl => fine_all hR l (mem_orderedLines hl)
  have b1 : Block (b! "BEGIN:VCARD\r\n") [b! "BEGIN:VCARD"] :=
    ⟨[b! "BEGIN:VCARD"], by decide, by decide, fun acc rest => by rw [List.singleton_append, logical_cons ⟨_, rfl, by decide, by decide⟩]; rfl⟩
  have b2 : Block (b! "END:VCARD\r\n\r\n") [b! "END:VCARD"] :=
    ⟨[b! "END:VCARD", []], by decide, by decide, fun acc rest => by
      rw [List.cons_append, logical_cons ⟨_, rfl, by decide, by decide⟩]
      simp [logicalLines]⟩
  have hb := block_append (block_append b1 b) b2
  rw [← orderedLines_text] at hb
  unfold NoSoftBreak at hs
  rw [block_logical hb] at hs
  refine ⟨qs, fun q hq => g q hq (hs _ ?_), ?_⟩
  · simp only [List.mem_cons, List.mem_append, List.mem_map]
    exact .inr (.inl (.inr ⟨q, hq, rfl⟩))
  · rw [orderedLines_text, e]
    have t : cardText qs = b! "BEGIN:VCARD" ++ [13, 10] ++ (qs.flatMap fun p => p.first :: p.rest).flatMap (· ++ [13, 10]) ++ (b! "END:VCARD" ++ [13, 10]) := by
      simp [cardText]
    have t1 : b! "BEGIN:VCARD" ++ [13, 10] = b! "BEGIN:VCARD\r\n" := by decide
    have t' : b! "END:VCARD\r\n\r\n" = b! "END:VCARD" ++ [13, 10] ++ b! "\r\n" := by decide
    rw [t, t1, t']
    simp only [List.append_assoc]

/-- **C115.** Properties put into the text of an exported contact at any place where a line ends that is not continued on the next one change the
    fields they are about and no other. -/
theorem C115_added (E : ToolEnv) (v : Version) (ids : IdKind → Nat → QString) (c c' : Contact) (hR : Carriable E v c) (hc : WrittenAndRead E v ids c c')
    (A B : List UInt8) (ht : createContacts E v false [c] = b! "BEGIN:VCARD\r\n" ++ A ++ B ++ b! "END:VCARD\r\n\r\n")
    (hA : A = [] ∨ A.getLast? = some 10) (hB : B.head? ≠ some 32) (ps : List WrittenProperty) (hp : ∀ p ∈ ps, p.Good) :
    ∃ N, ∀ m ≥ N, ∀ ds, parseContacts E ids m (b! "BEGIN:VCARD\r\n" ++ A ++ (ps.flatMap fun p => p.first :: p.rest).flatMap (· ++ [13, 10]) ++ B ++ b! "END:VCARD\r\n\r\n") = .ok ds →
      ∃ d, ds = [d] ∧ ∀ f, (∀ p ∈ ps, ¬ p.About f) → SameIn c' d f := by
  have hfine : ∀ l ∈ orderedLines (contactLines E v false c), LineFine E.toCodecs l := fun l hl => fine_all hR l (mem_orderedLines hl)
  obtain ⟨ls, e, n, -⟩ := reads_lines_block E.toCodecs readBack _ fun l hl => lineFine_reads _ _ (hfine l hl)
  have hAB : crlfText ls = A ++ B := by
    have h := orderedLines_text E v false c
    rw [ht, e] at h
    have h := List.append_cancel_right h
    rw [List.append_assoc] at h
    exact (List.append_cancel_left h).symm
  obtain ⟨u, w, rfl, rfl, rfl⟩ := crlf_split ls A B n hAB hA
  obtain ⟨L1, L2, eL, e1, e2⟩ := lines_split E.toCodecs _ (fun l hl => by
      rcases fine_phys E.toCodecs l (hfine l hl) with h | ⟨h0, ps, h, n0, -, -⟩
      · exact .inl h
      · exact .inr ⟨h0, ps, h, n0⟩) u w n e (by
    rintro x t rfl hx
    apply hB
    obtain ⟨y, r⟩ := x
    · cases hx
    · simpa [crlfText] using hx)
  rw [eL] at hfine
  have r1 : ∀ l ∈ L1, Reads E.toCodecs l (readBack l) := fun l hl => lineFine_reads _ _ (hfine l (List.mem_append_left _ hl))
  have r2 : ∀ l ∈ L2, Reads E.toCodecs l (readBack l) := fun l hl => lineFine_reads _ _ (hfine l (List.mem_append_right _ hl))
  have hS : readText E.toCodecs (createContacts E v false [c]) = some [cardAfter (L1.filterMap readBack ++ L2.filterMap readBack)] := by
    have h := readText_inserted E.toCodecs readBack L1 L2 r1 r2 [] (by simp)
    rw [ht, ← e1, ← e2]
    simpa using h
  have hT := readText_inserted E.toCodecs readBack L1 L2 r1 r2 ps hp
  rw [e1, e2] at hT
  obtain ⟨N, h⟩ := agree_texts E ids _ _ _ _ hS ⟨_, fun m hm => parseVCards_of_readText E.toCodecs _ _ hT m hm⟩ c' hc
  refine ⟨N, fun m hm ds hd => ?_⟩
  obtain ⟨d, d1, d2⟩ := h m hm ds hd
  exact ⟨d, d1, fun f hf => d2 f (filterMap_nil_insert f _ _ _ ps hf)⟩

/-- **C115.** As above, for a contact that is read back as C24 says: every field the added properties are not about has the data of the
    contact that was exported, as far as the version carries it (`Contact.restored`). -/
theorem C115_restored (E : ToolEnv) (v : Version) (ids : IdKind → Nat → QString) (hinj : ∀ k i j, ids k i = ids k j → i = j) (c : Contact)
    (hR : Readable E v c) (hu : ∀ i, c.uid ≠ ids .contact i)
    (A B : List UInt8) (ht : createContacts E v false [c] = b! "BEGIN:VCARD\r\n" ++ A ++ B ++ b! "END:VCARD\r\n\r\n")
    (hA : A = [] ∨ A.getLast? = some 10) (hB : B.head? ≠ some 32) (ps : List WrittenProperty) (hp : ∀ p ∈ ps, p.Good) :
    ∃ N, ∀ m ≥ N, ∀ ds, parseContacts E ids m (b! "BEGIN:VCARD\r\n" ++ A ++ (ps.flatMap fun p => p.first :: p.rest).flatMap (· ++ [13, 10]) ++ B ++ b! "END:VCARD\r\n\r\n") = .ok ds →
      ∃ d, ds = [d] ∧ ∀ f, (∀ p ∈ ps, ¬ p.About f) → SameIn (c.restored E v ids 0 0 0) d f :=
  C115_added E v ids c _ hR.carriable (C24_contact E v ids hinj c hR hu) A B ht hA hB ps hp

/-! ### Instances -/

private def sampleText : List UInt8 := createContacts Sample.env .v3_0 false [Sample.contact]
private def between : List UInt8 := ((sampleText.drop 13).drop 13).take (sampleText.length - 39)
private def extra : List WrittenProperty := [⟨b! "TEL;TYPE=HOME:12", [b! " 345"]⟩, ⟨b! "X-SHOP-SIZE:42", []⟩]

private theorem extra_good : ∀ p ∈ extra, p.Good := by
  intro p hp
  simp only [extra, List.mem_cons, List.not_mem_nil, or_false] at hp
  rcases hp with rfl | rfl <;>
    exact ⟨⟨_, _, rfl, by decide, by decide⟩, by decide, by decide, by decide, by decide, fun h => absurd h.2 (by decide)⟩

private theorem written_split : sampleText = b! "BEGIN:VCARD\r\n" ++ b! "VERSION:3.0\r\n" ++ between ++ b! "END:VCARD\r\n\r\n" ∧ between.head? ≠ some 32 ∧
    between.length > 500 := by decide +kernel

-- a phone number and a custom field put into the text of the sample contact after its first line: the rest comes back
example : ∃ N, ∀ m ≥ N, ∀ ds, parseContacts Sample.env Sample.ids m (b! "BEGIN:VCARD\r\n" ++ b! "VERSION:3.0\r\n" ++
      (extra.flatMap fun p => p.first :: p.rest).flatMap (· ++ [13, 10]) ++ between ++ b! "END:VCARD\r\n\r\n") = .ok ds →
    ∃ d, ds = [d] ∧ d.formattedName = Sample.contact.formattedName ∧ d.note = Sample.contact.note := by
  obtain ⟨N, h⟩ := C115_restored Sample.env .v3_0 Sample.ids Sample.ids_inj Sample.contact (C24_sample_readable _) C24_sample_uid _ _ written_split.1 (.inr (by decide +kernel : List.getLast? (b! "VERSION:3.0\r\n") = some 10))
    written_split.2.1 extra extra_good
  refine ⟨N, fun m hm ds hd => ?_⟩
  obtain ⟨d, e, hf⟩ := h m hm ds hd
  exact ⟨d, e, (hf .formattedName (by decide +kernel)).symm, (hf .note (by decide +kernel)).symm⟩

-- such a text is read, and the new phone number is there
example : ∃ d, (∃ n, ∀ m ≥ n, parseContacts Sample.env Sample.ids m (b! "BEGIN:VCARD\r\n" ++ b! "VERSION:3.0\r\n" ++
      (extra.flatMap fun p => p.first :: p.rest).flatMap (· ++ [13, 10]) ++ between ++ b! "END:VCARD\r\n\r\n") = .ok [d]) ∧
    (d.phoneNumbers.map (·.number)).contains (q! "12345") = true ∧ d.phoneNumbers.length = Sample.contact.phoneNumbers.length + 1 ∧ d.addresses.length = Sample.contact.addresses.length :=
  contactsIn_one _ (by decide +kernel)

private theorem sample_nosoft (v : Version) : NoSoftBreak (createContacts Sample.env v false [Sample.contact]) := by
  have h : ((logicalLines [] ((linesOf (createContacts Sample.env v false [Sample.contact])).map dropCR)).all fun l => !(decide (l.getLast? = some 61)) || !(decide (b! "quoted-printable" <:+: l.map lowerByte))) = true := by
    cases v <;> decide +kernel
  intro l hl hh
  have := List.all_eq_true.1 h l hl
  obtain ⟨⟨pre, post, e⟩, hlast⟩ := hh
  have hq : b! "quoted-printable" <:+: l.map lowerByte := ⟨pre, post, e.symm⟩
  simp only [hq, hlast, decide_true, Bool.not_true, Bool.or_self] at this
  cases this

-- the sample contact without its phone numbers, in every version
example (v : Version) : ∃ qs : List WrittenProperty, (∀ q ∈ qs, q.Good) ∧ createContacts Sample.env v false [Sample.contact] = cardText qs ++ b! "\r\n" ∧
    ∃ N, ∀ m ≥ N, ∀ ds, parseContacts Sample.env Sample.ids m (cardText (qs.filter fun q => ¬ q.About .phoneNumbers)) = .ok ds →
      ∃ d, ds = [d] ∧ d.formattedName = Sample.contact.formattedName := by
  obtain ⟨qs, hg, ht⟩ := C115_text Sample.env v Sample.contact (C24_sample_readable v).carriable (sample_nosoft v)
  refine ⟨qs, hg, ht, ?_⟩
  obtain ⟨N, h⟩ := C115 Sample.env v Sample.ids _ _ (C24_contact _ v _ Sample.ids_inj _ (C24_sample_readable v) C24_sample_uid) qs hg ht
    (qs.filter fun q => ¬ q.About .phoneNumbers) fun p hp => hg p (List.mem_filter.1 hp).1
  refine ⟨N, fun m hm ds hd => ?_⟩
  obtain ⟨d, e, hf⟩ := h m hm ds hd
  refine ⟨d, e, (hf .formattedName ?_).symm⟩
  rw [List.filter_filter]
  congr 1
  refine List.filter_congr fun q _ => ?_
  by_cases ha : q.About .formattedName
  · have : ¬ q.About .phoneNumbers := by
      intro hb
      unfold WrittenProperty.About at ha hb
      split at ha
      · cases ha
      · rename_i hg
        rw [if_neg hg] at hb
        simp [readFrom] at ha hb
        rw [ha] at hb
        revert hb; decide
    simp [ha, this]
  · simp [ha]

end KC
