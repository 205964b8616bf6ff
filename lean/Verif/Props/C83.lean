import Verif.Lemmas.HeadRead
import Verif.Lemmas.HeadCount
import Verif.Lemmas.Compute
import Verif.Props.C80
/-
  C83: no text of a contact gets out of its line in a card written for the contact.
-/
namespace KC
open KC.Spec

theorem encloses_iff (t : QByteArray) (m : QByteArray) : m <+: t.map lowerByte ↔ startsWithCI m t = true := by
  have e : ∀ s : QByteArray, toLowerB s = s.map lowerByte := fun s => by unfold toLowerB; congr 1
  unfold startsWithCI
  rw [beq_iff_eq, e, List.map_take, List.prefix_iff_eq_take]
  exact eq_comm

/-- the lines of a card as text -/
private theorem card_lines (E : ToolEnv) (v : Version) (ex : Bool) (c : Contact) (h : HeadsIn Unbroken E v c) (lines : List VCardLine)
    (ht : createContacts E v ex [c] = b! "BEGIN:VCARD\r\n" ++ lines.flatMap (writeLine E.toCodecs) ++ b! "END:VCARD\r\n\r\n") (hp : lines.Perm (contactLines E v ex c)) :
    Block (createContacts E v ex [c])
      (b! "BEGIN:VCARD" :: ((lines.filter fun l => !(writeLine E.toCodecs l).isEmpty).map (contentOf E.toCodecs) ++ [b! "END:VCARD"])) := by
  have hh : Heads Unbroken lines := fun l hl => heads_all oneLine_class ex h l (hp.mem_iff.1 hl)
  have body : ∀ ls : List VCardLine, Heads Unbroken ls → Block (ls.flatMap (writeLine E.toCodecs)) ((ls.filter fun l => !(writeLine E.toCodecs l).isEmpty).map (contentOf E.toCodecs)) := by
    intro ls
    induction ls with
    | nil => intro _; exact block_nil
    | cons l ls ih =>
      intro hls
      have h2 := ih fun x hx => hls x (by simp [hx])
      rw [List.flatMap_cons]
      rcases line_written (E := E.toCodecs) (hls l (by simp)) with hw | ⟨h0, ps, hw, hfl, hne⟩
      · rw [hw, List.filter_cons_of_neg (by simp [hw])]
        exact h2
      · rw [List.filter_cons_of_pos (by rw [hw]; simp [crlfText, physList])]
        exact block_append (block_one hw (content_line oneLine_class (hls l (by simp))).1 (contentOf_start (hls l (by simp))) hne hfl) h2
  rw [ht]
  have b1 : Block (b! "BEGIN:VCARD\r\n") [b! "BEGIN:VCARD"] :=
    ⟨[b! "BEGIN:VCARD"], by decide, by decide, fun acc rest => by rw [List.singleton_append, logical_cons ⟨_, rfl, by decide, by decide⟩]; rfl⟩
  have b2 : Block (b! "END:VCARD\r\n\r\n") [b! "END:VCARD"] :=
    ⟨[b! "END:VCARD", []], by decide, by decide, fun acc rest => by
      rw [List.cons_append, logical_cons ⟨_, rfl, by decide, by decide⟩]
      simp [logicalLines]⟩
  have := block_append (block_append b1 (body lines hh)) b2
  simpa using this

/-- **C83** (lines). Contacts are written as their cards and nothing else: the lines of the text are, for each contact, BEGIN:VCARD, the lines of
    its properties and END:VCARD. No other line begins or ends a card, every line is one of the properties C80 allows, and there are at most as
    many lines of a property as the contact has entries of that kind – provided the texts in front of the colons keep to one line (`Contained`).
    What stands after the colons, the values, can be anything. -/
theorem C83_lines_partial (E : ToolEnv) (v : Version) (ex : Bool) (cs : List Contact) (h : ∀ c ∈ cs, Contained E v c) :
    ∃ body : Contact → List QByteArray,
      textLines (createContacts E v ex cs) = cs.flatMap (fun c => b! "BEGIN:VCARD" :: (body c ++ [b! "END:VCARD"])) ∧
      ∀ c ∈ cs,
        (∀ t ∈ body c, (10 : UInt8) ∉ t ∧ (13 : UInt8) ∉ t ∧ ¬ Encloses t ∧
          ∃ n, isProperty n t = true ∧ (n ∈ standardNames v ∨ n ∈ laterNames v ∨ OwnName c n ∨ (v = .v4_0 ∧ EmbeddedPicture n))) ∧
        ∀ p ∈ entries c, (∀ g ∈ c.fieldGroups, g.fieldGroupName ≠ p.1) → ((body c).filter (isProperty p.1)).length ≤ p.2 := by
  choose lines ht hp _ using fun c => written_lines E v ex c
  refine ⟨fun c => ((lines c).filter fun l => !(writeLine E.toCodecs l).isEmpty).map (contentOf E.toCodecs), ?_, ?_⟩
  · have hb : Block (createContacts E v ex cs) (cs.flatMap fun c =>
        b! "BEGIN:VCARD" :: (((lines c).filter fun l => !(writeLine E.toCodecs l).isEmpty).map (contentOf E.toCodecs) ++ [b! "END:VCARD"])) := by
      rw [C80_cards]
      induction cs with
      | nil => exact block_nil
      | cons c cs ih =>
        rw [List.flatMap_cons, List.flatMap_cons]
        exact block_append (card_lines E v ex c ⟨(h c (by simp)).heads, (h c (by simp)).groups⟩ (lines c) (ht c) (hp c)) (ih fun x hx => h x (by simp [hx]))
    unfold textLines
    rw [block_logical hb]
    rfl
  · intro c hc
    have hh : Heads Unbroken (lines c) := fun l hl => heads_all oneLine_class ex ⟨(h c hc).heads, (h c hc).groups⟩ l ((hp c).mem_iff.1 hl)
    have hn : ∀ l ∈ lines c, _ := fun l hl => contact_names E v ex c l ((hp c).mem_iff.1 hl)
    refine ⟨?_, ?_⟩
    · intro t htm
      obtain ⟨l, hl, rfl⟩ := List.mem_map.1 htm
      have hl := (List.mem_filter.1 hl).1
      obtain ⟨c1, c2⟩ := content_line (E := E.toCodecs) oneLine_class (hh l hl)
      have hg := contentOf_start (E := E.toCodecs) (hh l hl)
      refine ⟨c1, c2, ?_, l.identifier, ?_, hn l hl⟩
      · rintro (e | e)
        · have := (encloses_iff _ _).1 e; rw [hg.nobegin] at this; cases this
        · have := (encloses_iff _ _).1 e; rw [hg.noend] at this; cases this
      · obtain ⟨sep, rest, hs, e⟩ := content_name E.toCodecs l
        rw [e]
        simp only [isProperty, Bool.or_eq_true, List.isPrefixOf_iff_prefix]
        rcases hs with rfl | rfl
        · exact Or.inl ⟨rest, by simp⟩
        · exact Or.inr ⟨rest, by simp⟩
    · rintro ⟨n, k⟩ hnk hg
      have count := contact_count E v ex c n k hnk hg
      rw [← ((hp c).filter _).length_eq] at count
      refine Nat.le_trans ?_ count
      -- a line that begins with the name has the name
      have hplain : (n.all fun u => u.toNat < 256 && u ≠ qc! '?' && u ≠ qc! ';' && u ≠ qc! ':') = true ∧ n.head? ≠ some (qc! 'X') ∧ n ≠ q! "LOGO" ∧ n ≠ q! "PHOTO" := by
        have hm : n ∈ [q! "ADR", q! "LABEL", q! "EMAIL", q! "TEL", q! "ORG", q! "ROLE", q! "TITLE", q! "NICKNAME", q! "LANG", q! "CLIENTPIDMAP", q! "KEY", q! "URL", q! "IMPP",
            q! "MEMBER", q! "SOURCE", q! "SOUND"] ++ singleNames := by
          have := List.mem_map_of_mem (f := (·.1)) hnk
          simpa [entries] using this
        clear hnk hg count
        revert n
        decide +kernel
      obtain ⟨hn1, hn2, hn3, hn4⟩ := hplain
      have same : ∀ l ∈ lines c, isProperty n (contentOf E.toCodecs l) = true → l.identifier = n := by
        intro l hl hi
        obtain ⟨sep, rest, hs, e⟩ := content_name E.toCodecs l
        rw [e] at hi
        have std : ∀ v, ∀ m ∈ standardNames v ++ laterNames v, qc! ';' ∉ m ∧ qc! ':' ∉ m := by intro v; cases v <;> decide +kernel
        rcases hn l hl with h1 | h1 | (⟨t, h1⟩ | ⟨g, hg', h1⟩) | ⟨_, h1⟩
        · exact name_of_start hn1 (std v _ (List.mem_append_left _ h1)) hs hi
        · exact name_of_start hn1 (std v _ (List.mem_append_right _ h1)) hs hi
        · exfalso
          rw [← h1] at hi
          cases n with
          | nil => simp [isProperty, toLatin1] at hi
          | cons u n =>
            have hu : (if u.toNat < 256 then UInt8.ofNat u.toNat else 63) = c! 'X' := by
              simp only [isProperty, toLatin1, List.map_cons, List.map_append, List.cons_append, List.isPrefixOf_cons₂, Bool.or_eq_true, Bool.and_eq_true, beq_iff_eq] at hi
              rcases hi with hi | hi <;> exact hi.1
            rw [List.all_cons, Bool.and_eq_true] at hn1
            have hlt : u.toNat < 256 := by
              have := hn1.1
              simp only [Bool.and_eq_true, decide_eq_true_eq] at this
              exact this.1.1.1
            rw [if_pos hlt] at hu
            apply hn2
            have hv := congrArg UInt8.toNat hu
            rw [UInt8.toNat_ofNat'] at hv
            have h88 : (c! 'X' : UInt8).toNat = 88 := rfl
            rw [h88] at hv
            have : u = qc! 'X' := UInt16.toNat_inj.1 (by show u.toNat = 88; omega)
            rw [this]; rfl
        · exact name_of_start hn1 (h1 ▸ ((h c hc).groups g hg').sep) hs hi
        · exfalso
          rcases h1 with ⟨t, h1⟩ | ⟨t, h1⟩
          · rw [← h1] at hi
            have e2 : toLatin1 (q! "LOGO:data:image/" ++ t) ++ sep :: rest = toLatin1 (q! "LOGO") ++ c! ':' :: (b! "data:image/" ++ (toLatin1 t ++ sep :: rest)) := by simp [toLatin1]
            rw [e2] at hi
            exact hn3 (name_of_start hn1 (by decide) (Or.inr rfl) hi).symm
          · rw [← h1] at hi
            have e2 : toLatin1 (q! "PHOTO:data:image/" ++ t) ++ sep :: rest = toLatin1 (q! "PHOTO") ++ c! ':' :: (b! "data:image/" ++ (toLatin1 t ++ sep :: rest)) := by simp [toLatin1]
            rw [e2] at hi
            exact hn4 (name_of_start hn1 (by decide) (Or.inr rfl) hi).symm
      rw [List.filter_map, List.length_map, List.filter_filter]
      have e : (lines c).filter (fun l => (isProperty n ∘ contentOf E.toCodecs) l && !(writeLine E.toCodecs l).isEmpty) =
          ((lines c).filter fun l => decide (l.identifier = n)).filter (fun l => (isProperty n ∘ contentOf E.toCodecs) l && !(writeLine E.toCodecs l).isEmpty) := by
        rw [List.filter_filter]
        apply List.filter_congr
        intro l hl
        cases hi : isProperty n (contentOf E.toCodecs l) with
        | false => simp [hi]
        | true => simp [hi, same l hl hi]
      rw [e]
      exact List.length_filter_le _ _

theorem readCards_length (E : ToolEnv) (ids : IdKind → Nat → QString) (cards : List VCard) : ∀ n a p k rs, readCards E ids n a p k cards = some rs → rs.length = cards.length := by
  induction cards with
  | nil => intro n a p k rs h; cases h; rfl
  | cons card cards ih =>
    intro n a p k rs h
    rw [readCards] at h
    split at h
    · cases h
    · obtain ⟨rs', h1, rfl⟩ := Option.map_eq_some_iff.1 h
      rw [List.length_cons, List.length_cons, ih _ _ _ _ _ h1]

/-- **C83** (reading). The text is read to its end, and gives one contact for each contact written, whatever its values are – provided that the
    texts in front of the colons keep to one line, have no quotation marks and do not speak of quoted-printable, and that the encoder does not end
    a text in an equals sign. (`undefined` is the embedded pictures of version 4.0, C17.) -/
theorem C83_read_partial (E : ToolEnv) (v : Version) (ex : Bool) (ids : IdKind → Nat → QString) (cs : List Contact) (hq : ∀ b, (E.qpEncode b).getLast? ≠ some 61)
    (h : ∀ c ∈ cs, Contained E v c ∧ ∀ t ∈ headTexts E v c, Unquoting t) :
    ∃ n, ∀ fuel, n ≤ fuel → parseContacts E ids fuel (createContacts E v ex cs) = .undefined ∨
      ∃ rs, parseContacts E ids fuel (createContacts E v ex cs) = .ok rs ∧ rs.length = cs.length := by
  have hr := reads_text E.toCodecs (readAs E.toCodecs) (cs.map fun c => cardAfter (contactLines E v ex c)) (by
    intro card hcard l hl
    obtain ⟨c, hc, rfl⟩ := List.mem_map.1 hcard
    obtain ⟨h1, h2⟩ := h c hc
    exact reads_head hq (heads_all quiet_class ex ⟨fun t ht => ⟨h1.heads t ht, h2 t ht⟩, h1.groups⟩ l (mem_flatMap_lines _ _ _ hl)))
  refine ⟨(physLines (createContacts E v ex cs)).length + 2, fun fuel hf => ?_⟩
  have hp := parseVCards_of_readText E.toCodecs (createContacts E v ex cs) _ hr fuel hf
  unfold parseContacts
  rw [hp]
  simp only
  split
  · exact Or.inl rfl
  · rename_i rs he
    right
    refine ⟨rs, rfl, ?_⟩
    rw [readCards_length _ _ _ _ _ _ _ _ he]
    simp

/-! ### the conditions are met -/

instance (l : QByteArray) : Decidable (MentionsQP l) :=
  decidable_of_iff (b! "quoted-printable" <:+: l.map lowerByte) (by
    constructor
    · rintro ⟨a, b, e⟩; exact ⟨a, b, by rw [← e]; congr 1⟩
    · rintro ⟨a, b, e⟩; exact ⟨a, b, by rw [e]; congr 1⟩)
instance (s : QString) : Decidable (Unbroken s) := by unfold Unbroken; infer_instance
instance (s : QString) : Decidable (Unquoting s) := by unfold Unquoting; infer_instance

/-- a full contact, in all versions -/
example : ∀ v, Contained Sample.env v Sample.contact ∧ ∀ t ∈ headTexts Sample.env v Sample.contact, Unquoting t := by
  intro v
  have h1 : ∀ t ∈ headTexts Sample.env v Sample.contact, Unbroken t ∧ Unquoting t := by cases v <;> decide +kernel
  refine ⟨⟨fun t ht => (h1 t ht).1, fun g hg => ?_⟩, fun t ht => (h1 t ht).2⟩
  simp only [Sample.contact, List.mem_cons, List.not_mem_nil, or_false] at hg
  rcases hg with rfl | rfl <;> exact ⟨by decide, by intro u hu; cases hu; decide, by decide⟩

example : ∀ b, (Sample.env.qpEncode b).getLast? ≠ some 61 := by
  intro b
  show (Sample.qpEncode b).getLast? ≠ some 61
  rcases List.eq_nil_or_concat b with rfl | ⟨t, x, rfl⟩
  · decide
  · have key : ∀ n : Fin 256, ((fun x : UInt8 => if 33 ≤ x.toNat ∧ x.toNat ≤ 126 ∧ x.toNat ≠ 61 then [x] else [61, Sample.hexDigit (x.toNat / 16), Sample.hexDigit (x.toNat % 16)])
        (UInt8.ofNat n.val)).getLast?.any (· ≠ 61) = true := by decide +kernel
    have kx := key ⟨x.toNat, x.toNat_lt⟩
    rw [UInt8.ofNat_toNat] at kx
    unfold Sample.qpEncode
    rw [List.concat_eq_append, List.flatMap_append, List.flatMap_singleton, List.getLast?_append]
    cases hy : (if 33 ≤ x.toNat ∧ x.toNat ≤ 126 ∧ x.toNat ≠ 61 then [x] else [61, Sample.hexDigit (x.toNat / 16), Sample.hexDigit (x.toNat % 16)]).getLast? with
    | none => simp only [hy] at kx; cases kx
    | some y => simp only [hy] at kx; simpa using kx

/-- values can be anything: a note that looks like the end of a card and another card stays in its line -/
example : b! "NOTE:a\\r\\nEND:VCARD\\r\\nBEGIN:VCARD\\r\\nEMAIL:x" ∈
    textLines (createContacts Sample.env .v3_0 false [{ uid := q! "u", note := q! "a\r\nEND:VCARD\r\nBEGIN:VCARD\r\nEMAIL:x" }]) := by decide +kernel

/-! ### what the conditions exclude -/

/-- A contact without e-mail addresses. In the text written for it, and read from the text, there is one. -/
def Smuggles (v : Version) (c : Contact) : Prop := c.emails = [] ∧ b! "EMAIL:evil" ∈ textLines (createContacts Sample.env v false [c]) ∧
  ((contactsIn Sample.env Sample.ids (createContacts Sample.env v false [c])).any fun cs => cs.map (fun c => c.emails.map (·.mail)) = [[q! "evil"]]) = true

/-- Line breaks in front of colons are written as they are: in parameters, names of custom fields, labels of addresses (version 4.0). -/
theorem C83_lines_false :
    (∀ v, Smuggles v { uid := q! "u", phoneNumbers := [{ id := q! "i", number := q! "1", params := [(q! "x", [q! "y:1\r\nEMAIL:evil\r\nX-A-B"])] }] }) ∧
    (∀ v, Smuggles v { uid := q! "u", customs := [(q! "APP-A\r\nEMAIL", q! "evil")] }) ∧
    Smuggles .v4_0 { uid := q! "u", addresses := [{ empty := false, id := q! "i", street := q! "s", label := q! "Street 1\":1\r\nEMAIL:evil\r\nX-A-B" }] } := by
  unfold Smuggles
  refine ⟨fun v => ?_, fun v => ?_, ?_⟩
  · cases v <;> decide +kernel
  · cases v <;> decide +kernel
  · decide +kernel

/-- A field group with the name of a marker ends its card: nothing after it is read. A parameter that speaks of quoted-printable can take the
    end of the card into the value: the contact is not read at all. -/
theorem C83_read_false :
    (∀ v, (contactsIn Sample.env Sample.ids (createContacts Sample.env v false [{ uid := q! "u", fieldGroups := [{ fieldGroupName := q! "END", value := q! "VCARD" }], kind := q! "k" }])).any
      (fun cs => cs.map (·.uid) ≠ [q! "u"]) = true) ∧
    parseContacts Sample.env Sample.ids 100 (createContacts Sample.env .v2_1 false [{ uid := q! "u", extraUrls := [{ url := q! "a=", params := [(q! "quoted-printable", [])] }] }]) = .ok [] := by
  refine ⟨fun v => ?_, ?_⟩
  · cases v <;> decide +kernel
  · decide +kernel

end KC
