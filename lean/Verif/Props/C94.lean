import Verif.Lemmas.CardNames
import Verif.Lemmas.Rewritten
import Verif.Props.C70
import Verif.Props.C80
import Verif.Props.C91
/-
  C94. Changing one field of a contact changes only the lines of that field's own property in the exported vCard.

  Proved for every field, all contacts, all versions and both names of custom fields (`C94`), and for every call of the API (`C94_call`). A field that has
  one property changes one contiguous piece of the text (`C94_piece`), a field that a version does not have changes nothing (`C94_silent`).
-/
namespace KC
namespace Spec

/-- The properties a field is written as. Two fields have names of their own on top (`WrittenAs`): custom fields and field groups. -/
def propertiesFor (v : Version) : Field → List QString
  | .uid => [q! "UID"]
  | .name => if v = .v4_0 then [] else [q! "NAME"]
  | .kind => if v = .v4_0 then [q! "KIND", q! "MEMBER"] else []
  | .formattedName => [q! "FN"]
  | .familyName | .givenName | .additionalName | .prefix_ | .suffix => [q! "N"]
  | .mailer => if v = .v4_0 then [] else [q! "MAILER"]
  | .department => [q! "ORG"]
  | .note => [q! "NOTE"]
  | .productId => if v = .v2_1 then [] else [q! "PRODID"]
  | .sortString => match v with | .v2_1 => [] | .v3_0 => [q! "SORT-STRING"] | .v4_0 => [q! "N"]
  | .secrecy => if v = .v3_0 then [q! "CLASS"] else []
  | .gender => if v = .v4_0 then [q! "GENDER"] else []
  | .timeZone => [q! "TZ"]
  | .geo => [q! "GEO"]
  | .logo | .extraLogos => [q! "LOGO"]
  | .photo | .extraPhotos => [q! "PHOTO"]
  | .sound | .extraSounds => if v = .v4_0 then [] else [q! "SOUND"]
  | .revision => [q! "REV"]
  | .deathDate => if v = .v4_0 then [q! "DEATHDATE"] else []
  | .extraUrls => [q! "URL"]
  | .sources => [q! "SOURCE"]
  | .fieldGroups => []
  | .clientPidMaps => if v = .v4_0 then [q! "CLIENTPIDMAP"] else []
  | .impps => [q! "IMPP"]
  | .calendarUrls => if v = .v4_0 then [q! "CALADRURI", q! "CALURI", q! "FBURL"] else []
  | .emails => [q! "EMAIL"]
  | .langs => if v = .v4_0 then [q! "LANG"] else []
  | .phoneNumbers => [q! "TEL"]
  | .keys => [q! "KEY"]
  | .addresses => if v = .v4_0 then [q! "ADR"] else [q! "ADR", q! "LABEL"]
  | .categories => if v = .v2_1 then [] else [q! "CATEGORIES"]
  | .members => if v = .v4_0 then [q! "MEMBER"] else []
  | .relationships => [q! "RELATED"]
  | .customs => if v = .v4_0 then [q! "ANNIVERSARY", q! "RELATED"] else []
  | .changed => []
  | .birthday => [q! "BDAY"]
  | .text .nickName => if v = .v2_1 then [] else [q! "NICKNAME"]
  | .text .title => [q! "TITLE"]
  | .text .role => [q! "ROLE"]
  | .text .organization => [q! "ORG"]

/-- `name` is the name of a line for the field `f` of `c` or `c'`: one of the field's properties; for custom fields an extension; for field groups the name
    of a group; for pictures embedded in a card of version 4.0 the beginning of the line (the code has no name apart from it). -/
def WrittenAs (v : Version) (c c' : Contact) (f : Field) (name : QString) : Prop :=
  name ∈ propertiesFor v f ∨
  match f with
  | .customs => q! "X-" <+: name
  | .fieldGroups => ∃ g ∈ c.fieldGroups ++ c'.fieldGroups, name = g.fieldGroupName
  | .logo | .extraLogos => v = .v4_0 ∧ q! "LOGO:data:image/" <+: name
  | .photo | .extraPhotos => v = .v4_0 ∧ q! "PHOTO:data:image/" <+: name
  | _ => False

end Spec
open Spec

/-! ### Proof -/

/-- The lines of a card in the order in which they are written. -/
def orderedLines (L : List VCardLine) : List VCardLine := (writeOrder (cardAfter L)).flatMap fun n => L.filter fun l => decide (l.identifier = n)

theorem orderedLines_text (E : ToolEnv) (v : Version) (ex : Bool) (c : Contact) :
    createContacts E v ex [c] = b! "BEGIN:VCARD\r\n" ++ (orderedLines (contactLines E v ex c)).flatMap (writeLine E.toCodecs) ++ b! "END:VCARD\r\n\r\n" := by
  show createVCardText E.toCodecs [cardAfter (contactLines E v ex c)] = _
  simp only [createVCardText, List.flatMap_cons, List.flatMap_nil, List.append_nil, writeCard, C13_lines, List.append_assoc, orderedLines, List.flatMap_assoc]
  rfl

/-- Names that pass a test, in the order of writing, depend on the lines that pass it only. -/
theorem order_filter (P : QString → Bool) (L L' : List VCardLine) (hV : ∃ l ∈ L, l.identifier = q! "VERSION") (hV' : ∃ l ∈ L', l.identifier = q! "VERSION")
    (h : L.filter (fun l => P l.identifier) = L'.filter fun l => P l.identifier) :
    (writeOrder (cardAfter L)).filter P = (writeOrder (cardAfter L')).filter P := by
  have hw : ∀ L : List VCardLine, (∃ l ∈ L, l.identifier = q! "VERSION") → ∃ ns : List QString, writeOrder (cardAfter L) = q! "VERSION" :: ns ∧
      ns.Pairwise (fun a b => qlt a b = true) ∧ ∀ n, n ∈ ns ↔ n ≠ q! "VERSION" ∧ ∃ l ∈ L, l.identifier = n := by
    intro L hV
    have hm := (C13_names L).2
    have hs := SMap.sorted_iff_keys.1 (cardAfter_sorted L)
    change (cardAfter L).identifiers.Pairwise _ at hs
    refine ⟨(cardAfter L).identifiers.erase (q! "VERSION"), ?_, hs.sublist List.erase_sublist, ?_⟩
    · unfold writeOrder
      simp only
      rw [if_pos ((hm _).2 hV)]
    · intro n
      rw [List.Nodup.mem_erase_iff (identifiers_nodup L), hm]
  obtain ⟨ns, e, s, m⟩ := hw L hV
  obtain ⟨ns', e', s', m'⟩ := hw L' hV'
  have hm : ∀ n, P n = true → ((∃ l ∈ L, l.identifier = n) ↔ ∃ l ∈ L', l.identifier = n) := by
    intro n hn
    have gen : ∀ L : List VCardLine, (∃ l ∈ L, l.identifier = n) ↔ ∃ l ∈ L.filter (fun l => P l.identifier), l.identifier = n := by
      intro L
      constructor
      · rintro ⟨l, hl, e⟩; exact ⟨l, List.mem_filter.2 ⟨hl, by rw [e]; exact hn⟩, e⟩
      · rintro ⟨l, hl, e⟩; exact ⟨l, (List.mem_filter.1 hl).1, e⟩
    rw [gen L, gen L', h]
  rw [e, e', List.filter_cons, List.filter_cons]
  have : ns.filter P = ns'.filter P := by
    apply SMap.sorted_ext (s.filter _) (s'.filter _)
    intro n
    rw [List.mem_filter, List.mem_filter, m, m']
    constructor
    · rintro ⟨⟨h1, h2⟩, h3⟩; exact ⟨⟨h1, (hm n h3).1 h2⟩, h3⟩
    · rintro ⟨⟨h1, h2⟩, h3⟩; exact ⟨⟨h1, (hm n h3).2 h2⟩, h3⟩
  rw [this]

theorem ordered_filter (P : QString → Bool) (L : List VCardLine) (ns : List QString) :
    (ns.flatMap fun n => L.filter fun l => decide (l.identifier = n)).filter (fun l => P l.identifier) =
      (ns.filter P).flatMap fun n => (L.filter fun l => P l.identifier).filter fun l => decide (l.identifier = n) := by
  induction ns with
  | nil => rfl
  | cons n ns ih =>
    rw [List.flatMap_cons, List.filter_append, ih, List.filter_cons, List.filter_filter]
    cases hp : P n with
    | true =>
      rw [if_pos rfl, List.flatMap_cons, List.filter_filter]
      congr 1
      apply List.filter_congr
      intro l _
      rw [Bool.and_comm]
    | false =>
      rw [if_neg (by decide)]
      have : (L.filter fun l => P l.identifier && decide (l.identifier = n)) = [] := by
        rw [List.filter_eq_nil_iff]
        intro l _ hl
        rw [Bool.and_eq_true, decide_eq_true_eq] at hl
        rw [hl.2, hp] at hl
        exact Bool.false_ne_true hl.1
      rw [this]; rfl

/-- The lines in the order of writing that pass a test depend on the lines that pass it only. -/
theorem orderedLines_filter (P : QString → Bool) (L L' : List VCardLine) (hV : ∃ l ∈ L, l.identifier = q! "VERSION") (hV' : ∃ l ∈ L', l.identifier = q! "VERSION")
    (h : L.filter (fun l => P l.identifier) = L'.filter fun l => P l.identifier) :
    (orderedLines L).filter (fun l => P l.identifier) = (orderedLines L').filter fun l => P l.identifier := by
  unfold orderedLines
  rw [ordered_filter, ordered_filter, order_filter P L L' hV hV' h, h]

/-- Sections that are equal or do not pass the test at all. -/
inductive Beside (P : QString → Bool) : List (List VCardLine) → List (List VCardLine) → Prop
  | nil : Beside P [] []
  | cons {S S' : List VCardLine} {r r' : List (List VCardLine)} : (S = S' ∨ ∀ l ∈ S ++ S', P l.identifier = false) → Beside P r r' → Beside P (S :: r) (S' :: r')

theorem beside_filter {P : QString → Bool} {r r' : List (List VCardLine)} (h : Beside P r r') :
    r.flatten.filter (fun l => P l.identifier) = r'.flatten.filter fun l => P l.identifier := by
  induction h with
  | nil => rfl
  | @cons S S' r r' hS _ ih =>
    rw [List.flatten_cons, List.flatten_cons, List.filter_append, List.filter_append, ih]
    congr 1
    rcases hS with rfl | hS
    · rfl
    · have gen : ∀ T : List VCardLine, (∀ l ∈ T, P l.identifier = false) → T.filter (fun l => P l.identifier) = [] := by
        intro T hT
        rw [List.filter_eq_nil_iff]
        intro l hl
        rw [hT l hl]; decide
      rw [gen S fun l hl => hS l (by simp [hl]), gen S' fun l hl => hS l (by simp [hl])]

section
variable {E : ToolEnv} {v : Version} {ex : Bool} {c c' : Contact} {f : Field}

theorem beside_step {S S' : List VCardLine} (h : ∀ g, g ≠ f → SameIn c c' g) (P : QString → Bool) (hP : ∀ n, P n = false ↔ WrittenAs v c c' f n)
    (fields : List Field) (hs : (∀ g ∈ fields, SameIn c c' g) → S = S') (hn : f ∈ fields → ∀ l ∈ S ++ S', WrittenAs v c c' f l.identifier) :
    S = S' ∨ ∀ l ∈ S ++ S', P l.identifier = false := by
  by_cases hf : f ∈ fields
  · exact Or.inr fun l hl => (hP _).2 (hn hf l hl)
  · exact Or.inl (hs fun g hg => h g fun e => hf (e ▸ hg))

theorem written_named {S S' : List VCardLine} {n : QString} (a : Named S n) (b : Named S' n) (h : S ++ S' ≠ [] → n ∈ propertiesFor v f) :
    ∀ l ∈ S ++ S', WrittenAs v c c' f l.identifier := by
  intro l hl
  have : l.identifier = n := by
    rcases List.mem_append.1 hl with x | x
    · exact a l x
    · exact b l x
  rw [this]
  exact Or.inl (h fun e => by rw [e] at hl; cases hl)

end

/-- All sections but those of the field are the same. -/
theorem sections_beside (E : ToolEnv) (v : Version) (ex : Bool) (c c' : Contact) (f : Field) (h : ∀ g, g ≠ f → SameIn c c' g) (P : QString → Bool)
    (hP : ∀ n, P n = false ↔ WrittenAs v c c' f n) : Beside P (contactSections E v ex c) (contactSections E v ex c') := by
  obtain ⟨a1, a2, a3, a4⟩ := absent E v c
  obtain ⟨b1, b2, b3, b4⟩ := absent E v c'
  unfold contactSections
  repeat' apply Beside.cons

  · exact Or.inl rfl
  · refine beside_step h P hP [.addresses] (fun hs => ?_) fun hf => ?_
    · have e0 := hs (.addresses) (by simp)
      simp only [SameIn] at e0
      simp only [adrLines, e0]
    · simp only [List.mem_cons, List.not_mem_nil, or_false] at hf
      subst hf
      intro l hl
      left
      by_cases h4 : v = .v4_0
      · have : l.identifier = q! "ADR" := (List.mem_append.1 hl).elim ((a4 h4).2.2.2 l) ((b4 h4).2.2.2 l)
        rw [this, h4]; decide +kernel
      · have : l.identifier = q! "ADR" ∨ l.identifier = q! "LABEL" := (List.mem_append.1 hl).elim (names_adr E v c l) (names_adr E v c' l)
        simp only [propertiesFor, if_neg h4]
        simpa using this
  · refine beside_step h P hP [.birthday] (fun hs => ?_) fun hf => ?_
    · obtain ⟨e0, e0'⟩ := hs .birthday (by simp)
      simp only [bdayLines, e0, e0']
    · apply written_named (named_bday v c) (named_bday v c')
      intro hne
      simp only [List.mem_cons, List.not_mem_nil, or_false] at hf
      subst hf; cases v <;> decide +kernel
  · refine beside_step h P hP [.deathDate] (fun hs => ?_) fun hf => ?_
    · have e0 := hs (.deathDate) (by simp)
      simp only [SameIn] at e0
      simp only [deathLines, e0]
    · apply written_named (named_death v c) (named_death v c')
      intro hne
      simp only [List.mem_cons, List.not_mem_nil, or_false] at hf
      (try rcases hf with rfl | rfl) <;> (try subst hf) <;> cases v <;> first | decide +kernel | (rw [(a1 (by decide)).1, (b1 (by decide)).1] at hne; exact absurd rfl hne)
  · refine beside_step h P hP [.categories] (fun hs => ?_) fun hf => ?_
    · have e0 := hs (.categories) (by simp)
      simp only [SameIn] at e0
      simp only [categoryLines, e0]
    · apply written_named (named_category v c) (named_category v c')
      intro hne
      simp only [List.mem_cons, List.not_mem_nil, or_false] at hf
      (try rcases hf with rfl | rfl) <;> (try subst hf) <;> cases v <;> first | decide +kernel | (rw [(a2 rfl).1, (b2 rfl).1] at hne; exact absurd rfl hne)
  · refine beside_step h P hP [.kind, .members] (fun hs => ?_) fun hf => ?_
    · have e0 := hs (.kind) (by simp)
      have e1 := hs (.members) (by simp)
      simp only [SameIn] at e0 e1
      simp only [memberLines, e0, e1]
    · apply written_named (named_member v c) (named_member v c')
      intro hne
      simp only [List.mem_cons, List.not_mem_nil, or_false] at hf
      (try rcases hf with rfl | rfl) <;> (try subst hf) <;> cases v <;> first | decide +kernel | (rw [(a1 (by decide)).2.1, (b1 (by decide)).2.1] at hne; exact absurd rfl hne)
  · refine beside_step h P hP [.sources] (fun hs => ?_) fun hf => ?_
    · have e0 := hs (.sources) (by simp)
      simp only [SameIn] at e0
      simp only [sourceLines, e0]
    · apply written_named (named_source c) (named_source c')
      intro hne
      simp only [List.mem_cons, List.not_mem_nil, or_false] at hf
      subst hf; cases v <;> decide +kernel
  · refine beside_step h P hP [.relationships] (fun hs => ?_) fun hf => ?_
    · have e0 := hs (.relationships) (by simp)
      simp only [SameIn] at e0
      simp only [relatedLines, e0]
    · apply written_named (named_related c) (named_related c')
      intro hne
      simp only [List.mem_cons, List.not_mem_nil, or_false] at hf
      subst hf; cases v <;> decide +kernel
  · refine beside_step h P hP [.secrecy] (fun hs => ?_) fun hf => ?_
    · have e0 := hs (.secrecy) (by simp)
      simp only [SameIn] at e0
      simp only [classLines, e0]
    · apply written_named (named_class v c) (named_class v c')
      intro hne
      simp only [List.mem_cons, List.not_mem_nil, or_false] at hf
      (try rcases hf with rfl | rfl) <;> (try subst hf) <;> cases v <;> first | decide +kernel | (rw [(a3 (by decide)).1, (b3 (by decide)).1] at hne; exact absurd rfl hne)
  · refine beside_step h P hP [.langs] (fun hs => ?_) fun hf => ?_
    · have e0 := hs (.langs) (by simp)
      simp only [SameIn] at e0
      simp only [langLines, e0]
    · apply written_named (named_lang v c) (named_lang v c')
      intro hne
      simp only [List.mem_cons, List.not_mem_nil, or_false] at hf
      (try rcases hf with rfl | rfl) <;> (try subst hf) <;> cases v <;> first | decide +kernel | (rw [(a1 (by decide)).2.2.1, (b1 (by decide)).2.2.1] at hne; exact absurd rfl hne)
  · refine beside_step h P hP [.clientPidMaps] (fun hs => ?_) fun hf => ?_
    · have e0 := hs (.clientPidMaps) (by simp)
      simp only [SameIn] at e0
      simp only [pidLines, e0]
    · apply written_named (named_pid v c) (named_pid v c')
      intro hne
      simp only [List.mem_cons, List.not_mem_nil, or_false] at hf
      (try rcases hf with rfl | rfl) <;> (try subst hf) <;> cases v <;> first | decide +kernel | (rw [(a1 (by decide)).2.2.2.1, (b1 (by decide)).2.2.2.1] at hne; exact absurd rfl hne)
  · refine beside_step h P hP [.emails] (fun hs => ?_) fun hf => ?_
    · have e0 := hs (.emails) (by simp)
      simp only [SameIn] at e0
      simp only [emailLines, e0]
    · apply written_named (named_email v c) (named_email v c')
      intro hne
      simp only [List.mem_cons, List.not_mem_nil, or_false] at hf
      subst hf; cases v <;> decide +kernel
  · refine beside_step h P hP [.formattedName] (fun hs => ?_) fun hf => ?_
    · have e0 := hs (.formattedName) (by simp)
      simp only [SameIn] at e0
      simp only [fnLines, e0]
    · apply written_named (named_fn v c) (named_fn v c')
      intro hne
      simp only [List.mem_cons, List.not_mem_nil, or_false] at hf
      subst hf; cases v <;> decide +kernel
  · refine beside_step h P hP [.geo] (fun hs => ?_) fun hf => ?_
    · have e0 := hs (.geo) (by simp)
      simp only [SameIn] at e0
      simp only [geoLines, e0]
    · apply written_named (named_geo E v c) (named_geo E v c')
      intro hne
      simp only [List.mem_cons, List.not_mem_nil, or_false] at hf
      subst hf; cases v <;> decide +kernel
  · refine beside_step h P hP [.keys] (fun hs => ?_) fun hf => ?_
    · have e0 := hs (.keys) (by simp)
      simp only [SameIn] at e0
      simp only [keyLines, e0]
    · apply written_named (named_key v c) (named_key v c')
      intro hne
      simp only [List.mem_cons, List.not_mem_nil, or_false] at hf
      subst hf; cases v <;> decide +kernel
  · refine beside_step h P hP [.logo, .extraLogos] (fun hs => ?_) fun hf => ?_
    · have e0 := hs (.logo) (by simp)
      have e1 := hs (.extraLogos) (by simp)
      simp only [SameIn] at e0 e1
      simp only [logoLines, pictureLines, e0, e1]
    · have hn : ∀ l ∈ logoLines E v c ++ logoLines E v c', l.identifier = q! "LOGO" ∨ (v = .v4_0 ∧ q! "LOGO" ++ q! ":data:image/" <+: l.identifier) := by
        intro l hl
        exact (List.mem_append.1 hl).elim (picture_names E v _ _ _ l) (picture_names E v _ _ _ l)
      simp only [List.mem_cons, List.not_mem_nil, or_false] at hf
      intro l hl
      rcases hn l hl with e | e
      · left; rw [e]; rcases hf with rfl | rfl <;> exact List.mem_singleton.2 rfl
      · right; rcases hf with rfl | rfl <;> exact e
  · refine beside_step h P hP [.mailer] (fun hs => ?_) fun hf => ?_
    · have e0 := hs (.mailer) (by simp)
      simp only [SameIn] at e0
      simp only [mailerLines, e0]
    · apply written_named (named_mailer v c) (named_mailer v c')
      intro hne
      simp only [List.mem_cons, List.not_mem_nil, or_false] at hf
      (try rcases hf with rfl | rfl) <;> (try subst hf) <;> cases v <;> first | decide +kernel | (rw [(a4 rfl).1, (b4 rfl).1] at hne; exact absurd rfl hne)
  · by_cases h4 : v = .v4_0
    · refine beside_step h P hP [.familyName, .givenName, .additionalName, .prefix_, .suffix, .sortString] (fun hs => ?_) fun hf => ?_
      · have e0 := hs (.familyName) (by simp)
        have e1 := hs (.givenName) (by simp)
        have e2 := hs (.additionalName) (by simp)
        have e3 := hs (.prefix_) (by simp)
        have e4 := hs (.suffix) (by simp)
        have e5 := hs (.sortString) (by simp)
        simp only [SameIn] at e0 e1 e2 e3 e4 e5
        simp only [nLines, e0, e1, e2, e3, e4, e5]
      · apply written_named (named_n v c) (named_n v c')
        intro hne
        subst h4
        simp only [List.mem_cons, List.not_mem_nil, or_false] at hf
        rcases hf with rfl | rfl | rfl | rfl | rfl | rfl <;> decide +kernel
    · refine beside_step h P hP [.familyName, .givenName, .additionalName, .prefix_, .suffix] (fun hs => ?_) fun hf => ?_
      · have e0 := hs (.familyName) (by simp)
        have e1 := hs (.givenName) (by simp)
        have e2 := hs (.additionalName) (by simp)
        have e3 := hs (.prefix_) (by simp)
        have e4 := hs (.suffix) (by simp)
        simp only [SameIn] at e0 e1 e2 e3 e4
        simp only [nLines, e0, e1, e2, e3, e4, h4, decide_false, Bool.false_and, Bool.false_eq_true, if_false]
      · apply written_named (named_n v c) (named_n v c')
        intro hne
        simp only [List.mem_cons, List.not_mem_nil, or_false] at hf
        rcases hf with rfl | rfl | rfl | rfl | rfl <;> cases v <;> decide +kernel
  · refine beside_step h P hP [.name] (fun hs => ?_) fun hf => ?_
    · have e0 := hs (.name) (by simp)
      simp only [SameIn] at e0
      simp only [nameLines, e0]
    · apply written_named (named_name v c) (named_name v c')
      intro hne
      simp only [List.mem_cons, List.not_mem_nil, or_false] at hf
      (try rcases hf with rfl | rfl) <;> (try subst hf) <;> cases v <;> first | decide +kernel | (rw [(a4 rfl).2.1, (b4 rfl).2.1] at hne; exact absurd rfl hne)
  · refine beside_step h P hP [.text .nickName] (fun hs => ?_) fun hf => ?_
    · have e0 := hs (.text .nickName) (by simp)
      simp only [SameIn] at e0
      simp only [nickLines, e0]
    · apply written_named (named_nick v c) (named_nick v c')
      intro hne
      simp only [List.mem_cons, List.not_mem_nil, or_false] at hf
      (try rcases hf with rfl | rfl) <;> (try subst hf) <;> cases v <;> first | decide +kernel | (rw [(a2 rfl).2.1, (b2 rfl).2.1] at hne; exact absurd rfl hne)
  · refine beside_step h P hP [.note] (fun hs => ?_) fun hf => ?_
    · have e0 := hs (.note) (by simp)
      simp only [SameIn] at e0
      simp only [noteLines, e0]
    · apply written_named (named_note v c) (named_note v c')
      intro hne
      simp only [List.mem_cons, List.not_mem_nil, or_false] at hf
      subst hf; cases v <;> decide +kernel
  · refine beside_step h P hP [.department, .text .organization] (fun hs => ?_) fun hf => ?_
    · have e0 := hs (.department) (by simp)
      have e1 := hs (.text .organization) (by simp)
      simp only [SameIn] at e0 e1
      simp only [orgLines, e0, e1]
    · apply written_named (named_org v c) (named_org v c')
      intro hne
      simp only [List.mem_cons, List.not_mem_nil, or_false] at hf
      rcases hf with rfl | rfl <;> cases v <;> decide +kernel
  · refine beside_step h P hP [.photo, .extraPhotos] (fun hs => ?_) fun hf => ?_
    · have e0 := hs (.photo) (by simp)
      have e1 := hs (.extraPhotos) (by simp)
      simp only [SameIn] at e0 e1
      simp only [photoLines, pictureLines, e0, e1]
    · have hn : ∀ l ∈ photoLines E v c ++ photoLines E v c', l.identifier = q! "PHOTO" ∨ (v = .v4_0 ∧ q! "PHOTO" ++ q! ":data:image/" <+: l.identifier) := by
        intro l hl
        exact (List.mem_append.1 hl).elim (picture_names E v _ _ _ l) (picture_names E v _ _ _ l)
      simp only [List.mem_cons, List.not_mem_nil, or_false] at hf
      intro l hl
      rcases hn l hl with e | e
      · left; rw [e]; rcases hf with rfl | rfl <;> exact List.mem_singleton.2 rfl
      · right; rcases hf with rfl | rfl <;> exact e
  · refine beside_step h P hP [.productId] (fun hs => ?_) fun hf => ?_
    · have e0 := hs (.productId) (by simp)
      simp only [SameIn] at e0
      simp only [prodidLines, e0]
    · apply written_named (named_prodid v c) (named_prodid v c')
      intro hne
      simp only [List.mem_cons, List.not_mem_nil, or_false] at hf
      (try rcases hf with rfl | rfl) <;> (try subst hf) <;> cases v <;> first | decide +kernel | (rw [(a2 rfl).2.2, (b2 rfl).2.2] at hne; exact absurd rfl hne)
  · refine beside_step h P hP [.revision] (fun hs => ?_) fun hf => ?_
    · have e0 := hs (.revision) (by simp)
      simp only [SameIn] at e0
      simp only [revLines, e0]
    · apply written_named (named_rev v c) (named_rev v c')
      intro hne
      simp only [List.mem_cons, List.not_mem_nil, or_false] at hf
      subst hf; cases v <;> decide +kernel
  · refine beside_step h P hP [.text .role] (fun hs => ?_) fun hf => ?_
    · have e0 := hs (.text .role) (by simp)
      simp only [SameIn] at e0
      simp only [roleLines, e0]
    · apply written_named (named_role v c) (named_role v c')
      intro hne
      simp only [List.mem_cons, List.not_mem_nil, or_false] at hf
      subst hf; cases v <;> decide +kernel
  · refine beside_step h P hP [.sortString] (fun hs => ?_) fun hf => ?_
    · have e0 := hs (.sortString) (by simp)
      simp only [SameIn] at e0
      simp only [sortLines, e0]
    · apply written_named (named_sort v c) (named_sort v c')
      intro hne
      simp only [List.mem_cons, List.not_mem_nil, or_false] at hf
      (try rcases hf with rfl | rfl) <;> (try subst hf) <;> cases v <;> first | decide +kernel | (rw [(a3 (by decide)).2, (b3 (by decide)).2] at hne; exact absurd rfl hne)
  · refine beside_step h P hP [.sound, .extraSounds] (fun hs => ?_) fun hf => ?_
    · have e0 := hs (.sound) (by simp)
      have e1 := hs (.extraSounds) (by simp)
      simp only [SameIn] at e0 e1
      simp only [soundLines, e0, e1]
    · apply written_named (named_sound v c) (named_sound v c')
      intro hne
      simp only [List.mem_cons, List.not_mem_nil, or_false] at hf
      (try rcases hf with rfl | rfl) <;> (try subst hf) <;> cases v <;> first | decide +kernel | (rw [(a4 rfl).2.2.1, (b4 rfl).2.2.1] at hne; exact absurd rfl hne)
  · refine beside_step h P hP [.phoneNumbers] (fun hs => ?_) fun hf => ?_
    · have e0 := hs (.phoneNumbers) (by simp)
      simp only [SameIn] at e0
      simp only [telLines, e0]
    · apply written_named (named_tel v c) (named_tel v c')
      intro hne
      simp only [List.mem_cons, List.not_mem_nil, or_false] at hf
      subst hf; cases v <;> decide +kernel
  · refine beside_step h P hP [.text .title] (fun hs => ?_) fun hf => ?_
    · have e0 := hs (.text .title) (by simp)
      simp only [SameIn] at e0
      simp only [titleLines, e0]
    · apply written_named (named_title v c) (named_title v c')
      intro hne
      simp only [List.mem_cons, List.not_mem_nil, or_false] at hf
      subst hf; cases v <;> decide +kernel
  · refine beside_step h P hP [.timeZone] (fun hs => ?_) fun hf => ?_
    · have e0 := hs (.timeZone) (by simp)
      simp only [SameIn] at e0
      simp only [tzLines, e0]
    · apply written_named (named_tz c) (named_tz c')
      intro hne
      simp only [List.mem_cons, List.not_mem_nil, or_false] at hf
      subst hf; cases v <;> decide +kernel
  · refine beside_step h P hP [.uid] (fun hs => ?_) fun hf => ?_
    · have e0 := hs (.uid) (by simp)
      simp only [SameIn] at e0
      simp only [uidLines, e0]
    · apply written_named (named_uid c) (named_uid c')
      intro hne
      simp only [List.mem_cons, List.not_mem_nil, or_false] at hf
      subst hf; cases v <;> decide +kernel
  · refine beside_step h P hP [.extraUrls] (fun hs => ?_) fun hf => ?_
    · have e0 := hs (.extraUrls) (by simp)
      simp only [SameIn] at e0
      simp only [urlLines, e0]
    · apply written_named (named_url c) (named_url c')
      intro hne
      simp only [List.mem_cons, List.not_mem_nil, or_false] at hf
      subst hf; cases v <;> decide +kernel
  · refine beside_step h P hP [.gender] (fun hs => ?_) fun hf => ?_
    · have e0 := hs (.gender) (by simp)
      simp only [SameIn] at e0
      simp only [genderLines, e0]
    · apply written_named (named_gender v c) (named_gender v c')
      intro hne
      simp only [List.mem_cons, List.not_mem_nil, or_false] at hf
      (try rcases hf with rfl | rfl) <;> (try subst hf) <;> cases v <;> first | decide +kernel | (rw [(a1 (by decide)).2.2.2.2.1, (b1 (by decide)).2.2.2.2.1] at hne; exact absurd rfl hne)
  · refine beside_step h P hP [.kind] (fun hs => ?_) fun hf => ?_
    · have e0 := hs (.kind) (by simp)
      simp only [SameIn] at e0
      simp only [kindLines, e0]
    · apply written_named (named_kind v c) (named_kind v c')
      intro hne
      simp only [List.mem_cons, List.not_mem_nil, or_false] at hf
      (try rcases hf with rfl | rfl) <;> (try subst hf) <;> cases v <;> first | decide +kernel | (rw [(a1 (by decide)).2.2.2.2.2.1, (b1 (by decide)).2.2.2.2.2.1] at hne; exact absurd rfl hne)
  · refine beside_step h P hP [.calendarUrls] (fun hs => ?_) fun hf => ?_
    · have e0 := hs (.calendarUrls) (by simp)
      simp only [SameIn] at e0
      simp only [calendarLines, e0]
    · simp only [List.mem_cons, List.not_mem_nil, or_false] at hf
      subst hf
      intro l hl
      left
      by_cases h4 : v = .v4_0
      · simp only [propertiesFor, if_pos h4]
        exact (List.mem_append.1 hl).elim (names_calendar E v c l) (names_calendar E v c' l)
      · rw [(a1 h4).2.2.2.2.2.2, (b1 h4).2.2.2.2.2.2] at hl; cases hl
  · refine beside_step h P hP [.fieldGroups] (fun hs => ?_) fun hf => ?_
    · have e0 := hs (.fieldGroups) (by simp)
      simp only [SameIn] at e0
      simp only [groupLines, e0]
    · simp only [List.mem_cons, List.not_mem_nil, or_false] at hf
      subst hf
      intro l hl
      right
      rcases List.mem_append.1 hl with hl | hl <;> obtain ⟨g, hg, rfl⟩ := List.mem_map.1 hl <;> exact ⟨g, by simp [hg], id_adds _ _⟩
  · refine beside_step h P hP [.impps] (fun hs => ?_) fun hf => ?_
    · have e0 := hs (.impps) (by simp)
      simp only [SameIn] at e0
      simp only [imppLines, e0]
    · apply written_named (named_impp c) (named_impp c')
      intro hne
      simp only [List.mem_cons, List.not_mem_nil, or_false] at hf
      subst hf; cases v <;> decide +kernel
  · refine beside_step h P hP [.customs] (fun hs => ?_) fun hf => ?_
    · have e0 := hs (.customs) (by simp)
      simp only [SameIn] at e0
      simp only [customLines, Contact.customsList, e0]
    · simp only [List.mem_cons, List.not_mem_nil, or_false] at hf
      subst hf
      intro l hl
      have : q! "X-" <+: l.identifier ∨ (v = .v4_0 ∧ (l.identifier = q! "ANNIVERSARY" ∨ l.identifier = q! "RELATED")) :=
        (List.mem_append.1 hl).elim (custom_names E v ex c l) (custom_names E v ex c' l)
      rcases this with e | ⟨h4, e⟩
      · exact Or.inr e
      · left
        simp only [propertiesFor, if_pos h4]
        simpa using e
  · exact .nil

/-- Names in order: those before `n`, `n`, those after. -/
theorem sorted_split (n : QString) (ks : List QString) (h : ks.Pairwise fun a b => qlt a b = true) :
    ks = ks.filter (fun k => qlt k n) ++ (ks.filter (fun k => decide (k = n)) ++ ks.filter fun k => qlt n k) := by
  induction ks with
  | nil => rfl
  | cons k ks ih =>
    rw [List.pairwise_cons] at h
    have ih := ih h.2
    rw [List.filter_cons, List.filter_cons, List.filter_cons]
    cases h1 : qlt k n with
    | true =>
      have h2 : qlt n k = false := qlt_asymm h1
      have h3 : k ≠ n := by rintro rfl; rw [qlt_irrefl] at h1; cases h1
      simp only [if_true, h2, h3, decide_false, Bool.false_eq_true, if_false, List.cons_append]
      exact congrArg _ ih
    | false =>
      have none_ : ks.filter (fun k => qlt k n) = [] := by
        rw [List.filter_eq_nil_iff]
        intro x hx hl
        have := qlt_trans (h.1 x hx) hl
        rw [h1] at this; cases this
      rw [none_, List.nil_append] at ih
      rw [none_, if_neg (by decide), List.nil_append]
      by_cases h3 : k = n
      · subst h3
        simp only [qlt_irrefl, decide_true, if_true, Bool.false_eq_true, if_false, List.nil_append, List.cons_append]
        exact congrArg _ ih
      · have h2 : qlt n k = true := qlt_total h1 h3
        have none' : ks.filter (fun k => decide (k = n)) = [] := by
          rw [List.filter_eq_nil_iff]
          intro x hx hl
          rw [decide_eq_true_eq] at hl
          subst hl
          rw [h.1 x hx] at h1; cases h1
        rw [none', List.nil_append] at ih
        rw [none']
        simp only [h3, h2, decide_false, if_true, Bool.false_eq_true, if_false, List.nil_append]
        exact congrArg _ ih

theorem text_named_filter (E : Codecs) (P : QString → Bool) (L : List VCardLine) (id : QString) (h : P id = true) :
    L.flatMap (textNamed E id) = (L.filter fun l => P l.identifier).flatMap (textNamed E id) := by
  rw [flat_dropped L (fun l => P l.identifier) (textNamed E id)]
  intro l _ hl
  unfold textNamed
  rw [if_neg]
  rintro rfl
  rw [h] at hl; cases hl

theorem text_named_nil (E : Codecs) (L : List VCardLine) (n : QString) (hn : L.flatMap (textNamed E n) ≠ []) : ∃ l ∈ L, l.identifier = n := by
  apply Classical.byContradiction
  intro hno
  apply hn
  rw [List.flatMap_eq_nil_iff]
  intro l hl
  unfold textNamed
  rw [if_neg]
  exact fun e => hno ⟨l, hl, e⟩

/-- Cards whose lines differ in one name only: the text differs in one place. -/
theorem one_name_text (E : Codecs) (n : QString) (hn : n ≠ q! "VERSION") (L L' : List VCardLine)
    (hV : ∃ l ∈ L, l.identifier = q! "VERSION") (hV' : ∃ l ∈ L', l.identifier = q! "VERSION")
    (h : ∀ id, id ≠ n → L.flatMap (textNamed E id) = L'.flatMap (textNamed E id)) :
    ∃ before after, writeCard E (cardAfter L) = before ++ L.flatMap (textNamed E n) ++ after ∧ writeCard E (cardAfter L') = before ++ L'.flatMap (textNamed E n) ++ after := by
  have gen : ∀ L : List VCardLine, (∃ l ∈ L, l.identifier = q! "VERSION") → ∃ ks : List QString, ks.Pairwise (fun a b => qlt a b = true) ∧
      (∀ k, k ∈ ks ↔ k ≠ q! "VERSION" ∧ L.flatMap (textNamed E k) ≠ []) ∧
      writeCard E (cardAfter L) = b! "BEGIN:VCARD\r\n" ++ L.flatMap (textNamed E (q! "VERSION")) ++ (ks.filter fun k => qlt k n).flatMap (fun k => L.flatMap (textNamed E k)) ++
        L.flatMap (textNamed E n) ++ ((ks.filter fun k => qlt n k).flatMap (fun k => L.flatMap (textNamed E k)) ++ b! "END:VCARD\r\n" ++ b! "\r\n") := by
    intro L hV
    obtain ⟨ks, s, m, t⟩ := order_text L (fun k => L.flatMap (textNamed E k)) hV
    have m' : ∀ k, k ∈ ks ↔ k ≠ q! "VERSION" ∧ L.flatMap (textNamed E k) ≠ [] := by
      intro k
      rw [m]
      exact ⟨fun x => ⟨x.1, x.2.2⟩, fun x => ⟨x.1, text_named_nil E L k x.2, x.2⟩⟩
    refine ⟨ks, s, m', ?_⟩
    unfold writeCard
    rw [show (fun id => ((cardAfter L).lines id).flatMap (writeLine E)) = fun k => L.flatMap (textNamed E k) from funext fun k => lines_text E L k, t]
    have hmid : (ks.filter fun k => decide (k = n)).flatMap (fun k => L.flatMap (textNamed E k)) = L.flatMap (textNamed E n) := by
      by_cases hk : n ∈ ks
      · have : ks.filter (fun k => decide (k = n)) = [n] := by
          apply SMap.sorted_ext (s.filter _) (by simp)
          intro k
          rw [List.mem_filter, List.mem_singleton, decide_eq_true_eq]
          exact ⟨fun x => x.2, fun x => ⟨x ▸ hk, x⟩⟩
        rw [this]; simp
      · have h1 : L.flatMap (textNamed E n) = [] := by
          apply Classical.byContradiction
          exact fun x => hk ((m' n).2 ⟨hn, x⟩)
        rw [h1, List.flatMap_eq_nil_iff]
        intro k hk
        rw [List.mem_filter, decide_eq_true_eq] at hk
        rw [hk.2, h1]
    conv => lhs; rw [sorted_split n ks s, List.flatMap_append, List.flatMap_append, hmid]
    simp only [List.append_assoc]
  obtain ⟨ks, s, m, t⟩ := gen L hV
  obtain ⟨ks', s', m', t'⟩ := gen L' hV'
  have hk : ∀ P : QString → Bool, (∀ k, P k = true → k ≠ n) → ks.filter P = ks'.filter P ∧
      (ks.filter P).flatMap (fun k => L.flatMap (textNamed E k)) = (ks.filter P).flatMap fun k => L'.flatMap (textNamed E k) := by
    intro P hP
    constructor
    · apply SMap.sorted_ext (s.filter _) (s'.filter _)
      intro k
      rw [List.mem_filter, List.mem_filter, m, m']
      constructor
      · rintro ⟨x, y⟩; rw [h k (hP k y)] at x; exact ⟨x, y⟩
      · rintro ⟨x, y⟩; rw [← h k (hP k y)] at x; exact ⟨x, y⟩
    · have : ∀ l : List QString, (∀ k ∈ l, P k = true) → l.flatMap (fun k => L.flatMap (textNamed E k)) = l.flatMap fun k => L'.flatMap (textNamed E k) := by
        intro l hl
        induction l with
        | nil => rfl
        | cons k l ih => rw [List.flatMap_cons, List.flatMap_cons, ih fun x hx => hl x (by simp [hx]), h k (hP k (hl k (by simp)))]
      exact this _ fun k hk => (List.mem_filter.1 hk).2
  have irr : ∀ k, qlt k n = true → k ≠ n := by rintro k x rfl; rw [qlt_irrefl] at x; cases x
  have irr' : ∀ k, qlt n k = true → k ≠ n := by rintro k x rfl; rw [qlt_irrefl] at x; cases x
  refine ⟨_, _, t, ?_⟩
  rw [t', ← (hk _ irr).1, ← (hk _ irr').1, (hk _ irr).2, (hk _ irr').2, h _ hn.symm]

/-- The lines of two contacts that differ in one field: those not of the field are the same. -/
theorem other_lines (E : ToolEnv) (v : Version) (ex : Bool) (c c' : Contact) (f : Field) (h : ∀ g, g ≠ f → SameIn c c' g) (P : QString → Bool)
    (hP : ∀ n, P n = false ↔ WrittenAs v c c' f n) :
    (contactLines E v ex c).filter (fun l => P l.identifier) = (contactLines E v ex c').filter fun l => P l.identifier :=
  beside_filter (sections_beside E v ex c c' f h P hP)

/-! ### Theorems -/

/-- **C94.** Two contacts that agree in all fields but one are written as texts whose lines are the same, in the same order, except for the lines of that
    field's own property. -/
theorem C94 (E : ToolEnv) (v : Version) (ex : Bool) (c c' : Contact) (f : Field) (h : ∀ g, g ≠ f → SameIn c c' g) :
    ∃ lines lines' : List VCardLine,
      createContacts E v ex [c] = b! "BEGIN:VCARD\r\n" ++ lines.flatMap (writeLine E.toCodecs) ++ b! "END:VCARD\r\n\r\n" ∧
      createContacts E v ex [c'] = b! "BEGIN:VCARD\r\n" ++ lines'.flatMap (writeLine E.toCodecs) ++ b! "END:VCARD\r\n\r\n" ∧
      ∀ other : QString → Bool, (∀ name, other name = true ↔ ¬ WrittenAs v c c' f name) →
        lines.filter (fun l => other l.identifier) = lines'.filter fun l => other l.identifier := by
  refine ⟨_, _, orderedLines_text E v ex c, orderedLines_text E v ex c', ?_⟩
  intro P hP
  have hP' : ∀ n, P n = false ↔ WrittenAs v c c' f n := by
    intro n
    have := hP n
    cases hp : P n <;> simp [hp] at this <;> simp [this]
  exact orderedLines_filter P _ _ (version_line E v ex c) (version_line E v ex c') (other_lines E v ex c c' f h P hP')

/-- A field with one property: the text changes in one piece, which holds the lines of that property and nothing else; the bytes before and after it are the
    same. -/
theorem C94_piece (E : ToolEnv) (v : Version) (ex : Bool) (c c' : Contact) (f : Field) (name : QString) (h : ∀ g, g ≠ f → SameIn c c' g)
    (hf : propertiesFor v f = [name]) (hx : ∀ m, WrittenAs v c c' f m → m = name) :
    ∃ before after, ∃ lines lines' : List VCardLine, (∀ l ∈ lines ++ lines', l.identifier = name) ∧
      createContacts E v ex [c] = before ++ lines.flatMap (writeLine E.toCodecs) ++ after ∧
      createContacts E v ex [c'] = before ++ lines'.flatMap (writeLine E.toCodecs) ++ after := by
  have hn : name ≠ q! "VERSION" := by
    have : ∀ f n, n ∈ propertiesFor v f → n ≠ q! "VERSION" := by
      intro f n hn
      cases f with
      | text k => cases k <;> cases v <;> revert n <;> decide +kernel
      | _ => cases v <;> revert n <;> decide +kernel
    exact this f name (by rw [hf]; simp)
  have hP : ∀ n, (fun k => decide (k ≠ name)) n = false ↔ WrittenAs v c c' f n := by
    intro n
    simp only [ne_eq, decide_not, Bool.not_eq_false', decide_eq_true_eq]
    exact ⟨fun e => Or.inl (by rw [hf, e]; simp), hx n⟩
  have ho := other_lines E v ex c c' f h _ hP
  obtain ⟨before, after, t, t'⟩ := one_name_text E.toCodecs name hn (contactLines E v ex c) (contactLines E v ex c') (version_line E v ex c) (version_line E v ex c')
    (fun id hid => by
      rw [text_named_filter E.toCodecs (fun k => decide (k ≠ name)) _ id (by simpa using hid), ho,
        ← text_named_filter E.toCodecs (fun k => decide (k ≠ name)) _ id (by simpa using hid)])
  refine ⟨before, after, (contactLines E v ex c).filter (fun l => decide (l.identifier = name)), (contactLines E v ex c').filter (fun l => decide (l.identifier = name)), ?_, ?_, ?_⟩
  · intro l hl
    rcases List.mem_append.1 hl with x | x <;> simpa using (List.mem_filter.1 x).2
  all_goals
    rw [← C13_lines, lines_text]
    unfold createContacts createVCardText
    rw [List.map_cons, List.map_nil, List.flatMap_cons, List.flatMap_nil, List.append_nil]
  · exact t
  · exact t'

/-- A field that a version does not have: the texts are the same. -/
theorem C94_silent (E : ToolEnv) (v : Version) (ex : Bool) (c c' : Contact) (f : Field) (h : ∀ g, g ≠ f → SameIn c c' g)
    (hf : ∀ m, ¬ WrittenAs v c c' f m) : createContacts E v ex [c] = createContacts E v ex [c'] := by
  obtain ⟨l, l', t, t', e⟩ := C94 E v ex c c' f h
  have := e (fun _ => true) (fun m => by simpa using hf m)
  simp only [List.filter_true] at this
  rw [t, t', this]

/-- A call about a field leaves all lines of the exported vCard as they were, except those of that field's property. -/
theorem C94_call (E : ToolEnv) (v : Version) (ex : Bool) (c : Contact) (op : Op) :
    ∃ lines lines' : List VCardLine,
      createContacts E v ex [c] = b! "BEGIN:VCARD\r\n" ++ lines.flatMap (writeLine E.toCodecs) ++ b! "END:VCARD\r\n\r\n" ∧
      createContacts E v ex [c.apply E.toQtEnv op] = b! "BEGIN:VCARD\r\n" ++ lines'.flatMap (writeLine E.toCodecs) ++ b! "END:VCARD\r\n\r\n" ∧
      ∀ other : QString → Bool, (∀ name, other name = true ↔ ¬ WrittenAs v c (c.apply E.toQtEnv op) (fieldOf op) name) →
        lines.filter (fun l => other l.identifier) = lines'.filter fun l => other l.identifier :=
  C94 E v ex c (c.apply E.toQtEnv op) (fieldOf op) fun _ hg => sameIn_symm (apply_other E.toQtEnv c op hg)

/-- Contacts that agree in all fields but the titles; the titles are one property; their lines differ. -/
example : (∀ g, g ≠ .text .title → SameIn Sample.contact { Sample.contact with titles := [{ text := q! "Judge" }] } g) ∧
    propertiesFor .v4_0 (.text .title) = [q! "TITLE"] ∧
    (∀ m, WrittenAs .v4_0 Sample.contact { Sample.contact with titles := [{ text := q! "Judge" }] } (.text .title) m → m = q! "TITLE") ∧
    titleLines .v4_0 Sample.contact ≠ titleLines .v4_0 { Sample.contact with titles := [{ text := q! "Judge" }] } := by
  refine ⟨?_, rfl, ?_, by decide +kernel⟩
  · intro g hg
    cases g with
    | birthday => exact ⟨rfl, rfl⟩
    | text k => cases k <;> first | rfl | exact absurd rfl hg
    | _ => rfl
  · rintro m (h | h)
    · simpa [propertiesFor] using h
    · exact h.elim

/-- Every field but custom fields, field groups and pictures is written under the names of `propertiesFor` alone. -/
example (v : Version) (c c' : Contact) (f : Field) (h : f ∉ [.customs, .fieldGroups, .logo, .extraLogos, .photo, .extraPhotos]) (m : QString) :
    WrittenAs v c c' f m ↔ m ∈ propertiesFor v f := by
  constructor
  · rintro (x | x)
    · exact x
    · cases f <;> first | exact x.elim | exact absurd (by simp) h
  · exact Or.inl

/-- The classification of a contact is no part of a card of version 4.0. -/
example : (∀ g, g ≠ .secrecy → SameIn Sample.contact { Sample.contact with secrecy := .pub } g) ∧
    (∀ m, ¬ WrittenAs .v4_0 Sample.contact { Sample.contact with secrecy := .pub } .secrecy m) ∧ Sample.contact.secrecy ≠ .pub := by
  refine ⟨?_, ?_, by decide⟩
  · intro g hg
    cases g with
    | birthday => exact ⟨rfl, rfl⟩
    | text k => cases k <;> rfl
    | secrecy => exact absurd rfl hg
    | _ => rfl
  · rintro m (h | h)
    · cases h
    · exact h

end KC
