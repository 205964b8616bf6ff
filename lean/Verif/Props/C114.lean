import Verif.Lemmas.LineAgree
import Verif.Lemmas.Compute
import Verif.Spec.Sample
/- C114: every field of an imported contact comes from the properties about it alone. -/
namespace KC
namespace Spec

/-- The names (in small letters) of the properties a field is read from. Custom fields and messaging addresses are also read from own names ("x-…"),
    grouped properties from properties with a group (`WrittenProperty.About`). -/
def readFrom : Field → List (List UInt8)
  | .uid => [b! "uid"]
  | .name => [b! "name"]
  | .kind => [b! "kind"]
  | .formattedName => [b! "fn"]
  | .familyName | .givenName | .additionalName | .prefix_ | .suffix => [b! "n"]
  | .mailer => [b! "mailer"]
  | .department => [b! "org"]
  | .note => [b! "note"]
  | .productId => [b! "prodid"]
  | .sortString => [b! "sort-string"]
  | .secrecy => [b! "class"]
  | .gender => [b! "gender"]
  | .timeZone => [b! "tz"]
  | .geo => [b! "geo"]
  | .logo | .extraLogos => [b! "logo"]
  | .photo | .extraPhotos => [b! "photo"]
  | .sound | .extraSounds => [b! "sound"]
  | .revision => [b! "rev"]
  | .deathDate => [b! "deathdate"]
  | .extraUrls => [b! "url"]
  | .sources => [b! "source"]
  | .fieldGroups => []
  | .clientPidMaps => [b! "clientpidmap"]
  | .impps => [b! "impp"]
  | .calendarUrls => [b! "caluri", b! "caladruri", b! "fburl"]
  | .emails => [b! "email"]
  | .langs => [b! "lang"]
  | .phoneNumbers => [b! "tel"]
  | .keys => [b! "key"]
  | .addresses => [b! "adr", b! "label"]
  | .categories => [b! "categories"]
  | .members => [b! "member"]
  | .relationships => [b! "related"]
  | .customs => [b! "anniversary"]
  | .changed => []
  | .birthday => [b! "bday"]
  | .text .nickName => [b! "nickname"]
  | .text .title => [b! "title"]
  | .text .role => [b! "role"]
  | .text .organization => [b! "org"]

/-- The property has a group: there is a '.' before its name, and the character before that is not another '.'. -/
def WrittenProperty.Grouped (p : WrittenProperty) : Prop :=
  ((p.head.reverse.dropWhile (· ≠ c! '.')).drop 1).head? ∉ [none, some (c! '.')]

instance (p : WrittenProperty) : Decidable p.Grouped := by unfold WrittenProperty.Grouped; infer_instance

/-- A property is about a field. A property with a group, other than an address, is about the list of grouped properties only. Otherwise the field is
    read from properties of its name; or its name is one's own ("x-…"), for custom fields and messaging addresses; or it is a name or an
    organization that says how to sort the contact. -/
def WrittenProperty.About (f : Field) (p : WrittenProperty) : Prop :=
  if p.Grouped ∧ p.name.map lowerByte ≠ b! "adr" then f = .fieldGroups
  else p.name.map lowerByte ∈ readFrom f ∨
    ((p.name.map lowerByte).take 2 = b! "x-" ∧ (f = .customs ∨ f = .impps)) ∨
    ((p.name.map lowerByte = b! "n" ∨ p.name.map lowerByte = b! "org") ∧ b! "sort-as" <:+: p.unfolded.map lowerByte ∧ f = .sortString)

instance (f : Field) (p : WrittenProperty) : Decidable (p.About f) := by unfold WrittenProperty.About; infer_instance

end Spec
open Spec

/-! ### Proof -/

private theorem lower_dot : ∀ n : Fin 256, lowerByte (UInt8.ofNat n.val) = c! '.' → UInt8.ofNat n.val = c! '.' := by decide +kernel

private theorem name_noDot (p : WrittenProperty) : p.name.map lowerByte ≠ b! "." := by
  intro e
  have hmem : c! '.' ∈ p.name := by
    have : c! '.' ∈ p.name.map lowerByte := by rw [e]; decide
    obtain ⟨x, hx, hl⟩ := List.mem_map.1 this
    have := lower_dot ⟨x.toNat, x.toNat_lt⟩ (by simpa using hl)
    simp only [UInt8.ofNat_toNat] at this
    exact this ▸ hx
  unfold WrittenProperty.name at hmem
  split at hmem
  · have := List.all_takeWhile (p := fun x => decide (x ≠ c! '.')) (l := p.head.reverse)
    rw [List.all_eq_true] at this
    exact absurd (this _ (List.mem_reverse.1 hmem)) (by decide)
  · cases hmem

private theorem topics_about (f : Field) (p : WrittenProperty) (hf : f ≠ .changed) (hg : f ≠ .fieldGroups) (h : topicOf f ∈ p.topics) :
    p.name.map lowerByte ∈ readFrom f ∨
    ((p.name.map lowerByte).take 2 = b! "x-" ∧ (f = .customs ∨ f = .impps)) ∨
    ((p.name.map lowerByte = b! "n" ∨ p.name.map lowerByte = b! "org") ∧ b! "sort-as" <:+: p.unfolded.map lowerByte ∧ f = .sortString) := by
  unfold WrittenProperty.topics at h
  rcases List.mem_append.1 h with h | h
  · split at h
    · have e := List.mem_singleton.1 h
      exfalso
      revert e hg
      cases f with
      | text k => cases k <;> decide
      | _ => decide
    · cases h
  · have hs : ∀ b : Bool, decide (b! "sort-as" <:+: p.unfolded.map lowerByte) = b → b = true → b! "sort-as" <:+: p.unfolded.map lowerByte :=
      fun b e1 e2 => of_decide_eq_true (e1.trans e2)
    have hdot : p.name.map lowerByte ≠ b! "." := name_noDot p
    revert h hs hdot
    generalize decide (b! "sort-as" <:+: p.unfolded.map lowerByte) = s
    generalize p.name.map lowerByte = n
    intro h hs hdot
    unfold topicsOf at h
    split at h
    · rename_i e
      have := List.mem_singleton.1 h
      subst e
      left
      revert this
      cases f with
      | text k => cases k <;> decide
      | _ => decide
    · split at h
      · rename_i e
        have := List.mem_singleton.1 h
        left
        revert this
        rcases e with rfl | rfl
        all_goals
          cases f with
          | text k => cases k <;> decide
          | _ => decide
      · split at h
        · rename_i e
          right; left
          refine ⟨e, ?_⟩
          revert h
          cases f with
          | text k => cases k <;> decide
          | _ => decide
        · have last : topicOf f = n → n ∈ readFrom f := by
            intro e
            subst e
            revert hdot hf
            cases f with
            | text k => cases k <;> decide
            | _ => decide
          split at h
          · rename_i e
            rcases List.mem_cons.1 h with h | h
            · exact .inl (last h)
            · right; right
              refine ⟨e.1, hs s rfl e.2, ?_⟩
              have := List.mem_singleton.1 h
              revert this
              cases f with
              | text k => cases k <;> decide
              | _ => decide
          · exact .inl (last (List.mem_singleton.1 h))

/-- the group of a line: what stands before the last '.' and after the one before -/
private def lastGroup (g tok : QByteArray) : QByteArray → QByteArray
  | [] => g
  | c :: t => if c = c! '.' then lastGroup tok [] t else lastGroup g (tok ++ [c]) t

private theorem lastGroup_none (g tok n : QByteArray) (h : c! '.' ∉ n) : lastGroup g tok n = g := by
  induction n generalizing tok with
  | nil => rfl
  | cons c t ih =>
    rw [lastGroup, if_neg fun e => h (by simp [e])]
    exact ih _ fun hm => h (List.mem_cons_of_mem _ hm)

private theorem lastGroup_split (g tok a n : QByteArray) (h : c! '.' ∉ n) : lastGroup g tok (a ++ c! '.' :: n) = lastPart tok a := by
  induction a generalizing g tok with
  | nil => rw [List.nil_append, lastGroup, if_pos rfl, lastGroup_none _ _ _ h]; rfl
  | cons c t ih =>
    rw [List.cons_append, lastGroup, lastPart]
    split
    · exact ih _ _
    · exact ih _ _

private theorem scan_group (p : PL) (hp : p.st = .initial) (g : QByteArray) (hg : p.line.group = fromLatin1 g) (L : QByteArray) :
    (PL.scan p L).1.line.group = fromLatin1 (lastGroup g p.tok (L.takeWhile fun c => c ≠ c! ':' ∧ c ≠ c! ';')) := by
  induction L generalizing p g with
  | nil => exact hg
  | cons c t ih =>
    rw [PL.scan]
    by_cases h1 : c = c! ';'
    · subst h1
      have hst : p.step (c! ';') = { p with line := { p.line with identifier := fromLatin1 p.tok }, tok := [], st := .paramKey } := by
        simp [PL.step, hp]
      rw [hst, if_neg (by simp), (scan_id { p with line := { p.line with identifier := fromLatin1 p.tok }, tok := [], st := .paramKey } t (by simp)).2]
      simpa [lastGroup] using hg
    · by_cases h2 : c = c! ':'
      · subst h2
        have hst : p.step (c! ':') = { p with line := { p.line with identifier := fromLatin1 p.tok }, tok := [], st := .value } := by
          simp [PL.step, hp]
        rw [hst, if_pos rfl]
        simpa [lastGroup] using hg
      · rw [List.takeWhile_cons_of_pos (by simp [h1, h2]), lastGroup]
        by_cases h3 : c = c! '.'
        · subst h3
          have hst : p.step (c! '.') = { p with line := { p.line with group := fromLatin1 p.tok }, tok := [] } := by
            simp [PL.step, hp]
          rw [hst, if_neg (by simp [hp]), if_pos rfl]
          exact ih { p with line := { p.line with group := fromLatin1 p.tok }, tok := [] } hp p.tok rfl
        · have hst : p.step c = { p with tok := p.tok ++ [c] } := by
            simp [PL.step, hp, h1, h2, h3]
          rw [hst, if_neg (by simp [hp]), if_neg h3]
          exact ih { p with tok := p.tok ++ [c] } hp g hg

private theorem split_last (h : QByteArray) (hd : c! '.' ∈ h) : ∃ a n, h = a ++ c! '.' :: n ∧ c! '.' ∉ n ∧ (h.reverse.dropWhile (· ≠ c! '.')).drop 1 = a.reverse := by
  induction h using List.reverseRecOn with
  | nil => cases hd
  | append_singleton h x ih =>
    by_cases hx : x = c! '.'
    · subst hx
      exact ⟨h, [], rfl, by simp, by simp⟩
    · obtain ⟨a, n, h1, h2, h3⟩ := ih (by simpa [Ne.symm hx] using hd)
      refine ⟨a, n ++ [x], by simp [h1], by simp [h2, Ne.symm hx], ?_⟩
      rw [List.reverse_append, List.reverse_singleton, List.singleton_append, List.dropWhile_cons_of_pos (by simpa using hx)]
      exact h3

private theorem dropWhile_all {α : Type} (P : α → Bool) (l : List α) (h : ∀ x ∈ l, P x = true) : l.dropWhile P = [] := by
  induction l with
  | nil => rfl
  | cons x l ih => rw [List.dropWhile_cons_of_pos (h x (by simp)), ih fun y hy => h y (List.mem_cons_of_mem _ hy)]

private theorem lineOf_grouped (E : Codecs) (p : WrittenProperty) : (lineOf E p.unfolded).group ≠ [] ↔ p.Grouped := by
  rw [(lineOf_id E _).2, scan_group {} rfl [] rfl]
  show fromLatin1 (lastGroup [] [] p.head) ≠ [] ↔ _
  unfold WrittenProperty.Grouped
  have hl : ∀ x : QByteArray, fromLatin1 x ≠ [] ↔ x ≠ [] := by intro x; simp [fromLatin1]
  rw [hl]
  by_cases hd : c! '.' ∈ p.head
  · obtain ⟨a, n, h1, h2, h3⟩ := split_last p.head hd
    rw [h3, h1, lastGroup_split _ _ _ _ h2, lastPart_eq _ _ (by simp), List.nil_append]
    cases hr : a.reverse with
    | nil => simp
    | cons x t => by_cases hx : x = c! '.' <;> simp [hx]
  · rw [lastGroup_none _ _ _ hd]
    have : p.head.reverse.dropWhile (· ≠ c! '.') = [] := by
      refine dropWhile_all _ _ fun x hx => ?_
      simp only [ne_eq, decide_not, Bool.not_eq_true', decide_eq_false_iff_not]
      rintro rfl
      exact hd (List.mem_reverse.1 hx)
    rw [this]
    simp

private theorem lowerQ_low : ∀ n : Fin 256, lowerByte (UInt8.ofNat n.val) < 128 → lowerQ (UInt16.ofNat (UInt8.ofNat n.val).toNat) = UInt16.ofNat (lowerByte (UInt8.ofNat n.val)).toNat := by
  decide +kernel

private theorem toLowerQ_low (n k : List UInt8) (hk : ∀ c ∈ k, c < 128) (h : n.map lowerByte = k) : toLowerQ (fromLatin1 n) = fromLatin1 k := by
  subst h
  induction n with
  | nil => rfl
  | cons c n ih =>
    have := lowerQ_low ⟨c.toNat, c.toNat_lt⟩
    simp only [UInt8.ofNat_toNat] at this
    simp only [toLowerQ, fromLatin1, List.map_cons] at ih ⊢
    rw [this (hk _ (by simp)), ih fun x hx => hk x (by simp only [List.map_cons]; exact List.mem_cons_of_mem _ hx)]

theorem lines_about (E : Codecs) (f : Field) (p : WrittenProperty) (h : ∃ g ∈ withCompanion f, g ∈ lineFields (lineOf E p.unfolded)) : p.About f := by
  obtain ⟨g, hg, hgl⟩ := h
  have hc : g ≠ .changed := by
    rintro rfl
    unfold lineFields tagFields at hgl
    split at hgl <;> simp at hgl
    all_goals (revert hgl; split <;> simp)
  have hgf : g = f ∨ (readFrom g = readFrom f ∧ g ≠ .customs ∧ g ≠ .impps ∧ g ≠ .sortString ∧ g ≠ .fieldGroups) := by
    revert hg
    cases f with
    | extraLogos => simp only [withCompanion, List.mem_cons, List.not_mem_nil, or_false]; rintro (rfl | rfl) <;> decide
    | extraPhotos => simp only [withCompanion, List.mem_cons, List.not_mem_nil, or_false]; rintro (rfl | rfl) <;> decide
    | extraSounds => simp only [withCompanion, List.mem_cons, List.not_mem_nil, or_false]; rintro (rfl | rfl) <;> decide
    | _ => intro hg; exact .inl (List.mem_singleton.1 hg)
  unfold WrittenProperty.About
  have hadr : toLowerQ (lineOf E p.unfolded).identifier = q! "adr" ↔ p.name.map lowerByte = b! "adr" := by
    rw [lineOf_name]
    exact ⟨fun e => lower_latin1 _ _ (by decide) e, fun e => toLowerQ_low _ _ (by decide) e⟩
  by_cases hgr : p.Grouped ∧ p.name.map lowerByte ≠ b! "adr"
  · rw [if_pos hgr]
    have ht : tagOf (lineOf E p.unfolded) = .fieldGroup := by
      unfold tagOf
      simp only
      rw [if_pos]
      simp only [Bool.and_eq_true, decide_eq_true_eq]
      exact ⟨(lineOf_grouped E p).2 hgr.1, fun e => hgr.2 (hadr.1 e)⟩
    unfold lineFields at hgl
    rw [ht] at hgl
    have hgl := List.mem_singleton.1 hgl
    rcases hgf with e | ⟨_, _, _, _, h5⟩
    · exact e ▸ hgl
    · exact absurd hgl h5
  · rw [if_neg hgr]
    have hng : g ≠ .fieldGroups := by
      rintro rfl
      apply hgr
      have ht : tagOf (lineOf E p.unfolded) = .fieldGroup := by
        unfold lineFields at hgl
        generalize tagOf (lineOf E p.unfolded) = t at hgl
        cases t <;> first | rfl | (simp [tagFields] at hgl; done) | (simp [tagFields] at hgl; split at hgl <;> simp at hgl)
      unfold tagOf at ht
      simp only at ht
      split at ht
      · rename_i hh
        simp only [Bool.and_eq_true, decide_eq_true_eq] at hh
        exact ⟨(lineOf_grouped E p).1 hh.1, fun e => hh.2 (hadr.2 e)⟩
      · split at ht
        · rename_i q hq
          have : ∀ q ∈ tagTable, q.2 ≠ .fieldGroup := by decide
          exact absurd ht (this q (List.mem_of_find?_eq_some hq))
        · split at ht <;> cases ht
    have hga := topics_about g p hc hng (fields_topics E p g hgl)
    rcases hgf with rfl | ⟨h1, h2, h3, h4, h5⟩
    · exact hga
    · rcases hga with h | ⟨_, h | h⟩ | ⟨_, _, h⟩
      · exact .inl (h1 ▸ h)
      · exact absurd h h2
      · exact absurd h h3
      · exact absurd h h4

theorem filter_about (E : Codecs) (f : Field) (ps : List WrittenProperty) :
    ((ps.map fun p => lineOf E p.unfolded).filter fun l => decide (∃ g ∈ withCompanion f, g ∈ lineFields l)) =
      ((((ps.filter fun p => p.About f).map WrittenProperty.unfolded).map (lineOf E)).filter fun l => decide (∃ g ∈ withCompanion f, g ∈ lineFields l)) := by
  induction ps with
  | nil => rfl
  | cons p ps ih =>
    rw [List.map_cons, List.filter_cons, List.filter_cons]
    by_cases ha : p.About f
    · simp only [ha, decide_true, if_true, List.map_cons, List.filter_cons]
      rw [ih]
    · rw [if_neg (by simpa using fun g hg hgl => ha (lines_about E f p ⟨g, hg, hgl⟩)), if_neg (by simpa using ha)]
      exact ih

/-! ### The property -/

/-- **C114.** Two vCards with the same properties about a field - whatever else is in them, wherever it stands and however the lines are folded - give
    contacts with the same data in that field. -/
theorem C114 (E : ToolEnv) (ids : IdKind → Nat → QString) (ps qs : List WrittenProperty) (hp : ∀ p ∈ ps, p.Good) (hq : ∀ q ∈ qs, q.Good) :
    ∃ N, ∀ m ≥ N, ∀ cs ds, parseContacts E ids m (cardText ps) = .ok cs → parseContacts E ids m (cardText qs) = .ok ds →
      ∃ c d, cs = [c] ∧ ds = [d] ∧ ∀ f,
        ((ps.filter fun p => p.About f).map WrittenProperty.unfolded) = (qs.filter fun q => q.About f).map WrittenProperty.unfolded → SameIn c d f := by
  obtain ⟨n1, h1⟩ := cardText_cards E.toCodecs ps hp
  obtain ⟨n2, h2⟩ := cardText_cards E.toCodecs qs hq
  refine ⟨max n1 n2, fun m hm cs ds hc hd => ?_⟩
  unfold parseContacts at hc hd
  rw [h1 m (by omega)] at hc
  rw [h2 m (by omega)] at hd
  simp only [readCards] at hc hd
  have key := fun f h => cards_agree E ids f (ps.map fun p => lineOf E.toCodecs p.unfolded) (qs.map fun p => lineOf E.toCodecs p.unfolded)
    h { c := Contact.new (ids .contact 0), addresses := 0, phones := 0, keys := 0 }
  revert hc hd key
  generalize (readingOrder (cardAfter (ps.map fun p => lineOf E.toCodecs p.unfolded))).foldl (readLine E ids) _ = s
  generalize (readingOrder (cardAfter (qs.map fun p => lineOf E.toCodecs p.unfolded))).foldl (readLine E ids) _ = t
  intro hc hd key
  cases hs : s.ub <;> cases ht : t.ub <;> simp [hs, ht] at hc hd
  exact ⟨s.c, t.c, hc.symm, hd.symm, fun f h => (key f (by rw [filter_about, filter_about, h])).fields f (mem_withCompanion f)⟩

/-- **C114.** A field that no property is about is as in a new contact. -/
theorem C114_absent (E : ToolEnv) (ids : IdKind → Nat → QString) (ps : List WrittenProperty) (hp : ∀ p ∈ ps, p.Good) :
    ∃ N, ∀ m ≥ N, ∀ cs, parseContacts E ids m (cardText ps) = .ok cs →
      ∃ c, cs = [c] ∧ ∀ f, (∀ p ∈ ps, ¬ p.About f) → SameIn c (Contact.new (ids .contact 0)) f := by
  obtain ⟨n1, h1⟩ := C114 E ids ps [] hp (by simp)
  obtain ⟨n2, h2⟩ := cardText_cards E.toCodecs [] (by simp)
  refine ⟨max n1 n2, fun m hm cs hc => ?_⟩
  obtain ⟨c, d, e1, e2, e3⟩ := h1 m (by omega) cs [Contact.new (ids .contact 0)] hc (by
    unfold parseContacts
    rw [h2 m (by omega)]
    rfl)
  refine ⟨c, e1, fun f h => (List.singleton_inj.1 e2) ▸ e3 f ?_⟩
  rw [List.filter_eq_nil_iff.2 (by simpa using h)]
  rfl

/-- **C114.** A property put into a vCard, at whatever place, changes the fields it is about and no other. -/
theorem C114_added (E : ToolEnv) (ids : IdKind → Nat → QString) (a b : List WrittenProperty) (p : WrittenProperty) (hg : ∀ q ∈ a ++ p :: b, q.Good) :
    ∃ N, ∀ m ≥ N, ∀ cs ds, parseContacts E ids m (cardText (a ++ b)) = .ok cs → parseContacts E ids m (cardText (a ++ p :: b)) = .ok ds →
      ∃ c d, cs = [c] ∧ ds = [d] ∧ ∀ f, ¬ p.About f → SameIn c d f := by
  obtain ⟨N, h⟩ := C114 E ids (a ++ b) (a ++ p :: b) (fun q hq => hg q (by
    rcases List.mem_append.1 hq with h | h
    · exact List.mem_append.2 (.inl h)
    · exact List.mem_append.2 (.inr (List.mem_cons_of_mem _ h)))) hg
  refine ⟨N, fun m hm cs ds hc hd => ?_⟩
  obtain ⟨c, d, e1, e2, e3⟩ := h m hm cs ds hc hd
  refine ⟨c, d, e1, e2, fun f hf => e3 f ?_⟩
  rw [List.filter_append, List.filter_append, List.filter_cons_of_neg (by simpa using hf)]

/-! ### Instances -/

private def card (ls : List (List UInt8)) : List WrittenProperty := ls.map fun l => ⟨l, []⟩

/-- a card of another program, and the same with another name, more phone numbers, a custom field, in another order and with a folded line -/
private def before : List WrittenProperty := card [b! "VERSION:3.0", b! "FN:John Doe", b! "ADR:;;Main Street 1;Berlin;;;", b! "LABEL:Main Street 1", b! "TEL:1", b! "NOTE:at home"]
private def after : List WrittenProperty :=
  card [b! "TEL:2", b! "x-shop-Size:42", b! "FN:Jane Doe"] ++ [⟨b! "ADR:;;Main Stre", [b! " et 1;Berlin;;;"]⟩] ++ card [b! "LABEL:Main Street 1", b! "TEL:1", b! "item1.NOTE:abc", b! "NOTE:at home"]

private theorem both_good : ∀ p ∈ before ++ after, p.Good := by
  intro p hp
  simp only [before, after, card, List.map_cons, List.map_nil, List.cons_append, List.nil_append, List.mem_cons, List.not_mem_nil, or_false] at hp
  rcases hp with rfl | rfl | rfl | rfl | rfl | rfl | rfl | rfl | rfl | rfl | rfl | rfl | rfl | rfl <;>
    exact ⟨⟨_, _, rfl, by decide, by decide⟩, by decide, by decide, by decide, by decide, fun h => absurd h.2 (by decide)⟩

-- both are read, the addresses have the same source, the names have not
example : (∃ c, (∃ n, ∀ m ≥ n, parseContacts Sample.env Sample.ids m (cardText before) = .ok [c]) ∧ c.addresses.map (·.street) = [q! "Main Street 1"]) ∧
    (∃ c, (∃ n, ∀ m ≥ n, parseContacts Sample.env Sample.ids m (cardText after) = .ok [c]) ∧ c.addresses.map (·.street) = [q! "Main Street 1"]) ∧
    ((before.filter fun p => p.About .addresses).map WrittenProperty.unfolded) = ((after.filter fun p => p.About .addresses).map WrittenProperty.unfolded) ∧
    ((before.filter fun p => p.About .formattedName).map WrittenProperty.unfolded) ≠ ((after.filter fun p => p.About .formattedName).map WrittenProperty.unfolded) :=
  ⟨contactsIn_one _ (by decide +kernel), contactsIn_one _ (by decide +kernel), by decide +kernel, by decide +kernel⟩

example : ∃ N, ∀ m ≥ N, ∀ cs ds, parseContacts Sample.env Sample.ids m (cardText before) = .ok cs → parseContacts Sample.env Sample.ids m (cardText after) = .ok ds →
    ∃ c d, cs = [c] ∧ ds = [d] ∧ c.addresses = d.addresses ∧ c.birthday = d.birthday := by
  obtain ⟨N, h⟩ := C114 Sample.env Sample.ids before after (fun p hp => both_good p (List.mem_append_left _ hp)) fun p hp => both_good p (List.mem_append_right _ hp)
  refine ⟨N, fun m hm cs ds hc hd => ?_⟩
  obtain ⟨c, d, e1, e2, e3⟩ := h m hm cs ds hc hd
  exact ⟨c, d, e1, e2, e3 .addresses (by decide +kernel), (e3 .birthday (by decide +kernel)).1⟩

-- a phone number in a group is no phone number, an address in a group is one
example : ¬ (⟨b! "item1.TEL:1", []⟩ : WrittenProperty).About .phoneNumbers ∧ (⟨b! "item1.TEL:1", []⟩ : WrittenProperty).About .fieldGroups ∧
    (⟨b! "item1.ADR:;;Main Street 1", []⟩ : WrittenProperty).About .addresses ∧ (⟨b! ".TEL:1", []⟩ : WrittenProperty).About .phoneNumbers := by decide +kernel

-- nothing is about birthdays
example : ∀ p ∈ before, ¬ p.About .birthday := by decide +kernel

end KC
