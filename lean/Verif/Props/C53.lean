import Verif.Lemmas.Messaging
import Verif.Lemmas.Compute
import Verif.Model.Converter
/-
  C53: old messaging fields keep their meaning: exported under their standard name they are imported as addresses of the same service.
  Holds for every service but Gadu-Gadu.
-/
namespace KC
open Spec

/-- C53: normalising a service name twice is normalising it once. -/
theorem C53_idempotent (s : QString) : normalizeImppServiceType (normalizeImppServiceType s) = normalizeImppServiceType s := by
  unfold normalizeImppServiceType
  by_cases h1 : s = q! "jabber"
  · rw [if_pos h1]; decide
  · by_cases h2 : s = q! "yahoo"
    · rw [if_neg h1, if_pos h2]; decide
    · by_cases h3 : s = q! "gadugadu"
      · rw [if_neg h1, if_neg h2, if_pos h3]; decide
      · simp only [if_neg h1, if_neg h2, if_neg h3]

/-- C53: a service name is changed exactly if it is one of the three with another scheme. -/
theorem C53_unknown (s : QString) : normalizeImppServiceType s = s ↔ s ≠ q! "jabber" ∧ s ≠ q! "yahoo" ∧ s ≠ q! "gadugadu" := by
  unfold normalizeImppServiceType
  constructor
  · intro h
    refine ⟨?_, ?_, ?_⟩ <;> rintro rfl <;> revert h <;> decide
  · rintro ⟨h1, h2, h3⟩
    rw [if_neg h1, if_neg h2, if_neg h3]

/-- C53: the three other names stand for the services Jabber, Yahoo and Gadu-Gadu. -/
theorem C53_known : normalizeImppServiceType (q! "jabber") = q! "xmpp" ∧ normalizeImppServiceType (q! "yahoo") = q! "ymsgr" ∧
    normalizeImppServiceType (q! "gadugadu") = q! "gg" := by decide

/-- what is written and read for a service -/
private theorem service_facts : ∀ m ∈ messagingServices, nameLit m.exported = true ∧ nameTag m.exported = .x ∧
    renamed exportNames (q! "X-" ++ (m.app ++ q! "-All")) = some m.exported ∧ qc! ':' ∉ m.app ++ q! "-All" ∧
    toLowerQ m.exported ≠ q! "x-kaddressbook-x-anniversary" ∧ toLowerQ m.exported ≠ q! "x-kaddressbook-x-spousesname" ∧
    renamed importNames (toLowerQ m.exported) = some (q! "X-" ++ (m.app ++ q! "-All")) ∧
    startsWith (q! "messaging/") (m.app ++ q! "-All") = true ∧
    midQ (m.app ++ q! "-All") 10 (indexQ (qc! '-') (m.app ++ q! "-All") - 10) = m.old ∧
    (m.old ≠ q! "gadu" → normalizeImppServiceType m.old = m.scheme) := by
  decide +kernel

private theorem custom_exported (E : ToolEnv) (v : Version) (c : Contact) (m : Messaging) (hm : m ∈ messagingServices) (value : QString) (hne : value ≠ []) :
    customLines E v true (c.withCustom (m.app ++ q! "-All") value) = [mkLine m.exported (.str value) (coding v value)] := by
  obtain ⟨h1, h2, h3, h4, h5, h6, h7, h8, h9, -⟩ := service_facts m hm
  unfold customLines Contact.customsList Contact.withCustom
  simp only [List.map_cons, List.map_nil, List.flatMap_cons, List.flatMap_nil, List.append_nil]
  unfold customLine
  have hi : indexOf? (qc! ':') ((m.app ++ q! "-All") ++ qc! ':' :: value) = some (m.app ++ q! "-All").length := indexOf?_append _ _ _ h4
  rw [hi]
  have e1 : List.drop ((m.app ++ q! "-All").length + 1) ((m.app ++ q! "-All") ++ qc! ':' :: value) = value := by
    rw [List.drop_append]; simp
  have e2 : List.take ((m.app ++ q! "-All").length) ((m.app ++ q! "-All") ++ qc! ':' :: value) = m.app ++ q! "-All" := List.take_left
  simp only [Option.getD_some]
  rw [e1, e2, h3]
  have : value.isEmpty = false := by cases value with | nil => exact absurd rfl hne | cons => rfl
  simp only [this, if_true, Option.getD_some, Bool.false_eq_true, if_false, h5, h6, decide_false, Bool.false_and]
  rw [encoded_eq]

/-- the messaging addresses made from a line -/
private theorem legacy_urls (E : ToolEnv) (v : Version) (m : Messaging) (hm : m ∈ messagingServices) (hg : m.old ≠ q! "gadu") (value : QString)
    (hurl : ∀ a ∈ messagingAddresses value, E.urlMake m.scheme a ≠ [] ∧ E.urlScheme (E.urlMake m.scheme a) = m.scheme)
    (hk : customKey (rdLine m.exported (.str value) (coding v value)) = m.app ++ q! "-All") :
    (legacyImpps E (rdLine m.exported (.str value) (coding v value))).map (·.url) = (messagingAddresses value).map (E.urlMake m.scheme) := by
  obtain ⟨-, -, -, -, -, -, -, -, h9, h10⟩ := service_facts m hm
  unfold legacyImpps
  rw [hk, h9, h10 hg]
  have e : (splitOn 0xE000 (rdLine m.exported (.str value) (coding v value)).value.toString).filter (fun s => !s.isEmpty) = messagingAddresses value := by
    unfold messagingAddresses
    apply List.filter_congr
    intro s _
    cases s <;> rfl
  rw [e]
  have : ∀ as : List QString, (∀ a ∈ as, E.urlMake m.scheme a ≠ [] ∧ E.urlScheme (E.urlMake m.scheme a) = m.scheme) →
      ((as.map fun s => ({ params := (rdLine m.exported (.str value) (coding v value)).params, url := E.urlMake m.scheme s } : ParamUrl)).filter
        fun u => u.isValidImpp E.toQtEnv).map (·.url) = as.map (E.urlMake m.scheme) := by
    have hsn : ∀ m ∈ messagingServices, m.scheme.isEmpty = false := by decide +kernel
    intro as
    induction as with
    | nil => intro _; rfl
    | cons a as ih =>
      intro h
      have h1 := h a (by simp)
      rw [List.map_cons, List.filter_cons, if_pos]
      · rw [List.map_cons, ih fun x hx => h x (by simp [hx])]; rfl
      · unfold ParamUrl.isValidImpp
        simp only [h1.2, hsn m hm, Bool.not_false, Bool.and_true]
        cases hu : E.urlMake m.scheme a with
        | nil => exact absurd hu h1.1
        | cons => rfl
  exact this _ hurl

private theorem legacy_key (v : Version) (m : Messaging) (hm : m ∈ messagingServices) (value : QString) :
    customKey (rdLine m.exported (.str value) (coding v value)) = m.app ++ q! "-All" := by
  obtain ⟨-, -, -, -, -, -, h7, -⟩ := service_facts m hm
  unfold customKey rdLine
  simp only
  rw [h7]
  rfl

private theorem legacy_card (E : ToolEnv) (v : Version) (ids : IdKind → Nat → QString) (c : Contact) (hR : Carriable E v c) (h0 : c.customs = [])
    (m : Messaging) (hm : m ∈ messagingServices) (value : QString) (hne : value ≠ []) (hv : CodedText E.toCodecs v value) :
    ∃ c', (∃ n, ∀ fuel, n ≤ fuel → parseContacts E ids fuel (createContacts E v true [c.withCustom (m.app ++ q! "-All") value]) = .ok [c']) ∧
      c'.impps.Perm (c.impps ++ legacyImpps E (rdLine m.exported (.str value) (coding v value))) ∧ c'.customs = [] := by
  obtain ⟨h1, h2, -, -, -, -, -, h8, -⟩ := service_facts m hm
  have hl : readBack (mkLine m.exported (.str value) (coding v value)) = some (rdLine m.exported (.str value) (coding v value)) := by
    rw [readBack_text h1, if_neg hne]
  have hx : tagOf (rdLine m.exported (.str value) (coding v value)) = .x := by
    rw [tagOf_readBack hl]; exact h2
  have hmsg : startsWith (q! "messaging/") (customKey (rdLine m.exported (.str value) (coding v value))) = true := by rw [legacy_key v m hm]; exact h8
  have hL : contactLines E v true (c.withCustom (m.app ++ q! "-All") value) = contactLines E v false c ++ [mkLine m.exported (.str value) (coding v value)] := by
    rw [flatten_withCustom E v c h0, custom_exported E v c m hm value hne]
  have r1 := more_impps hR h0 ids { c := Contact.new (ids .contact 0), addresses := 0, phones := 0, keys := 0 } hl hx hmsg rfl
  have r2 := more_customs hR h0 ids { c := Contact.new (ids .contact 0), addresses := 0, phones := 0, keys := 0 } hl hx hmsg rfl
  have r3 := more_ub hR h0 ids { c := Contact.new (ids .contact 0), addresses := 0, phones := 0, keys := 0 } hl hx hmsg rfl
  rw [← hL] at r1 r2 r3
  have hF : Fine E (contactLines E v true (c.withCustom (m.app ++ q! "-All") value)) := by
    intro l hl
    rw [hL] at hl
    rcases List.mem_append.1 hl with hl | hl
    · exact fine_all hR l hl
    · rw [List.mem_singleton] at hl
      rw [hl]
      exact fine_coded0 _ (nameGood_lit h1) hv
  exact ⟨_, ⟨_, parseContacts_one E v ids true (c.withCustom (m.app ++ q! "-All") value) hF r3⟩, r1, r2⟩

/-- C53: a contact with an old messaging field, exported in any version and read: the addresses in the field become messaging addresses
    of the same service, beside the ones the contact had. Missing: Gadu-Gadu. -/
theorem C53_card_partial (E : ToolEnv) (v : Version) (ids : IdKind → Nat → QString) (c : Contact) (hR : Carriable E v c) (h0 : c.customs = [])
    (m : Messaging) (hm : m ∈ messagingServices) (hg : m.old ≠ q! "gadu") (value : QString) (hne : value ≠ []) (hv : CodedText E.toCodecs v value)
    (hurl : ∀ a ∈ messagingAddresses value, E.urlMake m.scheme a ≠ [] ∧ E.urlScheme (E.urlMake m.scheme a) = m.scheme) :
    ∃ c', (∃ n, ∀ fuel, n ≤ fuel → parseContacts E ids fuel (createContacts E v true [{ c with customs := [(m.app ++ q! "-All", value)] }]) = .ok [c']) ∧
      (c'.impps.map (·.url)).Perm (c.impps.map (·.url) ++ (messagingAddresses value).map (E.urlMake m.scheme)) ∧ c'.customs = [] := by
  obtain ⟨c', h, h1, h2⟩ := legacy_card E v ids c hR h0 m hm value hne hv
  refine ⟨c', h, ?_, h2⟩
  refine (h1.map _).trans ?_
  rw [List.map_append, legacy_urls E v m hm hg value hurl (legacy_key v m hm value)]

/-- Non-vacuity: a Yahoo address in a field of the sample contact. -/
example (v : Version) : ∃ c', (∃ n, ∀ fuel, n ≤ fuel → parseContacts Sample.env Sample.ids fuel (createContacts Sample.env v true
      [{ Sample.contact with customs := [(q! "messaging/yahoo-All", q! "bob")] }]) = .ok [c']) ∧
    q! "ymsgr:bob" ∈ c'.impps.map (·.url) := by
  have hR : Readable Sample.env v { Sample.contact with customs := [] } := { C24_sample_readable v with customs := ⟨List.Pairwise.nil, by simp⟩ }
  obtain ⟨c', h1, h2, -⟩ := C53_card_partial Sample.env v Sample.ids { Sample.contact with customs := [] } hR.carriable rfl
    ⟨q! "yahoo", q! "X-YAHOO", q! "ymsgr"⟩ (by decide) (by decide) (q! "bob") (by decide)
    (coded_plain (by unfold PlainAscii; decide) (asciiSafe_safe (by decide))) (by decide +kernel)
  exact ⟨c', h1, h2.mem_iff.2 (by decide +kernel)⟩

/-- Two addresses in one field. -/
example : messagingAddresses (q! "ann" ++ 0xE000 :: q! "bob") = [q! "ann", q! "bob"] := by decide

/-- C53 is false for Gadu-Gadu: its field is imported with the scheme "gadu", which is no service (no file in src/improtocols), not
    "gg". -/
theorem C53_gadu_false : ∃ c', (∃ n, ∀ fuel, n ≤ fuel → parseContacts Sample.env Sample.ids fuel
      (createContacts Sample.env .v3_0 true [{ uid := q! "u", customs := [(q! "messaging/gadu-All", q! "ann")] }]) = .ok [c']) ∧
    c'.impps.map (·.url) = [q! "gadu:ann"] := contactsIn_one (fun c => c.impps.map (·.url) = [q! "gadu:ann"]) (by decide +kernel)

/-- The same account as a modern messaging line of the service "GaduGadu" is read as an address of "gg". -/
theorem C53_gadu_modern : ∃ c', (∃ n, ∀ fuel, n ≤ fuel → parseContacts Sample.env Sample.ids fuel
      (b! "BEGIN:VCARD\nIMPP;X-SERVICE-TYPE=GaduGadu:ann\nEND:VCARD\n") = .ok [c']) ∧
    c'.impps.map (·.url) = [q! "gg:ann"] := contactsIn_one (fun c => c.impps.map (·.url) = [q! "gg:ann"]) (by decide +kernel)

/-! ### renaming the fields in finished vCards -/

namespace Spec

/-- The name of the old field of a service in a vCard. -/
def Messaging.oldName (m : Messaging) : QByteArray := b! "X-messaging/" ++ toUtf8 m.old ++ b! "-All"

/-- The services whose fields are renamed: all but Twitter. -/
def renamedServices : List Messaging := messagingServices.filter fun m => m.old ≠ q! "twitter"

/-- No old name of these services occurs in a text. -/
def NoOldName (t : QByteArray) : Prop := ∀ m ∈ renamedServices, ¬ m.oldName <:+: t

/-- A text with some occurrences of names: what precedes the first one, and each name with what follows it. -/
def withNames (name : Messaging → QByteArray) (first : QByteArray) (rest : List (Messaging × QByteArray)) : QByteArray :=
  first ++ rest.flatMap fun p => name p.1 ++ p.2

end Spec

private theorem replaceAll_fuel (p by_ : QByteArray) : ∀ (n m : Nat) (s : QByteArray), s.length ≤ n → s.length ≤ m → replaceAll p by_ n s = replaceAll p by_ m s
  | 0, 0, _, _, _ => rfl
  | 0, m + 1, [], _, _ => by simp [replaceAll]
  | n + 1, 0, [], _, _ => by simp [replaceAll]
  | n + 1, m + 1, [], _, _ => by simp [replaceAll]
  | 0, _, _ :: _, h, _ => by simp at h
  | _, 0, _ :: _, _, h => by simp at h
  | n + 1, m + 1, x :: t, h1, h2 => by
    simp only [List.length_cons] at h1 h2
    unfold replaceAll
    split
    · rename_i hp
      obtain ⟨hne, -⟩ := hp
      have : 0 < p.length := List.length_pos_iff.2 hne
      rw [replaceAll_fuel p by_ n m _ (by simp; omega) (by simp; omega)]
    · rw [replaceAll_fuel p by_ n m t (by omega) (by omega)]

private theorem replaceStr_skip (p by_ : QByteArray) (x : UInt8) (t : QByteArray) (h : ¬ p <+: x :: t) :
    replaceStr p by_ (x :: t) = x :: replaceStr p by_ t := by
  unfold replaceStr
  rw [List.length_cons, replaceAll, if_neg]
  rintro ⟨-, hs⟩
  apply h
  have : List.take p.length (x :: t) = p := by simpa [startsWith] using hs
  rw [← this]
  exact List.take_prefix _ _

private theorem replaceStr_hit (p by_ b : QByteArray) (hp : p ≠ []) : replaceStr p by_ (p ++ b) = by_ ++ replaceStr p by_ b := by
  obtain ⟨x, q, rfl⟩ := List.exists_cons_of_ne_nil hp
  unfold replaceStr
  rw [List.cons_append, List.length_cons, replaceAll, if_pos ⟨by simp, by simp [startsWith]⟩]
  have : (x :: (q ++ b)).drop (x :: q).length = b := by simp
  rw [this, replaceAll_fuel _ _ (q ++ b).length b.length b (by simp) (by simp)]

private theorem replaceStr_without (p by_ : QByteArray) (x : UInt8) : ∀ (w b : QByteArray), x ∉ w → replaceStr (x :: p) by_ (w ++ b) = w ++ replaceStr (x :: p) by_ b
  | [], _, _ => rfl
  | y :: w, b, h => by
    simp only [List.mem_cons, not_or] at h
    rw [List.cons_append, replaceStr_skip, replaceStr_without p by_ x w b h.2]
    · rfl
    · intro hp
      exact h.1 (List.cons_prefix_cons.1 hp).1

private theorem replaceStr_plain (p by_ : QByteArray) (x : UInt8) (hx : x ∉ p) (b : QByteArray) (hb : ∀ y ∈ b.head?, y = x) :
    ∀ a : QByteArray, ¬ (x :: p) <:+: a → replaceStr (x :: p) by_ (a ++ b) = a ++ replaceStr (x :: p) by_ b
  | [], _ => rfl
  | y :: a, h => by
    rw [List.cons_append, replaceStr_skip, replaceStr_plain p by_ x hx b hb a (fun hi => h (hi.trans (List.suffix_cons _ _).isInfix))]
    · rfl
    · rintro ⟨c, hc⟩
      rw [← List.cons_append] at hc
      rcases List.append_eq_append_iff.1 hc with ⟨as, h1, -⟩ | ⟨bs, h1, h2⟩
      · exact h ⟨[], as, by rw [List.nil_append, ← h1]⟩
      · cases bs with
        | nil => exact h ⟨[], [], by simp [h1]⟩
        | cons z bs =>
          have hz : z = x := hb z (by rw [h2]; rfl)
          rw [List.cons_append] at h1
          have := (List.cons.inj h1).2
          exact hx (by rw [this, hz]; simp)

/-- Two names that differ where both have a letter. -/
private def differ (p w : QByteArray) : Bool := p.take w.length != w.take p.length

private theorem differ_prefix {p w : QByteArray} (h : differ p w = true) (b : QByteArray) : ¬ p <+: w ++ b := by
  intro hp
  have e := List.prefix_iff_eq_take.1 hp
  simp only [differ, bne_iff_ne, ne_eq] at h
  apply h
  have : p.take w.length = (w ++ b).take (min w.length p.length) := by
    conv_lhs => rw [e]
    rw [List.take_take]
  rw [this, List.take_append_of_le_length (by omega)]
  by_cases hl : w.length ≤ p.length
  · rw [Nat.min_eq_left hl, List.take_of_length_le (Nat.le_refl _), List.take_of_length_le hl]
  · rw [Nat.min_eq_right (by omega)]

private theorem replaceStr_differ (p by_ w b : QByteArray) (x : UInt8) (hx : x ∉ w) (h : differ (x :: p) (x :: w) = true) :
    replaceStr (x :: p) by_ (x :: w ++ b) = x :: w ++ replaceStr (x :: p) by_ b := by
  have := differ_prefix h b
  rw [List.cons_append] at this ⊢
  rw [replaceStr_skip _ _ _ _ this, replaceStr_without p by_ x w b hx]; rfl

private theorem names_facts : ∀ m ∈ renamedServices, (m.oldName.head? = some 88 ∧ (88 : UInt8) ∉ m.oldName.tail) ∧
    ((toUtf8 m.exported).head? = some 88 ∧ (88 : UInt8) ∉ (toUtf8 m.exported).tail) ∧
    ∀ k ∈ renamedServices, differ k.oldName (toUtf8 m.exported) = true ∧ (k = m ∨ differ k.oldName m.oldName = true) := by decide +kernel

private theorem head_split {w : QByteArray} (h : w.head? = some 88) : w = 88 :: w.tail := by
  cases w with
  | nil => simp at h
  | cons a w => simp at h; subst h; rfl

private theorem rename_one (k : Messaging) (hk : k ∈ renamedServices) (f : Messaging → QByteArray) (hf : ∀ m, f m = m.oldName ∨ f m = toUtf8 m.exported)
    (first : QByteArray) (rest : List (Messaging × QByteArray)) (h0 : NoOldName first) (h : ∀ p ∈ rest, p.1 ∈ renamedServices ∧ NoOldName p.2) :
    replaceStr k.oldName (toUtf8 k.exported) (withNames f first rest) = withNames (fun m => if m = k then toUtf8 k.exported else f m) first rest := by
  obtain ⟨⟨k1, k2⟩, -, -⟩ := names_facts k hk
  have ks := head_split k1
  unfold withNames
  induction rest generalizing first with
  | nil =>
    have := replaceStr_plain k.oldName.tail (toUtf8 k.exported) 88 k2 [] (by simp) first (by rw [← ks]; exact h0 k hk)
    rw [← ks] at this
    rw [List.flatMap_nil, List.flatMap_nil, this]
    simp [replaceStr, replaceAll]
  | cons p rest ih =>
    obtain ⟨m, t⟩ := p
    obtain ⟨hm, ht⟩ := h (m, t) (by simp)
    obtain ⟨⟨o1, o2⟩, ⟨e1, e2⟩, hd⟩ := names_facts m hm
    obtain ⟨d1, d2⟩ := hd k hk
    have ih := ih t ht fun p hp => h p (by simp [hp])
    have hhead : (f m).head? = some 88 := by rcases hf m with e | e <;> rw [e] <;> assumption
    have hs := head_split hhead
    have h1 := replaceStr_plain k.oldName.tail (toUtf8 k.exported) 88 k2 (f m ++ (t ++ rest.flatMap fun p => f p.1 ++ p.2)) (by
      rw [hs]; intro y hy; simpa using hy.symm) first (by rw [← ks]; exact h0 k hk)
    rw [← ks] at h1
    simp only [List.flatMap_cons, List.append_assoc] at h1 ⊢
    rw [h1]
    congr 1
    have key : replaceStr k.oldName (toUtf8 k.exported) (f m ++ (t ++ rest.flatMap fun p => f p.1 ++ p.2)) =
        (if m = k then toUtf8 k.exported else f m) ++ replaceStr k.oldName (toUtf8 k.exported) (t ++ rest.flatMap fun p => f p.1 ++ p.2) := by
      have other : ∀ w : QByteArray, w.head? = some 88 → (88 : UInt8) ∉ w.tail → differ k.oldName w = true → ∀ b,
          replaceStr k.oldName (toUtf8 k.exported) (w ++ b) = w ++ replaceStr k.oldName (toUtf8 k.exported) b := by
        intro w w1 w2 w3 b
        have ws := head_split w1
        have := replaceStr_differ k.oldName.tail (toUtf8 k.exported) w.tail b 88 w2 (by rw [← ks, ← ws]; exact w3)
        rwa [← ks, ← ws] at this
      by_cases e : m = k
      · subst e
        rw [if_pos rfl]
        rcases hf m with e | e <;> rw [e]
        · exact replaceStr_hit _ _ _ (by rw [ks]; simp)
        · exact other _ e1 e2 d1 _
      · rw [if_neg e]
        rcases hf m with e' | e' <;> rw [e']
        · exact other _ o1 o2 (d2.resolve_left fun h => e h.symm) _
        · exact other _ e1 e2 d1 _
    rw [key, ih]

/-- C53: in any text, every old name of these services is replaced by the name in exported vCards, and nothing else is changed. -/
theorem C53_adapt (first : QByteArray) (rest : List (Messaging × QByteArray)) (h0 : NoOldName first)
    (h : ∀ p ∈ rest, p.1 ∈ renamedServices ∧ NoOldName p.2) :
    adaptIMAttributes (withNames Messaging.oldName first rest) = withNames (fun m => toUtf8 m.exported) first rest := by
  have fold : ∀ (l : List Messaging) (f : Messaging → QByteArray), (∀ m ∈ l, m ∈ renamedServices) → (∀ m, f m = m.oldName ∨ f m = toUtf8 m.exported) →
      l.foldl (fun d m => replaceStr m.oldName (toUtf8 m.exported) d) (withNames f first rest) =
        withNames (fun m => if m ∈ l then toUtf8 m.exported else f m) first rest := by
    intro l
    induction l with
    | nil => intro f _ _; simp
    | cons k l ih =>
      intro f hl hf
      rw [List.foldl_cons, rename_one k (hl k (by simp)) f hf first rest h0 h, ih _ (fun m hm => hl m (by simp [hm])) (by
        intro m
        by_cases e : m = k
        · simp [e]
        · simpa [e] using hf m)]
      congr 1
      funext m
      by_cases e : m = k
      · simp [e]
      · simp [e]
  have hm : ∀ d, adaptIMAttributes d = renamedServices.foldl (fun d m => replaceStr m.oldName (toUtf8 m.exported) d) d := by
    intro d
    have hl : renamedServices.map (fun m => (m.oldName, toUtf8 m.exported)) =
      [(b! "X-messaging/aim-All", b! "X-AIM"), (b! "X-messaging/icq-All", b! "X-ICQ"), (b! "X-messaging/xmpp-All", b! "X-JABBER"),
       (b! "X-messaging/msn-All", b! "X-MSN"), (b! "X-messaging/yahoo-All", b! "X-YAHOO"), (b! "X-messaging/gadu-All", b! "X-GADUGADU"),
       (b! "X-messaging/skype-All", b! "X-SKYPE"), (b! "X-messaging/groupwise-All", b! "X-GROUPWISE"), (b! "X-messaging/sms-All", b! "X-SMS"),
       (b! "X-messaging/meanwhile-All", b! "X-MEANWHILE"), (b! "X-messaging/irc-All", b! "X-IRC"),
       (b! "X-messaging/googletalk-All", b! "X-GTALK")] := by decide +kernel
    unfold adaptIMAttributes
    rw [← hl, List.foldl_map]
  rw [hm, fold _ _ (fun m h => h) (fun m => Or.inl rfl)]
  unfold withNames
  congr 1
  rw [List.flatMap_def, List.flatMap_def]
  congr 1
  apply List.map_congr_left
  intro p hp
  simp only [if_pos (h p hp).1]

/-- Every text is of that form. -/
theorem C53_adapt_every (t : QByteArray) : ∃ first rest, NoOldName first ∧ (∀ p ∈ rest, p.1 ∈ renamedServices ∧ NoOldName p.2) ∧
    t = withNames Messaging.oldName first rest := by
  have : ∀ (n : Nat) (t : QByteArray), t.length ≤ n → ∃ first rest, NoOldName first ∧ (∀ p ∈ rest, p.1 ∈ renamedServices ∧ NoOldName p.2) ∧
      t = withNames Messaging.oldName first rest := by
    intro n
    induction n with
    | zero =>
      intro t ht
      refine ⟨[], [], ?_, by simp, by rw [List.length_eq_zero_iff.1 (by omega : t.length = 0)]; rfl⟩
      intro m hm hi
      have h := (names_facts m hm).1.1
      rw [List.infix_nil.1 hi] at h
      simp at h
    | succ n ih =>
      intro t ht
      by_cases h : NoOldName t
      · exact ⟨t, [], h, by simp, by simp [withNames]⟩
      · unfold NoOldName at h
        have h : ∃ m, m ∈ renamedServices ∧ m.oldName <:+: t := by
          apply Classical.byContradiction
          intro h'
          exact h fun m hm hi => h' ⟨m, hm, hi⟩
        obtain ⟨m, hm, a, b, hab⟩ := h
        have hlen : 0 < m.oldName.length := by
          rw [head_split (names_facts m hm).1.1]; simp
        have hl : a.length + m.oldName.length + b.length = t.length := by rw [← hab]; simp [Nat.add_assoc]
        obtain ⟨f1, r1, a1, a2, a3⟩ := ih a (by omega)
        obtain ⟨f2, r2, b1, b2, b3⟩ := ih b (by omega)
        refine ⟨f1, r1 ++ (m, f2) :: r2, a1, ?_, ?_⟩
        · intro p hp
          rcases List.mem_append.1 hp with hp | hp
          · exact a2 p hp
          · rcases List.mem_cons.1 hp with rfl | hp
            · exact ⟨hm, b1⟩
            · exact b2 p hp
        · rw [← hab, a3, b3]
          simp [withNames]
  exact this _ t (Nat.le_refl _)

/-- Non-vacuity: two fields in a card. -/
example : adaptIMAttributes (b! "BEGIN:VCARD\nX-messaging/xmpp-All:ann\nX-messaging/gadu-All:12\nEND:VCARD\n") =
    b! "BEGIN:VCARD\nX-JABBER:ann\nX-GADUGADU:12\nEND:VCARD\n" := by decide +kernel

/-- C53 is false for Twitter when finished vCards are renamed: its field, which the export of contacts renames, keeps the old name. -/
theorem C53_adapt_twitter_false : ∃ m ∈ messagingServices, adaptIMAttributes m.oldName ≠ toUtf8 m.exported ∧ m.exported = q! "X-TWITTER" :=
  ⟨⟨q! "twitter", q! "X-TWITTER", q! "twitter"⟩, by decide, by decide +kernel, by decide⟩

end KC
