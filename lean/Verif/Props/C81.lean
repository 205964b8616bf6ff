import Verif.Spec.Sample
import Verif.Lemmas.ToText
/-
  C81: the text representation of a contact shows its fields, each on its line, and nothing else.
-/
namespace KC
open KC.Spec

/-- `arg` on a template of the representations. -/
private theorem line_eq {l : QString} (h : Template (q! "  " ++ l ++ q! ": %1\n")) (v : QString) : arg (q! "  " ++ l ++ q! ": %1\n") v = shownLine l v := by
  have h1 : (q! "  " ++ l ++ q! ": %1\n").take ((q! "  " ++ l ++ q! ": %1\n").length - 3) = q! "  " ++ l ++ q! ": " := by
    have e : q! "  " ++ l ++ q! ": %1\n" = (q! "  " ++ l ++ q! ": ") ++ q! "%1\n" := by simp only [List.append_assoc]; rfl
    rw [e, List.take_append_of_le_length (by simp)]
    exact List.take_of_length_le (by simp)
  rw [arg_template h, h1]
  unfold shownLine
  simp only [List.append_assoc]

/-- The representation of a contact, line by line: every field with its label, in this order, and the five lists. -/
theorem C81_layout (E : TextEnv) (c : Contact) :
    c.toText E = q! "Addressee {\n" ++
      ([(q! "Uid", c.uid), (q! "Name", c.name), (q! "FormattedName", c.formattedName), (q! "FamilyName", c.familyName), (q! "GivenName", c.givenName),
        (q! "AdditionalName", c.additionalName), (q! "Prefix", c.prefix_), (q! "Suffix", c.suffix), (q! "NickName", c.text .nickName),
        (q! "Birthday", E.dateText c.birthday), (q! "Mailer", c.mailer), (q! "TimeZone", c.timeZone.toText), (q! "Geo", c.geo.toText E),
        (q! "Title", c.text .title), (q! "Role", c.text .role), (q! "Organization", c.text .organization), (q! "Department", c.department),
        (q! "Note", c.note), (q! "ProductId", c.productId), (q! "Revision", E.dateText c.revision), (q! "SortString", c.sortString), (q! "Url", c.url.url),
        (q! "Secrecy", c.secrecy.toText E), (q! "Logo", c.logo.toText E), (q! "Photo", c.photo.toText E), (q! "Sound", c.sound.toText),
        (q! "Gender", c.gender.toText), (q! "Kind", c.kind)] : List (QString × QString)).flatMap (fun p => shownLine p.1 p.2) ++
      (q! "  Emails {\n" ++ c.emails.flatMap Email.toText ++ q! "  }\n") ++ (q! "  Langs {\n" ++ c.langs.flatMap langText ++ q! "  }\n") ++
      (q! "  PhoneNumbers {\n" ++ c.phoneNumbers.flatMap PhoneNumber.toText ++ q! "  }\n") ++
      (q! "  Addresses {\n" ++ c.addresses.flatMap (Address.toText E) ++ q! "  }\n") ++
      (q! "  Keys {\n" ++ c.keys.flatMap (Key.toText E) ++ q! "  }\n") ++ q! "}\n" := by
  have e : c.fieldsText E = ([(q! "Uid", c.uid), (q! "Name", c.name), (q! "FormattedName", c.formattedName), (q! "FamilyName", c.familyName),
        (q! "GivenName", c.givenName),
        (q! "AdditionalName", c.additionalName), (q! "Prefix", c.prefix_), (q! "Suffix", c.suffix), (q! "NickName", c.text .nickName),
        (q! "Birthday", E.dateText c.birthday), (q! "Mailer", c.mailer), (q! "TimeZone", c.timeZone.toText), (q! "Geo", c.geo.toText E),
        (q! "Title", c.text .title), (q! "Role", c.text .role), (q! "Organization", c.text .organization), (q! "Department", c.department),
        (q! "Note", c.note), (q! "ProductId", c.productId), (q! "Revision", E.dateText c.revision), (q! "SortString", c.sortString), (q! "Url", c.url.url),
        (q! "Secrecy", c.secrecy.toText E), (q! "Logo", c.logo.toText E), (q! "Photo", c.photo.toText E), (q! "Sound", c.sound.toText),
        (q! "Gender", c.gender.toText), (q! "Kind", c.kind)] : List (QString × QString)).flatMap fun p => shownLine p.1 p.2 := by
    simp only [List.flatMap_cons, List.flatMap_nil, List.append_nil]
    have key : ∀ (l v : QString), Template (q! "  " ++ l ++ q! ": %1\n") → shownLine l v = arg (q! "  " ++ l ++ q! ": %1\n") v := fun l v h => (line_eq h v).symm
    rw [key (q! "Uid") _ (by decide), key (q! "Name") _ (by decide), key (q! "FormattedName") _ (by decide), key (q! "FamilyName") _ (by decide),
      key (q! "GivenName") _ (by decide), key (q! "AdditionalName") _ (by decide), key (q! "Prefix") _ (by decide), key (q! "Suffix") _ (by decide),
      key (q! "NickName") _ (by decide), key (q! "Birthday") _ (by decide), key (q! "Mailer") _ (by decide), key (q! "TimeZone") _ (by decide),
      key (q! "Geo") _ (by decide), key (q! "Title") _ (by decide), key (q! "Role") _ (by decide), key (q! "Organization") _ (by decide),
      key (q! "Department") _ (by decide), key (q! "Note") _ (by decide), key (q! "ProductId") _ (by decide), key (q! "Revision") _ (by decide),
      key (q! "SortString") _ (by decide), key (q! "Url") _ (by decide), key (q! "Secrecy") _ (by decide), key (q! "Logo") _ (by decide),
      key (q! "Photo") _ (by decide), key (q! "Sound") _ (by decide), key (q! "Gender") _ (by decide), key (q! "Kind") _ (by decide)]
    unfold Contact.fieldsText
    simp only [List.append_assoc]
    rfl
  unfold Contact.toText
  rw [e]

/-- Every shown text stands on a line with its label. -/
theorem C81_shows (E : TextEnv) (c : Contact) (l v : QString) (h : (l, v) ∈ shownTexts c) : shownLine l v <:+: c.toText E := by
  rw [C81_layout]
  refine List.IsInfix.trans ?_ (List.infix_append' (q! "Addressee {\n") _ _ |>.trans (by simp only [List.append_assoc]; exact List.infix_refl _))
  have hm := h
  unfold shownTexts at hm
  have : ∀ {ps : List (QString × QString)}, (l, v) ∈ ps → shownLine l v <:+: ps.flatMap fun p => shownLine p.1 p.2 := by
    intro ps hp
    obtain ⟨s, t, rfl⟩ := List.append_of_mem hp
    simp only [List.flatMap_append, List.flatMap_cons]
    exact ⟨_, _, by simp only [List.append_assoc]; rfl⟩
  apply this
  simp only [List.mem_cons, List.not_mem_nil, or_false] at hm ⊢
  tauto

/-- The representations of the values: an address and a geographic position, a key, a picture and a sound. -/
theorem C81_values (E : TextEnv) (a : Address) (g : Geo) (k : Key) (p : Picture) (s : Sound) (t : TimeZone) :
    a.toText E = q! "Address {\n" ++ shownLine (q! "IsEmpty") (boolText a.empty) ++ shownLine (q! "Id") a.id ++
      shownLine (q! "Type") (addressTypeLabel E.tr a.type) ++ shownLine (q! "Post office box") a.postOfficeBox ++ shownLine (q! "Extended") a.extended ++
      shownLine (q! "Street") a.street ++ shownLine (q! "Locality") a.locality ++ shownLine (q! "Region") a.region ++
      shownLine (q! "Postal code") a.postalCode ++ shownLine (q! "Country") a.country ++ shownLine (q! "Label") a.label ++
      shownLine (q! "Geo") (a.geo.toText E) ++ q! "}\n" ∧
    g.toText E = q! "Geo {\n" ++ shownLine (q! "Valid") (boolText g.isValid) ++ shownLine (q! "Latitude") (E.fltText g.latitude) ++
      shownLine (q! "Longitude") (E.fltText g.longitude) ++ q! "}\n" ∧
    k.toText E = q! "Key {\n" ++ shownLine (q! "Id") k.id ++ shownLine (q! "Type") (keyTypeLabel E.tr k.type) ++
      (if k.type = .custom then shownLine (q! "CustomType") k.customTypeString else []) ++ shownLine (q! "IsBinary") (boolText k.isBinary) ++
      (if k.isBinary then shownLine (q! "Binary") (fromLatin1 (toBase64 k.binaryData)) else shownLine (q! "Text") k.textData) ++ q! "}\n" ∧
    p.toText E = q! "Picture {\n" ++ shownLine (q! "Type") p.type ++ shownLine (q! "IsIntern") (boolText p.isIntern) ++
      (if p.isIntern then shownLine (q! "Data") (fromLatin1 (toBase64 (p.rawBytes E.toToolEnv))) else shownLine (q! "Url") p.url) ++ q! "}\n" ∧
    s.toText = q! "Sound {\n" ++ shownLine (q! "Type") s.type ++ shownLine (q! "IsIntern") (boolText s.isIntern) ++
      (if s.isIntern then shownLine (q! "Data") (fromLatin1 (toBase64 s.data)) else shownLine (q! "Url") s.url) ++ q! "}\n" ∧
    t.toText = q! "TimeZone {\n" ++ shownLine (q! "Offset") (intText t.offset) ++ q! "}\n" := by
  have key : ∀ (l v : QString), Template (q! "  " ++ l ++ q! ": %1\n") → shownLine l v = arg (q! "  " ++ l ++ q! ": %1\n") v := fun l v h => (line_eq h v).symm
  refine ⟨?_, ?_, ?_, ?_, ?_, ?_⟩
  · rw [key (q! "IsEmpty") _ (by decide), key (q! "Id") _ (by decide), key (q! "Type") _ (by decide), key (q! "Post office box") _ (by decide),
      key (q! "Extended") _ (by decide), key (q! "Street") _ (by decide), key (q! "Locality") _ (by decide), key (q! "Region") _ (by decide),
      key (q! "Postal code") _ (by decide), key (q! "Country") _ (by decide), key (q! "Label") _ (by decide), key (q! "Geo") _ (by decide)]
    rfl
  · rw [key (q! "Valid") _ (by decide), key (q! "Latitude") _ (by decide), key (q! "Longitude") _ (by decide)]
    rfl
  · rw [key (q! "Id") _ (by decide), key (q! "Type") _ (by decide), key (q! "CustomType") _ (by decide), key (q! "IsBinary") _ (by decide),
      key (q! "Binary") _ (by decide), key (q! "Text") _ (by decide)]
    rfl
  · rw [key (q! "Type") _ (by decide), key (q! "IsIntern") _ (by decide), key (q! "Data") _ (by decide), key (q! "Url") _ (by decide)]
    rfl
  · rw [key (q! "Type") _ (by decide), key (q! "IsIntern") _ (by decide), key (q! "Data") _ (by decide), key (q! "Url") _ (by decide)]
    rfl
  · rw [key (q! "Offset") _ (by decide)]
    rfl

private theorem item_eq {l : QString} (h : Template (q! "    " ++ l ++ q! ": %1\n")) (v : QString) : arg (q! "    " ++ l ++ q! ": %1\n") v = itemLine l v := by
  have h1 : (q! "    " ++ l ++ q! ": %1\n").take ((q! "    " ++ l ++ q! ": %1\n").length - 3) = q! "    " ++ l ++ q! ": " := by
    have e : q! "    " ++ l ++ q! ": %1\n" = (q! "    " ++ l ++ q! ": ") ++ q! "%1\n" := by simp only [List.append_assoc]; rfl
    rw [e, List.take_append_of_le_length (by simp)]
    exact List.take_of_length_le (by simp)
  rw [arg_template h, h1]
  unfold itemLine
  simp only [List.append_assoc]

private theorem join_intercalate (sep : QString) : ∀ l : List QString, join sep l = sep.intercalate l
  | [] => rfl
  | [a] => by simp [join, List.intercalate]
  | a :: b :: t => by
    have ih := join_intercalate sep (b :: t)
    show a ++ sep ++ join sep (b :: t) = _
    rw [ih]
    simp [List.intercalate, List.intersperse]

private theorem decimal_value (n : Nat) : (dec n).foldl (fun n c => 10 * n + (c.toNat - 48)) 0 = n := by
  induction n using Nat.strongRecOn with
  | _ n ih =>
    by_cases h10 : n < 10
    · rw [dec_lt10 n h10]
      simp [(dig_facts n h10).2.2.2.2.2.2.1]
    · rw [dec_step n (by omega), List.foldl_append, ih (n / 10) (by omega)]
      simp only [List.foldl_cons, List.foldl_nil, (dig_facts (n % 10) (by omega)).2.2.2.2.2.2.1]
      omega

private theorem decimal_ne (n : Nat) : dec n ≠ [] := by
  by_cases h10 : n < 10
  · rw [dec_lt10 n h10]; simp
  · rw [dec_step n (by omega)]; simp

private theorem params_eq (m : ParameterMap) :
    paramsText m = if m = [] then [] else itemLine (q! "parameters") (m.flatMap fun p => p.1 ++ q! " " ++ [qc! ','].intercalate p.2) := by
  cases m with
  | nil => rfl
  | cons p t =>
    rw [if_neg (by simp)]
    unfold paramsText itemLine
    rw [if_neg (by simp)]
    congr 2
    congr 1
    funext p
    simp only [join_intercalate, List.append_assoc]
    rfl

/-- The representations of the items of the lists: each has its heading, its values with their labels, and its parameters. -/
theorem C81_items (Q : QtEnv) (t : ParamText) (e : Email) (u : ParamUrl) (k : CalendarUrl) (g : Gender) :
    langText t = shownItem (q! "Lang") [(q! "language", t.text)] t.params ∧
    relatedText t = shownItem (q! "Related") [(q! "relatedTo", t.text)] t.params ∧
    nickNameText t = shownItem (q! "NickName") [(q! "nickname", t.text)] t.params ∧
    noteText t = shownItem (q! "Note") [(q! "note", t.text)] t.params ∧
    orgText t = shownItem (q! "Org") [(q! "organization", t.text)] t.params ∧
    roleText t = shownItem (q! "Role") [(q! "role", t.text)] t.params ∧
    titleText t = shownItem (q! "Title") [(q! "title", t.text)] t.params ∧
    clientPidMapText t = shownItem (q! "ClientPidMap") [(q! "clientpidmap", t.text)] t.params ∧
    e.toText = shownItem (q! "Email") [(q! "mail", e.mail)] e.params ∧
    resourceLocatorUrlText u = shownItem (q! "ResourceLocatorUrl") [(q! "url", u.url)] u.params ∧
    imppText Q u = shownItem (q! "Impp") [(q! "type", Q.urlScheme u.url), (q! "address", u.url)] u.params ∧
    k.toText = shownItem (q! "CalendarUrl") [(q! "url", k.url), (q! "type", match k.type with
      | 1 => q! "FreeBusy"
      | 2 => q! "CalUri"
      | 3 => q! "Caladruri"
      | _ => q! "Unknown")] k.params ∧
    g.toText = shownItem (q! "Gender") [(q! "gender", g.gender), (q! "comment", g.comment)] [] := by
  have key : ∀ (l v : QString), Template (q! "    " ++ l ++ q! ": %1\n") → itemLine l v = arg (q! "    " ++ l ++ q! ": %1\n") v := fun l v h => (item_eq h v).symm
  have ty : calendarTypeText k.type = match k.type with
      | 1 => q! "FreeBusy"
      | 2 => q! "CalUri"
      | 3 => q! "Caladruri"
      | _ => q! "Unknown" := by
    unfold calendarTypeText
    rcases k.type with _ | _ | _ | _ | n
    · rfl
    · rfl
    · rfl
    · rfl
    · rw [if_neg (by omega), if_neg (by omega), if_neg (by omega)]
      rfl
  simp only [shownItem, ← params_eq, List.flatMap_cons, List.flatMap_nil, List.append_nil]
  rw [key (q! "language") _ (by decide), key (q! "relatedTo") _ (by decide), key (q! "nickname") _ (by decide), key (q! "note") _ (by decide),
    key (q! "organization") _ (by decide), key (q! "role") _ (by decide), key (q! "title") _ (by decide), key (q! "clientpidmap") _ (by decide),
    key (q! "mail") _ (by decide), key (q! "url") _ (by decide), key (q! "url") _ (by decide), key (q! "type") _ (by decide), key (q! "type") _ (by decide), key (q! "address") _ (by decide),
    key (q! "gender") _ (by decide), key (q! "comment") _ (by decide), ← ty]
  refine ⟨rfl, rfl, rfl, rfl, rfl, rfl, rfl, rfl, rfl, rfl, ?_, ?_, ?_⟩
  · unfold imppText
    simp only [List.append_assoc]
    rfl
  · unfold CalendarUrl.toText
    simp only [List.append_assoc]
    rfl
  · unfold Gender.toText
    simp only [List.append_assoc]
    rfl

/-- The words of the representations: truth values, whole numbers, and the translated names of the secrecy and of the key types. -/
theorem C81_words (tr : Translation) (n : Nat) :
    boolText true = q! "true" ∧ boolText false = q! "false" ∧
    (∀ d : QString, d = intText n → d ≠ [] ∧ (∀ u ∈ d, 48 ≤ u.toNat ∧ u.toNat ≤ 57) ∧ d.foldl (fun n u => 10 * n + (u.toNat - 48)) 0 = n) ∧
    (0 < n → intText (-n) = qc! '-' :: intText n) ∧
    secrecyLabel tr .pub = tr (q! "access is for everyone") (q! "Public") ∧
    secrecyLabel tr .priv = tr (q! "access is by owner only") (q! "Private") ∧
    secrecyLabel tr .confidential = tr (q! "access is by owner and a controlled group") (q! "Confidential") ∧
    secrecyLabel tr .invalid = tr (q! "unknown secrecy type") (q! "Unknown type") ∧
    keyTypeLabel tr .x509 = tr (q! "X.509 public key") (q! "X509") ∧
    keyTypeLabel tr .pgp = tr (q! "Pretty Good Privacy key") (q! "PGP") ∧
    keyTypeLabel tr .custom = tr (q! "A custom key") (q! "Custom") := by
  refine ⟨rfl, rfl, ?_, ?_, rfl, rfl, rfl, rfl, rfl, rfl, rfl⟩
  · rintro d rfl
    have e : intText n = dec n := by unfold intText; rw [if_neg (by omega)]; rfl
    rw [e]
    exact ⟨decimal_ne n, dec_chars n, decimal_value n⟩
  · intro h
    have e : intText n = dec n := by unfold intText; rw [if_neg (by omega)]; rfl
    rw [e]
    unfold intText
    rw [if_pos (by omega)]
    simp

/-- A nickname with a parameter, a calendar of the type free/busy, and a number. -/
example : nickNameText { text := q! "Al", params := [(q! "type", [q! "home", q! "work"])] } =
      q! "NickName {\n    nickname: Al\n    parameters: type home,work\n}\n" ∧
    CalendarUrl.toText { url := q! "http://x", type := 1 } = q! "CalendarUrl {\n    url: http://x\n    type: FreeBusy\n}\n" ∧
    intText (-120) = q! "-120" ∧ intText 0 = q! "0" := by decide

private theorem data_of_shown {u u' : Bool} {d d' : QByteArray} {t t' : QString} {b b' td tu : QString}
    (h : (if u then Sum.inl d else Sum.inr t : QByteArray ⊕ QString) = if u' then .inl d' else .inr t')
    (hb : b = boolText u) (hb' : b' = boolText u') :
    b = b' ∧ (if u then arg td (fromLatin1 (toBase64 d)) else arg tu t) = if u' then arg td (fromLatin1 (toBase64 d')) else arg tu t' := by
  subst hb hb'
  cases u <;> cases u' <;> simp_all

/-- Two contacts without line breaks in their texts have the same representation exactly when they agree on everything that is shown: the texts,
    dates, position, time zone, secrecy, pictures, sound and gender, and in the five lists the number, order and shown parts of the entries. -/
theorem C81_same (E : TextEnv) (hE : PlainEnv E) (c d : Contact) (hc : OneLineContact c) (hd : OneLineContact d) :
    c.toText E = d.toText E ↔ SameShown E c d := by
  constructor
  · intro h
    exact (contact_reads hE c d [] [] hc hd (by rw [h])).1
  · intro h
    have hpic : ∀ p q : Picture, shownPicture E p = shownPicture E q → p.toText E = q.toText E := by
      intro p q e
      unfold shownPicture at e
      obtain ⟨e1, e2⟩ := Prod.mk.inj e
      have := data_of_shown (td := q! "  Data: %1\n") (tu := q! "  Url: %1\n") e2 rfl rfl
      unfold Picture.toText
      rw [e1, this.1, this.2]
    have hsnd : ∀ p q : Sound, shownSound p = shownSound q → p.toText = q.toText := by
      intro p q e
      unfold shownSound at e
      obtain ⟨e1, e2⟩ := Prod.mk.inj e
      have := data_of_shown (td := q! "  Data: %1\n") (tu := q! "  Url: %1\n") e2 rfl rfl
      unfold Sound.toText
      rw [e1, this.1, this.2]
    have hkey : ∀ p q : Key, shownKey E p = shownKey E q → p.toText E = q.toText E := by
      intro p q e
      unfold shownKey at e
      obtain ⟨e1, e⟩ := Prod.mk.inj e
      obtain ⟨e2, e⟩ := Prod.mk.inj e
      obtain ⟨e3, e4⟩ := Prod.mk.inj e
      have := data_of_shown (td := q! "  Binary: %1\n") (tu := q! "  Text: %1\n") e4 rfl rfl
      have h3 : (if p.type = .custom then arg (q! "  CustomType: %1\n") p.customTypeString else []) =
          if q.type = .custom then arg (q! "  CustomType: %1\n") q.customTypeString else [] := by
        by_cases ha : p.type = .custom <;> by_cases hb : q.type = .custom <;> simp only [ha, hb, if_true, if_false] at e3 ⊢
        · rw [Option.some.inj e3]
        · exact absurd e3 (by simp)
        · exact absurd e3 (by simp)
      unfold Key.toText
      rw [e1, e2, this.1, this.2, h3]
    have hgeo : ∀ g g' : Geo, shownGeo E g = shownGeo E g' → g.toText E = g'.toText E := by
      intro g g' e
      unfold shownGeo at e
      obtain ⟨e1, e⟩ := Prod.mk.inj e
      obtain ⟨e2, e3⟩ := Prod.mk.inj e
      unfold Geo.toText
      rw [e1, e2, e3]
    have hadr : ∀ a a' : Address, shownAddress E a = shownAddress E a' → a.toText E = a'.toText E := by
      intro a a' e
      unfold shownAddress at e
      obtain ⟨e1, e⟩ := Prod.mk.inj e
      obtain ⟨e2, e3⟩ := Prod.mk.inj e
      simp only [List.cons.injEq, and_true] at e2
      obtain ⟨f1, f2, f3, f4, f5, f6, f7, f8, f9, f10⟩ := e2
      unfold Address.toText
      rw [e1, f1, f2, f3, f4, f5, f6, f7, f8, f9, f10, hgeo _ _ e3]
    have hlist : ∀ {α β : Type} (f : α → QString) (s : α → β), (∀ a b, s a = s b → f a = f b) → ∀ l l' : List α, l.map s = l'.map s → l.flatMap f = l'.flatMap f := by
      intro α β f s hs l
      induction l with
      | nil =>
        intro l' e
        cases l' with
        | nil => rfl
        | cons _ _ => exact absurd e (by simp)
      | cons a l ih =>
        intro l' e
        cases l' with
        | nil => exact absurd e (by simp)
        | cons b t =>
          rw [List.map_cons, List.map_cons] at e
          obtain ⟨e1, e2⟩ := List.cons.inj e
          rw [List.flatMap_cons, List.flatMap_cons, hs _ _ e1, ih t e2]
    have ht := h.texts
    unfold shownTexts at ht
    simp only [List.cons.injEq, Prod.mk.injEq, and_true, true_and] at ht
    obtain ⟨t1, t2, t3, t4, t5, t6, t7, t8, t9, t10, t11, t12, t13, t14, t15, t16, t17, t18, t19⟩ := ht
    have hf : c.fieldsText E = d.fieldsText E := by
      have htz : c.timeZone.toText = d.timeZone.toText := by unfold TimeZone.toText; rw [h.offset]
      have hse : c.secrecy.toText E = d.secrecy.toText E := by unfold Secrecy.toText; rw [h.secrecy]
      have hge : c.gender.toText = d.gender.toText := by unfold Gender.toText; rw [h.gender.1, h.gender.2]
      unfold Contact.fieldsText
      rw [t1, t2, t3, t4, t5, t6, t7, t8, t9, t10, t11, t12, t13, t14, t15, t16, t17, t18, t19, h.birthday, h.revision, htz, hgeo _ _ h.geo, hse,
        hpic _ _ h.logo, hpic _ _ h.photo, hsnd _ _ h.sound, hge]
    unfold Contact.toText
    rw [hf, hlist Email.toText _ (by intro a b e; obtain ⟨e1, e2⟩ := Prod.mk.inj e; unfold Email.toText; rw [e1, e2]) _ _ h.emails,
      hlist langText _ (by intro a b e; obtain ⟨e1, e2⟩ := Prod.mk.inj e; unfold langText; rw [e1, e2]) _ _ h.langs,
      hlist PhoneNumber.toText _ (by intro a b e; obtain ⟨e1, e2⟩ := Prod.mk.inj e; unfold PhoneNumber.toText; rw [e1, e2]) _ _ h.phones,
      hlist _ _ hadr _ _ h.addresses, hlist _ _ hkey _ _ h.keys]

/-- What is not shown: everything else in the contact has no influence on the representation. -/
theorem C81_hidden (E : TextEnv) (c : Contact) (wt : Bool) (death : QDateTime) (im : List ParamUrl) (cat : List QString) (cu : SMap QString)
    (cal : List CalendarUrl) (xs : List Sound) (xp xl : List Picture) (src mem : List QString) (rel pid : List ParamText) (fg : List FieldGroup) (e ch : Bool) :
    ({ c with
        birthdayWithTime := wt
        deathDate := death
        impps := im
        categories := cat
        customs := cu
        calendarUrls := cal
        extraSounds := xs
        extraPhotos := xp
        extraLogos := xl
        sources := src
        members := mem
        relationships := rel
        clientPidMaps := pid
        fieldGroups := fg
        empty := e
        changed := ch } : Contact).toText E = c.toText E := rfl

/-- An environment for the examples: no translations. -/
def Sample.textEnv : TextEnv where
  toToolEnv := Sample.env
  tr _ t := t
  dateText
    | none => []
    | some _ => q! "a day"
  fltText _ := q! "1.5"

theorem Sample.textEnv_plain : PlainEnv Sample.textEnv where
  tr _ _ h := h
  date d := by
    cases d with
    | none => exact List.not_mem_nil
    | some _ => exact (by decide : SingleLine (q! "a day"))
  flt _ := (by decide : SingleLine (q! "1.5"))

/-- A contact that is shown in full. -/
private def shownSample : Contact :=
  { uid := q! "u", name := q! "%1 %2", formattedName := q! "Ada", nickNames := [{ text := q! "A" }], timeZone := { offset := -60, isValid := true },
    phoneNumbers := [{ id := q! "p", number := q! "12", params := [(q! "x", [q! "y", q! "z"])] }, { id := q! "q", number := q! "34" }],
    emails := [{ mail := q! "a@b.c" }], keys := [{ id := q! "k", textData := q! "t" }] }

private theorem shownSample_ok : OneLineContact shownSample where
  texts := by decide
  logo := by decide
  photo := by decide
  sound := by decide
  gender := by decide
  emails := by decide
  langs := by decide
  phones := by decide
  addresses := by decide
  keys := by decide

/-- The hypotheses can be met, and place markers in the texts of a contact do no harm; a contact with another time zone has another representation. -/
example : PlainEnv Sample.textEnv ∧ OneLineContact shownSample ∧ shownLine (q! "Name") (q! "%1 %2") <:+: shownSample.toText Sample.textEnv ∧
    shownSample.toText Sample.textEnv ≠ { shownSample with timeZone := { offset := 60, isValid := true } }.toText Sample.textEnv :=
  ⟨Sample.textEnv_plain, shownSample_ok, C81_shows _ _ _ _ (by decide), by decide +kernel⟩

/-- The number of a phone number and its parameters are shown, but neither its id nor its type, nor the heading. -/
theorem C81_phone (p : PhoneNumber) : p.toText = paramsText p.params ++ q! "    Number: " ++ p.number ++ q! "\n}\n" := by
  unfold PhoneNumber.toText
  rw [arg_template (t := q! "    Number: %1\n") (by decide)]
  simp only [List.append_assoc]
  rfl

/-- "The representation of a phone number shows its type" is false: a mobile and a fax number look the same. -/
theorem C81_phone_false : ¬ ∀ p q : PhoneNumber, p.toText = q.toText → p.type = q.type := fun h =>
  absurd (h { id := q! "a", number := q! "12", type := 32 } { id := q! "b", number := q! "12", type := 16 } rfl) (by decide)

/-- Without the condition on line breaks different contacts can look the same. -/
theorem C81_breaks_false : ¬ ∀ c d : Contact, c.toText Sample.textEnv = d.toText Sample.textEnv → c.name = d.name := fun h =>
  absurd (h { uid := q! "u", name := q! "a\n  FormattedName: b", formattedName := q! "c" } { uid := q! "u", name := q! "a", formattedName := q! "b\n  FormattedName: c" }
    (by decide +kernel)) (by decide)

/-- A field group whose name has no per cent sign is shown with its name and value. -/
theorem C81_group_partial (g : FieldGroup) (h : qc! '%' ∉ g.fieldGroupName) :
    g.toText = q! "FieldGroup {\n    FieldGroupName: " ++ g.fieldGroupName ++ q! " Value " ++ g.value ++ q! "\n" ++ paramsText g.params ++ q! "}\n" := by
  have h1 : arg (q! "    FieldGroupName: %1 Value %2\n") g.fieldGroupName = q! "    FieldGroupName: " ++ (g.fieldGroupName ++ q! " Value %2\n") := by
    have hl : lowestMarker (q! "    FieldGroupName: %1 Value %2\n") = some 1 := by decide
    unfold arg
    rw [hl]
    exact replace_plain (p := q! "    FieldGroupName: ") (by decide) 1 g.fieldGroupName (q! "%1 Value %2\n")
  have hp : qc! '%' ∉ q! "    FieldGroupName: " ++ g.fieldGroupName ++ q! " Value " := by
    simp only [List.mem_append, not_or]
    exact ⟨⟨by decide, h⟩, by decide⟩
  have h2 : arg (q! "    FieldGroupName: " ++ (g.fieldGroupName ++ q! " Value %2\n")) g.value =
      q! "    FieldGroupName: " ++ g.fieldGroupName ++ q! " Value " ++ (g.value ++ [10]) := by
    have e : q! "    FieldGroupName: " ++ (g.fieldGroupName ++ q! " Value %2\n") =
        (q! "    FieldGroupName: " ++ g.fieldGroupName ++ q! " Value ") ++ q! "%2\n" := by
      simp only [List.append_assoc]
      rfl
    have hl : lowestMarker ((q! "    FieldGroupName: " ++ g.fieldGroupName ++ q! " Value ") ++ q! "%2\n") = some 2 := by
      rw [lowest_plain hp]
      decide
    rw [e]
    unfold arg
    rw [hl]
    exact replace_plain hp 2 g.value (q! "%2\n")
  unfold FieldGroup.toText
  rw [h1, h2]
  simp only [List.append_assoc]
  rfl

/-- With a per cent sign in the name the value can be put into the name. -/
theorem C81_group_false : ¬ ∀ g : FieldGroup,
    g.toText = q! "FieldGroup {\n    FieldGroupName: " ++ g.fieldGroupName ++ q! " Value " ++ g.value ++ q! "\n" ++ paramsText g.params ++ q! "}\n" := fun h =>
  absurd (h { fieldGroupName := q! "%1", value := q! "v" }) (by decide +kernel)

end KC
