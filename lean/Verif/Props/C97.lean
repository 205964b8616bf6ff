import Verif.Lemmas.LdifPairs
import Verif.Props.C70
/-
  C97. Changing one field of a contact changes only that field's attributes in the LDIF export; what LDIF has no attribute for has no influence on it.
-/
namespace KC
namespace Spec

/-- The attributes a field is written as in LDIF. -/
def ldifAttributesFor : Field → List QString
  | .uid => [q! "uid"]
  | .formattedName => [q! "dn", q! "cn"]
  | .givenName => [q! "givenname"]
  | .familyName => [q! "sn"]
  | .prefix_ => [q! "vocation"]
  | .text .nickName => [q! "nickname", q! "xmozillanickname", q! "mozillanickname"]
  | .text .title => [q! "title"]
  | .text .role => [q! "ou"]
  | .text .organization => [q! "o", q! "organization", q! "organizationname"]
  | .department | .customs => [q! "department"]
  | .note => [q! "description"]
  | .revision => [q! "modifytimestamp"]
  | .birthday => [q! "birthyear", q! "birthmonth", q! "birthday"]
  | .extraUrls => [q! "workurl", q! "homeurl", q! "mozillahomeurl"]
  | .emails => [q! "dn", q! "mail", q! "mozillasecondemail", q! "othermailbox"]
  | .phoneNumbers => [q! "telephonenumber", q! "facsimiletelephonenumber", q! "homephone", q! "mobile", q! "cellphone", q! "pager", q! "pagerphone"]
  | .addresses => [q! "streethomeaddress", q! "postalcode", q! "postofficebox", q! "homepostaladdress", q! "mozillahomepostaladdress2",
      q! "mozillahomelocalityname", q! "mozillahomestate", q! "mozillahomepostalcode", q! "mozillahomecountryname", q! "locality", q! "streetaddress",
      q! "street", q! "mozillaworkstreet2", q! "countryname", q! "l", q! "c", q! "st"]
  | _ => []

/-- An attribute with its value and the line (folded, in base64 if need be) that is written for it; nothing is written for an empty value. -/
def attributeLine (p : QString × QString) : QString := ldifOut p.1 p.2

end Spec
open Spec

/-! ### Proof -/

/-- Two attributes of the same name, with the same value unless the name is one of `ns`. -/
def SameBut (ns : List QString) (p q : QString × QString) : Prop := p.1 = q.1 ∧ (p.1 ∈ ns ∨ p.2 = q.2)

theorem sameBut_filter {ns : List QString} {l l' : List (QString × QString)} (h : List.Forall₂ (SameBut ns) l l') :
    l.filter (fun p => decide (p.1 ∉ ns)) = l'.filter fun p => decide (p.1 ∉ ns) := by
  induction h with
  | nil => rfl
  | @cons p q l l' h _ ih =>
    obtain ⟨h1, h2⟩ := h
    by_cases hm : p.1 ∈ ns
    · rw [List.filter_cons_of_neg (by simpa using hm), List.filter_cons_of_neg (by rw [← h1]; simpa using hm), ih]
    · rw [List.filter_cons_of_pos (by simpa using hm), List.filter_cons_of_pos (by rw [← h1]; simpa using hm), ih]
      rw [show p = q from Prod.ext h1 (h2.resolve_left hm)]

section
variable {c c' : Contact} {ns : List QString} (h : ∀ g, (∃ n ∈ ldifAttributesFor g, n ∉ ns) → SameIn c c' g)
include h

/-- An attribute that depends on one field. -/
theorem sameBut_one {n : QString} {a b : QString} (g : Field) (hn : n ∈ ldifAttributesFor g) (hv : SameIn c c' g → a = b) : SameBut ns (n, a) (n, b) := by
  refine ⟨rfl, ?_⟩
  by_cases e : n ∈ ns
  · exact .inl e
  · exact .inr (hv (h g ⟨n, hn, e⟩))

/-- An attribute that depends on two fields. -/
theorem sameBut_two {n : QString} {a b : QString} (g g' : Field) (hn : n ∈ ldifAttributesFor g) (hn' : n ∈ ldifAttributesFor g')
    (hv : SameIn c c' g → SameIn c c' g' → a = b) : SameBut ns (n, a) (n, b) := by
  refine ⟨rfl, ?_⟩
  by_cases e : n ∈ ns
  · exact .inl e
  · exact .inr (hv (h g ⟨n, hn, e⟩) (h g' ⟨n, hn', e⟩))

omit h in
theorem sameBut_const {n a : QString} : SameBut ns (n, a) (n, a) := ⟨rfl, .inr rfl⟩

omit h in
theorem sameIn_phone (fresh : QString) (t : Nat) (e : SameIn c c' .phoneNumbers) : c.phoneNumber fresh t = c'.phoneNumber fresh t := by
  unfold Contact.phoneNumber
  rw [show c.phoneNumbers = c'.phoneNumbers from e]

omit h in
theorem sameIn_address (fresh : QString) (t : Nat) (e : SameIn c c' .addresses) : c.address fresh t = c'.address fresh t := by
  unfold Contact.address
  rw [show c.addresses = c'.addresses from e]

omit h in
theorem sameIn_text (k : TextList) (e : SameIn c c' (.text k)) : c.text k = c'.text k := by
  unfold Contact.text Contact.texts
  cases k <;> simp only <;> rw [show _ = _ from e]

theorem ldifDn_same : SameBut ns (q! "dn", ldifDn c) (q! "dn", ldifDn c') :=
  sameBut_two h .formattedName .emails (by decide) (by decide) fun e e' => by
    unfold ldifDn Contact.preferredEmail
    rw [show c.formattedName = c'.formattedName from e, show c.emails = c'.emails from e']

theorem ldifPairs1_same : List.Forall₂ (SameBut ns) (ldifPairs1 c) (ldifPairs1 c') := by
  refine .cons sameBut_const <| .cons sameBut_const <| .cons sameBut_const <|
    .cons (sameBut_one h .givenName (by decide) id) <| .cons (sameBut_one h .familyName (by decide) id) <|
    .cons (sameBut_one h .formattedName (by decide) fun e => by rw [show c.formattedName = c'.formattedName from e]) <|
    .cons (sameBut_one h .uid (by decide) id) <| .cons (sameBut_one h (.text .nickName) (by decide) (sameIn_text _)) <|
    .cons (sameBut_one h (.text .nickName) (by decide) (sameIn_text _)) <| .cons (sameBut_one h (.text .nickName) (by decide) (sameIn_text _)) <|
    .cons (sameBut_one h .emails (by decide) fun e => ?_) .nil
  unfold Contact.preferredEmail
  rw [show c.emails = c'.emails from e]

theorem ldifPairs2_same (E : LdifEnv) (fresh : QString) :
    List.Forall₂ (SameBut ns) (ldifPairs2 E fresh c) (ldifPairs2 E fresh c') := by
  have P (n : QString) (hn : n ∈ ldifAttributesFor .phoneNumbers) (t : Nat) :
      SameBut ns (n, (c.phoneNumber fresh t).number) (n, (c'.phoneNumber fresh t).number) :=
    sameBut_one h .phoneNumbers hn fun e => by rw [sameIn_phone fresh t e]
  have A (n : QString) (hn : n ∈ ldifAttributesFor .addresses) (t : Nat) (g : Address → QString) :
      SameBut ns (n, g (c.address fresh t)) (n, g (c'.address fresh t)) :=
    sameBut_one h .addresses hn fun e => by rw [sameIn_address fresh t e]
  have T (n : QString) (k : TextList) (hn : n ∈ ldifAttributesFor (.text k)) : SameBut ns (n, c.text k) (n, c'.text k) :=
    sameBut_one h (.text k) hn (sameIn_text k)
  have U (n : QString) (hn : n ∈ ldifAttributesFor .extraUrls) : SameBut ns (n, E.urlDisplay c.url.url) (n, E.urlDisplay c'.url.url) :=
    sameBut_one h .extraUrls hn fun e => by unfold Contact.url; rw [show c.extraUrls = c'.extraUrls from e]
  have B (n : QString) (hn : n ∈ ldifAttributesFor .birthday) (g : QString × QString × QString → QString) :
      SameBut ns (n, g (birthTexts c.birthday)) (n, g (birthTexts c'.birthday)) :=
    sameBut_one h .birthday hn fun e => by rw [show c.birthday = c'.birthday from e.1]
  unfold ldifPairs2
  refine .cons (P _ (by decide) _) <| .cons (P _ (by decide) _) <| .cons (P _ (by decide) _) <| .cons (P _ (by decide) _) <|
    .cons (P _ (by decide) _) <| .cons (P _ (by decide) _) <| .cons (P _ (by decide) _) <|
    .cons (A _ (by decide) _ (·.street)) <| .cons (A _ (by decide) _ (·.postalCode)) <| .cons (A _ (by decide) _ (·.postOfficeBox)) <|
    .cons (A _ (by decide) _ fun a => (streetLines a.street).1) <| .cons (A _ (by decide) _ fun a => (streetLines a.street).2) <|
    .cons (A _ (by decide) _ (·.locality)) <| .cons (A _ (by decide) _ (·.region)) <| .cons (A _ (by decide) _ (·.postalCode)) <|
    .cons (A _ (by decide) _ fun a => E.countryName a.country) <| .cons (A _ (by decide) _ (·.locality)) <| .cons (A _ (by decide) _ (·.street)) <|
    .cons (A _ (by decide) _ fun a => (streetLines a.street).1) <| .cons (A _ (by decide) _ fun a => (streetLines a.street).2) <|
    .cons (A _ (by decide) _ fun a => E.countryName a.country) <| .cons (A _ (by decide) _ (·.locality)) <|
    .cons (A _ (by decide) _ fun a => E.countryName a.country) <| .cons (A _ (by decide) _ (·.region)) <|
    .cons (T _ _ (by decide)) <| .cons (sameBut_one h .prefix_ (by decide) id) <| .cons (T _ _ (by decide)) <| .cons (T _ _ (by decide)) <|
    .cons (T _ _ (by decide)) <| .cons (T _ _ (by decide)) <|
    .cons (sameBut_two h .department .customs (by decide) (by decide) fun e e' => by
      unfold departmentOf Contact.custom
      rw [show c.department = c'.department from e, show c.customs = c'.customs from e']) <|
    .cons (U _ (by decide)) <| .cons (U _ (by decide)) <| .cons (U _ (by decide)) <| .cons (sameBut_one h .note (by decide) id) <|
    .cons (sameBut_one h .revision (by decide) fun e => by rw [show c.revision = c'.revision from e]) <|
    .cons (B _ (by decide) (·.1)) <| .cons (B _ (by decide) (·.2.1)) <| .cons (B _ (by decide) (·.2.2)) .nil

theorem emailPairs_same : (emailPairs c.emailAddresses).filter (fun p => decide (p.1 ∉ ns)) = (emailPairs c'.emailAddresses).filter fun p => decide (p.1 ∉ ns) := by
  by_cases e : q! "mozillasecondemail" ∈ ns ∧ q! "othermailbox" ∈ ns
  · have : ∀ es, (emailPairs es).filter (fun p => decide (p.1 ∉ ns)) = [] := by
      intro es
      rw [List.filter_eq_nil_iff]
      intro p hp
      unfold emailPairs at hp
      split at hp
      · cases hp
      · rcases List.mem_cons.1 hp with rfl | hp
        · simpa using e.1
        · obtain ⟨e', -, rfl⟩ := List.mem_map.1 hp
          simpa using e.2
    rw [this, this]
  · have : SameIn c c' .emails := by
      refine h .emails ?_
      rcases Classical.not_and_iff_not_or_not.1 e with e | e
      · exact ⟨_, by decide, e⟩
      · exact ⟨_, by decide, e⟩
    unfold Contact.emailAddresses
    rw [show c.emails = c'.emails from this]

end

theorem pairs_attributes (l : List (QString × QString)) : pairsText l = l.flatMap attributeLine := rfl

/-! ### Theorems -/

/-- **C97.** Two contacts with content that differ only in fields whose attributes are all among `names` are exported as lists of attribute lines
    followed by an empty line, and the attributes with other names are the same, in the same order. -/
theorem C97 (E : LdifEnv) (fresh : QString) (c c' : Contact) (hc : c.empty = false) (hc' : c'.empty = false) (names : List QString)
    (h : ∀ g, (∃ n ∈ ldifAttributesFor g, n ∉ names) → SameIn c c' g) : ∃ attrs attrs' : List (QString × QString),
      (addresseeToLDIF E fresh c []).2 = attrs.flatMap attributeLine ++ q! "\n" ∧
      (addresseeToLDIF E fresh c' []).2 = attrs'.flatMap attributeLine ++ q! "\n" ∧
      attrs.filter (fun p => decide (p.1 ∉ names)) = attrs'.filter fun p => decide (p.1 ∉ names) := by
  refine ⟨(q! "dn", ldifDn c) :: ldifPairs E fresh c, (q! "dn", ldifDn c') :: ldifPairs E fresh c', ?_, ?_, ?_⟩
  · rw [addresseeToLDIF_pairs E fresh c [] hc, ← pairs_attributes, pairsText_cons]
    simp only [List.nil_append]
  · rw [addresseeToLDIF_pairs E fresh c' [] hc', ← pairs_attributes, pairsText_cons]
    simp only [List.nil_append]
  · rw [← List.singleton_append, ← List.singleton_append (x := (q! "dn", ldifDn c'))]
    unfold ldifPairs
    simp only [List.filter_append]
    rw [sameBut_filter (.cons (ldifDn_same h) .nil), sameBut_filter (ldifPairs1_same h), emailPairs_same h, sameBut_filter (ldifPairs2_same h E fresh)]

/-- One field: only the attributes of that field change. -/
theorem C97_field (E : LdifEnv) (fresh : QString) (c c' : Contact) (hc : c.empty = false) (hc' : c'.empty = false) (f : Field)
    (h : ∀ g, g ≠ f → SameIn c c' g) : ∃ attrs attrs' : List (QString × QString),
      (addresseeToLDIF E fresh c []).2 = attrs.flatMap attributeLine ++ q! "\n" ∧
      (addresseeToLDIF E fresh c' []).2 = attrs'.flatMap attributeLine ++ q! "\n" ∧
      attrs.filter (fun p => decide (p.1 ∉ ldifAttributesFor f)) = attrs'.filter fun p => decide (p.1 ∉ ldifAttributesFor f) :=
  C97 E fresh c c' hc hc' (ldifAttributesFor f) fun g ⟨n, hn, hf⟩ => h g fun e => hf (e ▸ hn)

/-- Fields that LDIF has no attribute for have no influence on the text: contacts that agree in the others are exported as the same text. So an LDIF
    export never gives them away. -/
theorem C97_silent (E : LdifEnv) (fresh : QString) (c c' : Contact) (hc : c.empty = c'.empty)
    (h : ∀ g, ldifAttributesFor g ≠ [] → SameIn c c' g) (str : QString) : addresseeToLDIF E fresh c str = addresseeToLDIF E fresh c' str := by
  cases e : c.empty with
  | true =>
    have e' := hc ▸ e
    unfold addresseeToLDIF
    rw [if_pos e, if_pos e']
  | false =>
    have e' := hc ▸ e
    obtain ⟨a, b, h1, h2, h3⟩ := C97 E fresh c c' e e' [] fun g ⟨n, hn, _⟩ => h g (List.ne_nil_of_mem hn)
    rw [List.filter_eq_self.2 (by simp), List.filter_eq_self.2 (by simp)] at h3
    rw [addresseeToLDIF_pairs E fresh c [] e] at h1
    rw [addresseeToLDIF_pairs E fresh c' [] e'] at h2
    rw [addresseeToLDIF_pairs E fresh c str e, addresseeToLDIF_pairs E fresh c' str e']
    simp only [List.nil_append] at h1 h2
    rw [h1, h2, h3]

/-- A call about a field leaves the attributes of all other fields as they were. -/
theorem C97_call (E : LdifEnv) (fresh : QString) (Q : QtEnv) (c : Contact) (op : Op) (hc : c.empty = false) (hc' : (c.apply Q op).empty = false) :
    ∃ attrs attrs' : List (QString × QString),
      (addresseeToLDIF E fresh c []).2 = attrs.flatMap attributeLine ++ q! "\n" ∧
      (addresseeToLDIF E fresh (c.apply Q op) []).2 = attrs'.flatMap attributeLine ++ q! "\n" ∧
      attrs.filter (fun p => decide (p.1 ∉ ldifAttributesFor (fieldOf op))) = attrs'.filter fun p => decide (p.1 ∉ ldifAttributesFor (fieldOf op)) :=
  C97_field E fresh c (c.apply Q op) hc hc' (fieldOf op) fun _ hg => sameIn_symm (apply_other Q c op hg)

/-- A call about a field that LDIF has no attribute for does not change the export of a contact that has content. -/
theorem C97_call_silent (E : LdifEnv) (fresh : QString) (Q : QtEnv) (c : Contact) (op : Op) (hc : (c.apply Q op).empty = c.empty)
    (hop : ldifAttributesFor (fieldOf op) = []) (str : QString) : addresseeToLDIF E fresh (c.apply Q op) str = addresseeToLDIF E fresh c str :=
  C97_silent E fresh _ c hc (fun g hg => apply_other Q c op fun e => hg (e ▸ hop)) str

/-! ### The hypotheses are met -/

private def ida : Contact := { uid := q! "u", familyName := q! "Lee", titles := [{ text := q! "Judge" }], categories := [q! "secret"], empty := false }

example : (ida.empty = false ∧ (ida.apply Sample.env.toQtEnv (.text .title (q! "Chief"))).empty = false) ∧
    ldifAttributesFor (fieldOf (.text .title (q! "Chief"))) = [q! "title"] := by decide

example : (ida.apply Sample.env.toQtEnv (.categories [])).empty = ida.empty ∧ ldifAttributesFor (fieldOf (.categories [])) = [] ∧
    (ida.apply Sample.env.toQtEnv (.categories [])).categories ≠ ida.categories := by decide

/-- Without the last part of the claim's hypotheses: an object that was never touched is not exported at all, so the first call about any field adds
    lines that belong to no field. -/
example : (addresseeToLDIF sampleLdifEnv (q! "f") (Contact.new (q! "u")) []).2 = [] ∧
    (addresseeToLDIF sampleLdifEnv (q! "f") ((Contact.new (q! "u")).apply Sample.env.toQtEnv (.categories [])) []).2 ≠ [] := by decide +kernel

end KC
