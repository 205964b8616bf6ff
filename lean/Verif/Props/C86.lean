import Mathlib.Data.List.Forall2
import Verif.Lemmas.Compute
import Verif.Props.C71
import Verif.Props.C77
import Verif.Spec.Sample
/- C86: exports are reproducible: the ids the library makes up do not show in them. -/
namespace KC
open Spec

private theorem parts_of {c d : Contact} (h : apartFromIds c = apartFromIds d) (hu : c.uid = d.uid) :
    ∃ e A P K, d = { c with empty := e, addresses := A, phoneNumbers := P, keys := K } ∧
      c.addresses.map ({ · with id := [] }) = A.map ({ · with id := [] }) ∧ c.phoneNumbers.map ({ · with id := [] }) = P.map ({ · with id := [] }) ∧
      c.keys.map ({ · with id := [] }) = K.map ({ · with id := [] }) := by
  refine ⟨d.empty, d.addresses, d.phoneNumbers, d.keys, ?_, congrArg Contact.addresses h, congrArg Contact.phoneNumbers h, congrArg Contact.keys h⟩
  have e : ∀ c : Contact, c = { apartFromIds c with uid := c.uid, empty := c.empty, addresses := c.addresses, phoneNumbers := c.phoneNumbers, keys := c.keys } := fun _ => rfl
  rw [e d, ← h, ← hu]
  rfl

private theorem map_strip {α β : Type} (strip : α → α) (f : α → β) (hf : ∀ a, f a = f (strip a)) {l m : List α} (h : l.map strip = m.map strip) : l.map f = m.map f := by
  have e : ∀ l : List α, l.map f = (l.map strip).map f := by
    intro l
    rw [List.map_map]
    exact List.map_congr_left fun a _ => hf a
  rw [e l, e m, h]

private theorem lines_same (E : ToolEnv) (v : Version) (ex : Bool) {c d : Contact} (h : apartFromIds c = apartFromIds d) (hu : c.uid = d.uid) :
    contactLines E v ex c = contactLines E v ex d := by
  obtain ⟨e, A, P, K, rfl, hA, hP, hK⟩ := parts_of h hu
  have h1 : adrLines E v c = adrLines E v { c with empty := e, addresses := A, phoneNumbers := P, keys := K } := by
    show c.addresses.flatMap _ = A.flatMap _
    rw [List.flatMap_def, List.flatMap_def, map_strip (fun a : Address => { a with id := [] }) (addressLines E v) (fun _ => rfl) hA]
  have h2 : telLines v c = telLines v { c with empty := e, addresses := A, phoneNumbers := P, keys := K } := map_strip (fun a : PhoneNumber => { a with id := [] }) (phoneLine v) (fun _ => rfl) hP
  have h3 : keyLines v c = keyLines v { c with empty := e, addresses := A, phoneNumbers := P, keys := K } := map_strip (fun a : Key => { a with id := [] }) (fun k => createKey k v) (fun _ => rfl) hK
  unfold contactLines contactSections
  rw [h1, h2, h3]
  rfl

/-- **C86.** Contacts that differ only in the ids of their addresses, phone numbers and keys (and in the mark whether they are empty) are written as the
    same text. -/
theorem C86_vcard (E : ToolEnv) (v : Version) (ex : Bool) (cs ds : List Contact) (h : cs.map apartFromIds = ds.map apartFromIds) (hu : cs.map (·.uid) = ds.map (·.uid)) :
    createContacts E v ex cs = createContacts E v ex ds := by
  unfold createContacts
  congr 1
  induction cs generalizing ds with
  | nil =>
    cases ds with
    | nil => rfl
    | cons d ds => simp at h
  | cons c cs ih =>
    cases ds with
    | nil => simp at h
    | cons d ds =>
      rw [List.map_cons, List.map_cons, List.cons.injEq] at h hu
      rw [List.map_cons, List.map_cons, ih ds h.2 hu.2, lines_same E v ex h.1 hu.1]

/-- **C86.** A text that is read twice, with different ids made up, and written again gives the same text, if the uids of the contacts are the same - as they
    are when each card has one. -/
theorem C86_reread (E : ToolEnv) (ids ids' : IdKind → Nat → QString) (hi : NeverTwice ids) (hi' : NeverTwice ids') (fuel : Nat) (text : QByteArray) (cs cs' : List Contact)
    (h : parseContacts E ids fuel text = .ok cs) (h' : parseContacts E ids' fuel text = .ok cs') (v : Version) (ex : Bool)
    (hu : ∀ c ∈ cs, ∀ i, c.uid ≠ ids .contact i) : createContacts E v ex cs = createContacts E v ex cs' := by
  obtain ⟨ds, h1, h2, h3⟩ := (C71_same_data E ids ids' hi hi' fuel text).2.2 cs h
  obtain rfl : ds = cs' := by rw [h1] at h'; exact (by injection h')
  refine C86_vcard E v ex cs ds h2 ?_
  have hl : cs.length = ds.length := by simpa using congrArg List.length h2
  apply List.ext_getElem (by simpa using hl)
  intro i hc hd
  rw [List.length_map] at hc hd
  rw [List.getElem_map, List.getElem_map]
  rcases h3 i cs[i] ds[i] (List.getElem?_eq_getElem hc) (List.getElem?_eq_getElem hd) with e | e
  · exact e
  · exact absurd e.1 (hu _ (List.getElem_mem hc) i)

/-! ### LDIF -/

private theorem addressLoop_same (t : Nat) (l m : List Address) (h : l.map ({ · with id := [] }) = m.map ({ · with id := [] })) (x y : Address)
    (hxy : ({ x with id := [] } : Address) = { y with id := [] }) :
    ({ addressLoop t x l with id := [] } : Address) = { addressLoop t y m with id := [] } := by
  induction l generalizing m x y with
  | nil =>
    cases m with
    | nil => exact hxy
    | cons b m => simp at h
  | cons a l ih =>
    cases m with
    | nil => simp at h
    | cons b m =>
      rw [List.map_cons, List.map_cons, List.cons.injEq] at h
      have ht : a.type = b.type := by injection h.1
      have he : x.empty = y.empty := by injection hxy
      simp only [addressLoop, ht, he]
      split_ifs
      · exact h.1
      · exact ih m h.2 _ _ h.1
      · exact ih m h.2 _ _ hxy
      · exact ih m h.2 _ _ hxy

private theorem phoneLoop_same (t : Nat) (l m : List PhoneNumber) (h : l.map ({ · with id := [] }) = m.map ({ · with id := [] })) (x y : PhoneNumber)
    (hxy : ({ x with id := [] } : PhoneNumber) = { y with id := [] }) :
    ({ phoneLoop t x l with id := [] } : PhoneNumber) = { phoneLoop t y m with id := [] } := by
  induction l generalizing m x y with
  | nil =>
    cases m with
    | nil => exact hxy
    | cons b m => simp at h
  | cons a l ih =>
    cases m with
    | nil => simp at h
    | cons b m =>
      rw [List.map_cons, List.map_cons, List.cons.injEq] at h
      have ht : a.type = b.type := by injection h.1
      have he : x.number = y.number := by injection hxy
      simp only [phoneLoop, ht, he]
      split_ifs
      · exact h.1
      · exact ih m h.2 _ _ h.1
      · exact ih m h.2 _ _ hxy
      · exact ih m h.2 _ _ hxy

private theorem ldif_same (E : LdifEnv) (f f' : QString) {c d : Contact} (h : apartFromIds c = apartFromIds d) (hu : c.uid = d.uid) (he : c.empty = d.empty) (str : QString) :
    addresseeToLDIF E f c str = addresseeToLDIF E f' d str := by
  obtain ⟨e, A, P, K, rfl, hA, hP, -⟩ := parts_of h hu
  have ha : ∀ t, ({ addressLoop t { id := f, type := t } c.addresses with id := [] } : Address) = { addressLoop t { id := f', type := t } A with id := [] } :=
    fun t => addressLoop_same t _ _ hA _ _ rfl
  have hp : ∀ t, (phoneLoop t (PhoneNumber.mk' f [] t) c.phoneNumbers).number = (phoneLoop t (PhoneNumber.mk' f' [] t) P).number :=
    fun t => by
    have := phoneLoop_same t _ _ hP (PhoneNumber.mk' f [] t) (PhoneNumber.mk' f' [] t) rfl
    injection this
  have a1 := fun t => congrArg Address.street (ha t)
  have a2 := fun t => congrArg Address.locality (ha t)
  have a3 := fun t => congrArg Address.region (ha t)
  have a4 := fun t => congrArg Address.postalCode (ha t)
  have a5 := fun t => congrArg Address.country (ha t)
  have a6 := fun t => congrArg Address.postOfficeBox (ha t)
  simp only at a1 a2 a3 a4 a5 a6
  obtain rfl : c.empty = e := he
  have b1 : ∀ t, (c.phoneNumber f t).number = (Contact.phoneNumber { c with empty := c.empty, addresses := A, phoneNumbers := P, keys := K } f' t).number := hp
  have c1 : ∀ t, (c.address f t).street = (Contact.address { c with empty := c.empty, addresses := A, phoneNumbers := P, keys := K } f' t).street := a1
  have c2 : ∀ t, (c.address f t).locality = (Contact.address { c with empty := c.empty, addresses := A, phoneNumbers := P, keys := K } f' t).locality := a2
  have c3 : ∀ t, (c.address f t).region = (Contact.address { c with empty := c.empty, addresses := A, phoneNumbers := P, keys := K } f' t).region := a3
  have c4 : ∀ t, (c.address f t).postalCode = (Contact.address { c with empty := c.empty, addresses := A, phoneNumbers := P, keys := K } f' t).postalCode := a4
  have c5 : ∀ t, (c.address f t).country = (Contact.address { c with empty := c.empty, addresses := A, phoneNumbers := P, keys := K } f' t).country := a5
  have c6 : ∀ t, (c.address f t).postOfficeBox = (Contact.address { c with empty := c.empty, addresses := A, phoneNumbers := P, keys := K } f' t).postOfficeBox := a6
  have d1 : ∀ l, c.text l = Contact.text { c with empty := c.empty, addresses := A, phoneNumbers := P, keys := K } l := fun _ => rfl
  have d2 : c.preferredEmail = Contact.preferredEmail { c with empty := c.empty, addresses := A, phoneNumbers := P, keys := K } := rfl
  have d3 : c.emailAddresses = Contact.emailAddresses { c with empty := c.empty, addresses := A, phoneNumbers := P, keys := K } := rfl
  have d4 : ∀ a n, c.custom a n = Contact.custom { c with empty := c.empty, addresses := A, phoneNumbers := P, keys := K } a n := fun _ _ => rfl
  have d5 : c.url = Contact.url { c with empty := c.empty, addresses := A, phoneNumbers := P, keys := K } := rfl
  simp only [addresseeToLDIF, b1, c1, c2, c3, c4, c5, c6, d1, d2, d3, d4, d5]

private theorem foldl_same {α β : Type} (F G : β → α → β) {l m : List α} (h : List.Forall₂ (fun c d => ∀ acc, F acc c = G acc d) l m) (acc : β) :
    l.foldl F acc = m.foldl G acc := by
  induction h generalizing acc with
  | nil => rfl
  | cons h _ ih => rw [List.foldl_cons, List.foldl_cons, h, ih]

private theorem two_lists (cs ds : List Contact) (h : cs.map apartFromIds = ds.map apartFromIds) (hu : cs.map (·.uid) = ds.map (·.uid)) (he : cs.map (·.empty) = ds.map (·.empty)) :
    List.Forall₂ (fun c d => apartFromIds c = apartFromIds d ∧ c.uid = d.uid ∧ c.empty = d.empty) cs ds := by
  induction cs generalizing ds with
  | nil =>
    cases ds with
    | nil => exact .nil
    | cons d ds => simp at h
  | cons c cs ih =>
    cases ds with
    | nil => simp at h
    | cons d ds =>
      rw [List.map_cons, List.map_cons, List.cons.injEq] at h hu he
      exact .cons ⟨h.1, hu.1, he.1⟩ (ih ds h.2 hu.2 he.2)

/-- **C86.** The same for LDIF. (Whether a contact is empty decides about its export there.) -/
theorem C86_ldif (E : LdifEnv) (f f' : QString) (cs ds : List Contact) (h : cs.map apartFromIds = ds.map apartFromIds) (hu : cs.map (·.uid) = ds.map (·.uid))
    (he : cs.map (·.empty) = ds.map (·.empty)) (str : QString) : addresseesToLDIF E f cs str = addresseesToLDIF E f' ds str := by
  have hall := two_lists cs ds h hu he
  have hf := foldl_same (fun acc c => let r := addresseeToLDIF E f c acc.2; (r.1 || acc.1, r.2)) (fun acc c => let r := addresseeToLDIF E f' c acc.2; (r.1 || acc.1, r.2))
    (hall.imp fun c d hcd acc => by
      have := ldif_same E f f' hcd.1 hcd.2.1 hcd.2.2 acc.2
      simp only [this]) (true, str)
  cases hall with
  | nil => rw [addresseesToLDIF, addresseesToLDIF, if_pos (by simp), if_pos (by simp)]
  | cons _ _ =>
    rw [addresseesToLDIF, addresseesToLDIF, if_neg (by simp), if_neg (by simp)]
    exact hf

/-! ### A concrete case -/

namespace C86Example

/-- Other ids than those of the sample. -/
def ids2 : IdKind → Nat → QString := fun k n => q! "x" ++ Sample.ids k n

/-- A card with a uid, a phone number, an address and a key. -/
def text : QByteArray := b! "BEGIN:VCARD\r\nVERSION:3.0\r\nUID:u1\r\nFN:Ada\r\nADR;TYPE=home:;;1 Main St;Town;;;\r\nTEL;TYPE=home:123\r\nKEY;TYPE=PGP:abc\r\nEND:VCARD\r\n\r\n"

def contactOf (ids : IdKind → Nat → QString) : Contact := ((contactsIn Sample.env ids text).getD []).headD { uid := [] }

/-- What is read differs, what is written does not. -/
example : contactOf Sample.ids ≠ contactOf ids2 := by decide +kernel
example : apartFromIds (contactOf Sample.ids) = apartFromIds (contactOf ids2) := by decide +kernel
example : (contactOf Sample.ids).uid = (contactOf ids2).uid := by decide +kernel
example : createContacts Sample.env .v4_0 false [contactOf Sample.ids] = createContacts Sample.env .v4_0 false [contactOf ids2] :=
  C86_vcard _ _ _ _ _ (by decide +kernel) (by decide +kernel)
example (E : LdifEnv) (f f' : QString) : addresseesToLDIF E f [contactOf Sample.ids] [] = addresseesToLDIF E f' [contactOf ids2] [] :=
  C86_ldif _ _ _ _ _ (by decide +kernel) (by decide +kernel) (by decide +kernel) _
/-- Both readings succeed, for all large enough numbers of steps, and the uid is not a made up one. -/
example : ∃ n, ∀ fuel ≥ n, parseContacts Sample.env Sample.ids fuel text = .ok [contactOf Sample.ids] ∧ parseContacts Sample.env ids2 fuel text = .ok [contactOf ids2] := by
  obtain ⟨n, h⟩ := contactsIn_read (E := Sample.env) (ids := Sample.ids) (text := text) (cs := [contactOf Sample.ids]) (by decide +kernel)
  obtain ⟨m, h'⟩ := contactsIn_read (E := Sample.env) (ids := ids2) (text := text) (cs := [contactOf ids2]) (by decide +kernel)
  exact ⟨max n m, fun f hf => ⟨h f (le_trans (le_max_left _ _) hf), h' f (le_trans (le_max_right _ _) hf)⟩⟩
example : ∀ i, (contactOf Sample.ids).uid ≠ Sample.ids .contact i := by
  have h : (contactOf Sample.ids).uid = q! "u1" := by decide +kernel
  intro i e
  rw [h] at e
  cases i with
  | zero => exact absurd e (by decide)
  | succ i =>
    have := congrArg List.head? e
    rw [Sample.ids, List.replicate_succ] at this
    rw [List.head?_cons, List.head?_cons] at this
    exact absurd this (by decide)

end C86Example

end KC
