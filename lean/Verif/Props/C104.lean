import Verif.Spec.LdifSpelling
import Verif.Props.C103
/-
  C104. The value of an LDIF attribute may be written as it is or in base64.
-/
namespace KC
open KC.Spec

private theorem trim_pad (n pad : QByteArray) (h : NameBytes n) (hp : ∀ c ∈ pad, c = 32 ∨ c = 9) : trimmedB (n ++ pad) = n := by
  obtain ⟨c, t, rfl, hc⟩ := h.start
  have ht := h.trimmed
  have hsp : ∀ x ∈ pad.reverse, isSpaceB x = true := by
    intro x hx
    rcases hp x (by simpa using hx) with rfl | rfl <;> decide
  have h0 : isSpaceB c = false := by
    cases hs : isSpaceB c
    · rfl
    · exfalso
      have := congrArg List.length ht
      unfold trimmedB trim at this
      rw [List.dropWhile_cons_of_pos hs] at this
      have l1 := (List.dropWhile_suffix (l := (t.dropWhile isSpaceB).reverse) isSpaceB).length_le
      have l2 := (List.dropWhile_suffix (l := t) isSpaceB).length_le
      simp only [List.length_reverse, List.length_cons] at *
      omega
  unfold trimmedB trim at ht ⊢
  rw [List.dropWhile_cons_of_neg (by simp [h0])] at ht
  rw [List.cons_append, List.dropWhile_cons_of_neg (by simp [h0]), ← List.cons_append, List.reverse_append, List.dropWhile_append_of_pos hsp]
  exact ht

private theorem pad_clean {pad : QByteArray} (hp : ∀ c ∈ pad, c = 32 ∨ c = 9) {x : UInt8} (h1 : x ≠ 32) (h2 : x ≠ 9) : x ∉ pad := by
  intro hx
  rcases hp x hx with e | e
  · exact h1 e
  · exact h2 e

/-- what a spelled line says -/
private theorem split_spelled {name : QString} {value line : QByteArray} (h : LdifName name) (hl : SpelledLine name value line) :
    splitLine line = (name, value, false) := by
  have hb := LdifName.bytes h
  have hname : fromUtf8 (toUtf8 name) = name := C11_utf8_roundtrip_partial name h.wellFormed h.noBom
  cases hl with
  | plain pad hp h10 h13 =>
    have htr := trim_pad _ pad hb hp
    have hcol : c! ':' ∉ toUtf8 name ++ pad := by
      simp only [List.mem_append, not_or]
      exact ⟨hb.noColon, pad_clean hp (by decide) (by decide)⟩
    generalize toUtf8 name ++ pad = n at *
    have e : n ++ b! ": " ++ value = n ++ c! ':' :: (32 :: value) := by simp
    rw [e]
    unfold splitLine
    rw [indexOf?_append _ _ _ hcol]
    simp only [List.take_left, htr, hname]
    simp
  | encoded pad hp =>
    have htr := trim_pad _ pad hb hp
    have hcol : c! ':' ∉ toUtf8 name ++ pad := by
      simp only [List.mem_append, not_or]
      exact ⟨hb.noColon, pad_clean hp (by decide) (by decide)⟩
    generalize toUtf8 name ++ pad = n at *
    have e : n ++ b! ":: " ++ toBase64 value = n ++ c! ':' :: (c! ':' :: 32 :: toBase64 value) := by simp
    rw [e]
    unfold splitLine
    rw [indexOf?_append _ _ _ hcol]
    simp only [List.take_left, htr, hname]
    simp
    have h10 := C10_base64_roundtrip value
    split
    · rename_i hz
      rw [hz] at h10
      exact h10
    · exact h10
  | bare pad hp hv =>
    subst hv
    have htr := trim_pad _ pad hb hp
    have hcol : c! ':' ∉ toUtf8 name ++ pad := by
      simp only [List.mem_append, not_or]
      exact ⟨hb.noColon, pad_clean hp (by decide) (by decide)⟩
    generalize toUtf8 name ++ pad = n at *
    unfold splitLine
    rw [show n ++ b! ":" = n ++ c! ':' :: [] from rfl, indexOf?_append _ _ _ hcol]
    simp only [List.take_left, htr, hname]
    simp

/-- a spelled line is a line of a text -/
private theorem text_spelled {name : QString} {value line : QByteArray} (h : LdifName name) (hl : SpelledLine name value line) : LineText line line := by
  have hb := LdifName.bytes h
  obtain ⟨c, t, hn, hc⟩ := hb.start
  have key : ∀ w : QByteArray, 10 ∉ w → 13 ∉ w → LineText (toUtf8 name ++ w) (toUtf8 name ++ w) := by
    intro w h1 h2
    have n1 := hb.noLf
    have n2 := hb.noCr
    rw [hn] at n1 n2 ⊢
    simp only [List.mem_cons, not_or] at n1 n2
    exact .inr ⟨c, t ++ w, t ++ w, rfl, rfl, hc, Folded.plain _ (by simp [n1.2, h1]) (by simp [n2.2, h2])⟩
  cases hl with
  | plain pad hp h10 h13 =>
    rw [List.append_assoc, List.append_assoc]
    refine key _ ?_ ?_
    · simp [pad_clean hp (x := 10) (by decide) (by decide), h10]
    · simp [pad_clean hp (x := 13) (by decide) (by decide), h13]
  | encoded pad hp =>
    have hv := toBase64_clean value
    rw [List.append_assoc, List.append_assoc]
    refine key _ ?_ ?_
    · simp [pad_clean hp (x := 10) (by decide) (by decide), hv.1]
    · simp [pad_clean hp (x := 13) (by decide) (by decide), hv.2]
  | bare pad hp hv =>
    rw [List.append_assoc]
    refine key _ ?_ ?_
    · simp [pad_clean hp (x := 10) (by decide) (by decide)]
    · simp [pad_clean hp (x := 13) (by decide) (by decide)]

private theorem spelled_attrs {as : List (QString × QByteArray)} {lines : List QByteArray} (h : List.Forall₂ (fun a l => SpelledLine a.1 a.2 l) as lines) :
    (∀ a ∈ as, LdifName a.1) → ∀ {s : Ldif}, InEntry s →
    (ldifRun s lines).1.map LdifEvent.short = as.map (fun a => ⟨.item, a.1, a.2, false⟩) ∧ InEntry (ldifRun s lines).2 := by
  induction h with
  | nil => intro _ s hs; exact ⟨rfl, hs⟩
  | @cons a l as lines hl _ ih =>
    intro hn s hs
    have h1 := inEntry_item hs (split_spelled (hn a (by simp)) hl) (plain_ne (hn a (by simp)) a.2)
    have h2 := ih (fun b hb => hn b (by simp [hb])) h1.2
    simp only [ldifRun, List.map_append]
    rw [h1.1, h2.1]
    exact ⟨rfl, h2.2⟩

private theorem spelled_record (r : LdifRecord) (h : r.Proper) {text : QByteArray} (ht : r.SpelledAs text) :
    ∃ ls : List QByteArray, (∀ l ∈ ls, LineText l l) ∧ text = textOf ls ∧ ∀ s : Ldif, Ready s →
      (ldifRun s ls).1.map LdifEvent.short = r.items ∧ Ready (ldifRun s ls).2 := by
  obtain ⟨lines, n, hf, rfl⟩ := ht
  refine ⟨lines ++ List.replicate (n + 1) [], ?_, ?_, ?_⟩
  · have hall : ∀ (as : List (QString × QByteArray)) (ls : List QByteArray), (∀ a ∈ as, LdifName a.1) →
        List.Forall₂ (fun a l => SpelledLine a.1 a.2 l) as ls → ∀ l ∈ ls, LineText l l := by
      intro as ls hn h
      induction h with
      | nil => intro l hl; cases hl
      | @cons a l as ls h1 _ ih =>
        intro l' hl'
        simp only [List.mem_cons] at hl'
        rcases hl' with rfl | hl'
        · exact text_spelled (hn a (by simp)) h1
        · exact ih (fun b hb => hn b (by simp [hb])) l' hl'
    intro l hl
    simp only [List.mem_append, List.mem_replicate] at hl
    rcases hl with hl | ⟨-, rfl⟩
    · refine hall _ _ ?_ hf l hl
      intro a ha
      simp only [List.mem_cons] at ha
      rcases ha with rfl | ha
      · exact dn_name
      · exact h.names a ha
    · exact .inl ⟨rfl, rfl⟩
  · have e : ∀ m, List.replicate m (10 : UInt8) = ((List.replicate m ([] : QByteArray)).map (· ++ [10])).flatten := by
      intro m
      induction m with
      | zero => rfl
      | succ m ih => simp only [List.replicate_succ, List.map_cons, List.flatten_cons, ← ih]; rfl
    unfold textOf
    rw [List.map_append, List.flatten_append, ← e, List.flatMap]
  · intro s hs
    obtain ⟨a, as, ha, hv, hk⟩ := h.first
    have hn := h.names
    rw [ha] at hn hf
    cases hf with
    | cons d1 hf =>
      cases hf with
      | cons d2 hf =>
        have h1 := ready_dn hs (split_spelled dn_name d1)
        have h2 := ready_item h1.2 (split_spelled (hn a (by simp)) d2) (hn a (by simp)).nonempty hv hk
        have h3 := spelled_attrs hf (fun b hb => hn b (by simp [hb])) h2.2
        have h4 := inEntry_end h3.2
        have h5 := ready_blanks h4.2 n
        unfold LdifRecord.items
        rw [ha]
        simp only [List.cons_append, List.replicate_succ, ldifRun, ldifRun_append, List.map_append]
        rw [h1.1, h2.1, h3.1, h4.1, h5.1]
        exact ⟨by simp, h5.2⟩

private theorem spelled_records {rs : List LdifRecord} {texts : List QByteArray} (ht : List.Forall₂ LdifRecord.SpelledAs rs texts) :
    (∀ r ∈ rs, r.Proper) → ∃ ls : List QByteArray, (∀ l ∈ ls, LineText l l) ∧ texts.flatten = textOf ls ∧ ∀ s : Ldif, Ready s →
      (ldifRun s ls).1.map LdifEvent.short = rs.flatMap LdifRecord.items ∧ Ready (ldifRun s ls).2 := by
  induction ht with
  | nil => intro _; exact ⟨[], by simp, rfl, fun s hs => ⟨rfl, hs⟩⟩
  | @cons r t rs texts h1 _ ih =>
    intro h
    obtain ⟨ls, a1, a2, a3⟩ := spelled_record r (h r (by simp)) h1
    obtain ⟨ms, b1, b2, b3⟩ := ih (fun x hx => h x (by simp [hx]))
    refine ⟨ls ++ ms, ?_, ?_, ?_⟩
    · intro l hl
      rcases List.mem_append.1 hl with hl | hl
      · exact a1 l hl
      · exact b1 l hl
    · rw [List.flatten_cons, a2, b2]
      simp [textOf]
    · intro s hs
      have c1 := a3 s hs
      have c2 := b3 _ c1.2
      rw [ldifRun_append]
      simp only [List.map_append, List.flatMap_cons]
      rw [c1.1, c2.1]
      exact ⟨rfl, c2.2⟩

/-- **C104.** A file of properly formed entries is read as these entries, in whichever of the ways each value is written: as it is, in base64 or - when it
    is empty - not at all; with white space before the colon or without; with one or more empty lines between the entries. -/
theorem C104 (rs : List LdifRecord) (h : ∀ r ∈ rs, r.Proper) (text : QByteArray) (ht : SpelledFile rs text) (es : List LdifEvent) (he : DocumentItems text es) :
    es.map LdifEvent.short = rs.flatMap LdifRecord.items := by
  obtain ⟨n, texts, hf, rfl⟩ := ht
  obtain ⟨ls, h1, h2, h3⟩ := spelled_records hf h
  have e : ∀ m, List.replicate m (10 : UInt8) = textOf (List.replicate m []) := by
    intro m
    induction m with
    | zero => rfl
    | succ m ih => rw [List.replicate_succ, ih]; rfl
  have e2 : List.replicate n 10 ++ texts.flatten = textOf (((List.replicate n [] ++ ls).map fun l => (l, l)).map Prod.fst) := by
    rw [e, h2, List.map_map]
    simp [textOf, Function.comp_def]
  rw [e2] at he
  have hd := document_lines (ls := (List.replicate n [] ++ ls).map fun l => (l, l)) (by
    intro p hp
    simp only [List.mem_map, List.mem_append, List.mem_replicate] at hp
    obtain ⟨l, hl | hl, rfl⟩ := hp
    · exact .inl ⟨hl.2, hl.2⟩
    · exact h1 l hl) es he
  rw [short_of_noLine hd]
  have hb := ready_blanks ready_new n
  have hr := h3 _ hb.2
  have h5 := ready_blanks hr.2 2
  have e3 : ((List.replicate n ([] : QByteArray) ++ ls).map fun l => (l, l)).map Prod.snd = List.replicate n [] ++ ls := by
    rw [List.map_map]
    exact List.map_id _
  rw [e3, ldifRun_append, ldifRun_append, hb.1]
  have : (ldifRun (ldifRun (ldifRun {} (List.replicate n [])).2 ls).2 [[], []]).1 = [] := h5.1
  simp only [List.nil_append, List.map_append, this, List.map_nil, List.append_nil]
  exact hr.1

/-- **C104.** The contacts and groups imported from a file do not depend on how its values are written. -/
theorem C104_import (E : LdifEnv) (ids : Nat → QString) (now : QDateTime) (k linelen : Nat) (rs : List LdifRecord) (h : ∀ r ∈ rs, r.Proper) (text : QByteArray)
    (ht : SpelledFile rs text) (result : List Contact × List Group) :
    ImportGives E ids now k text result ↔ ImportGives E ids now k (rs.flatMap (LdifRecord.text linelen)) result := by
  unfold ImportGives
  obtain ⟨es, he⟩ := C42_readable text
  rw [import_all E _ now linelen rs h, ldifToAddressee_items E _ now _ es (by rw [toLatin1_document]; exact he), C104 rs h text ht es he]

/-- **C104.** The same with lines folded anywhere. -/
theorem C104_folded (E : LdifEnv) (ids : Nat → QString) (now : QDateTime) (k linelen : Nat) (rs : List LdifRecord) (h : ∀ r ∈ rs, r.Proper) (text : QByteArray)
    (h13 : 13 ∉ text) (hf : EmptyNotFolded text) (ht : SpelledFile rs (unfoldLdif text)) (result : List Contact × List Group) :
    ImportGives E ids now k text result ↔ ImportGives E ids now k (rs.flatMap (LdifRecord.text linelen)) result := by
  rw [← C104_import E ids now k linelen rs h _ ht result]
  unfold ImportGives
  obtain ⟨es, he⟩ := C42_readable text
  obtain ⟨fs, hf'⟩ := C42_readable (unfoldLdif text)
  rw [ldifToAddressee_items E _ now _ es (by rw [toLatin1_document]; exact he), ldifToAddressee_items E _ now _ fs (by rw [toLatin1_document]; exact hf'),
    short_of_noLine (C103 text h13 hf es fs he hf')]

/-- **C104 is false of lines without a space after the colon**, which LDIF (RFC 2849) allows as well: whatever the value, it loses its first character.
    With two spaces - also allowed - the second one becomes part of the value. -/
theorem C104_space (name : QString) (hn : LdifName name) (c : UInt8) (value : QByteArray) (hc : c ≠ c! ':' ∧ c ≠ c! '<') (hv : value ≠ []) :
    splitLine (toUtf8 name ++ b! ":" ++ c :: value) = (name, value, false) ∧
    splitLine (toUtf8 name ++ b! ":  " ++ c :: value) = (name, 32 :: c :: value, false) := by
  have hb := LdifName.bytes hn
  have hname : fromUtf8 (toUtf8 name) = name := C11_utf8_roundtrip_partial name hn.wellFormed hn.noBom
  have hcol := hb.noColon
  have htr := hb.trimmed
  generalize toUtf8 name = n at *
  constructor
  · unfold splitLine
    rw [show n ++ b! ":" ++ c :: value = n ++ c! ':' :: (c :: value) by simp, indexOf?_append _ _ _ hcol]
    simp only [List.take_left, htr, hname]
    simp [hc.1, hc.2]
  · unfold splitLine
    rw [show n ++ b! ":  " ++ c :: value = n ++ c! ':' :: (32 :: 32 :: c :: value) by simp, indexOf?_append _ _ _ hcol]
    simp only [List.take_left, htr, hname]
    simp

/-- **C104 is false of lines without a space after the colon**: imported, Ada is called "da". -/
theorem C104_space_false : (ldifToAddressee sampleLdifEnv (fun _ => []) sampleNow (documentString (b! "dn: x\ncn:Ada\n\n"))).map (fun r => r.1.map (·.formattedName)) =
    some [q! "da"] ∧
    (ldifToAddressee sampleLdifEnv (fun _ => []) sampleNow (documentString (b! "dn: x\ncn: Ada\n\n"))).map (fun r => r.1.map (·.formattedName)) = some [q! "Ada"] :=
  ⟨by decide +kernel, by decide +kernel⟩

/-! ### Instances -/

private theorem name_cn' : LdifName (q! "cn") := by
  refine ⟨by decide, ⟨"cn".toList, by decide⟩, by decide, by decide, by decide, by decide, by decide, ?_, ?_⟩ <;>
  · intro c hc; simp at hc; subst hc; unfold AsciiSpace; decide
private theorem name_l : LdifName (q! "l") := by
  refine ⟨by decide, ⟨"l".toList, by decide⟩, by decide, by decide, by decide, by decide, by decide, ?_, ?_⟩ <;>
  · intro c hc; simp at hc; subst hc; unfold AsciiSpace; decide

private def ada : LdifRecord := ⟨b! "cn=Ada", [(q! "cn", b! "Ada"), (q! "l", [])]⟩

private theorem ada_proper : ada.Proper where
  names := by
    intro a ha
    simp only [ada, List.mem_cons, List.not_mem_nil, or_false] at ha
    rcases ha with rfl | rfl
    · exact name_cn'
    · exact name_l
  first := ⟨_, _, rfl, by decide, by decide⟩

-- two spellings of the same entry in one file: base64 and no value, then plain with white space before the colon
private theorem ada_file : SpelledFile [ada, ada] (b! "\ndn:: Y249QWRh\ncn:: QWRh\nl:\n\n\ndn: cn=Ada\ncn\t : Ada\nl: \n\n") :=
  ⟨1, [b! "dn:: Y249QWRh\ncn:: QWRh\nl:\n\n\n", b! "dn: cn=Ada\ncn\t : Ada\nl: \n\n"],
    .cons ⟨[b! "dn:: Y249QWRh", b! "cn:: QWRh", b! "l:"], 1, .cons (.encoded [] (by simp)) (.cons (.encoded [] (by simp)) (.cons (.bare [] (by simp) rfl) .nil)), rfl⟩
      (.cons ⟨[b! "dn: cn=Ada", b! "cn\t : Ada", b! "l: "], 0, .cons (.plain [] (by simp) (by decide) (by decide))
        (.cons (.plain [9, 32] (by simp) (by decide) (by decide)) (.cons (.plain [] (by simp) (by decide) (by decide)) .nil)), rfl⟩ .nil), rfl⟩

example (E : LdifEnv) (ids : Nat → QString) (now : QDateTime) (result : List Contact × List Group) :
    ImportGives E ids now 0 (b! "\ndn:: Y249QWRh\ncn:: QWRh\nl:\n\n\ndn: cn=Ada\ncn\t : Ada\nl: \n\n") result ↔
      ImportGives E ids now 0 (b! "dn: cn=Ada\ncn: Ada\nl: \n\ndn: cn=Ada\ncn: Ada\nl: \n\n") result := by
  have e : [ada, ada].flatMap (LdifRecord.text 76) = b! "dn: cn=Ada\ncn: Ada\nl: \n\ndn: cn=Ada\ncn: Ada\nl: \n\n" := by decide +kernel
  rw [← e]
  exact C104_import E ids now 0 76 _ (by simp [ada_proper]) _ ada_file result
example : splitLine (b! "cn:Ada") = (q! "cn", b! "da", false) := (C104_space _ name_cn' (c! 'A') (b! "da") (by decide) (by decide)).1

end KC
