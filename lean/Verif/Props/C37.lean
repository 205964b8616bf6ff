import Verif.Lemmas.Mail
/-
  C37 — "Name <address>" texts.
-/
namespace KC
open KC.Spec

/-- Parsing any text comes to an end without reading past the end of the text (there is no undefined behaviour), whatever `toLower` does. -/
theorem C37_total (lower : QString → QString) (raw : QString) : ∃ r, parseEmailAddress lower raw = some r := ⟨_, parseEmailAddress_run lower raw⟩

private theorem valid_cons (c : UInt16) (t : QString) : utf16Valid (c :: t) =
    if c < 0xD800 ∨ 0xE000 ≤ c then utf16Valid t else if 0xDC00 ≤ c then false else match t with | [] => false | d :: t' => decide (0xDC00 ≤ d ∧ d < 0xE000) && utf16Valid t' := by
  cases t with
  | nil => rw [utf16Valid.eq_def]
  | cons d t => rw [utf16Valid.eq_def]

private theorem utf16Valid_utf16 (cs : List Char) : utf16Valid (utf16 cs) = true := by
  induction cs with
  | nil => rfl
  | cons c cs ih =>
    have e : utf16 (c :: cs) = utf16Char c ++ utf16 cs := by simp [utf16]
    have hr := char_range c
    rw [e]
    unfold utf16Char
    split
    · have hn := toNat_ofNat16 c.toNat (by omega)
      simp only [List.cons_append, List.nil_append]
      rw [valid_cons, if_pos, ih]
      rw [UInt16.lt_iff_toNat_lt, UInt16.le_iff_toNat_le, hn]
      simp
      omega
    · have hn := toNat_ofNat16 (0xD800 + (c.toNat - 0x10000) / 0x400) (by omega)
      have hm := toNat_ofNat16 (0xDC00 + (c.toNat - 0x10000) % 0x400) (by omega)
      simp only [List.cons_append, List.nil_append]
      rw [utf16Valid, if_neg, if_neg, ih, Bool.and_true, decide_eq_true_iff, UInt16.lt_iff_toNat_lt, UInt16.le_iff_toNat_le, hm]
      · simp; omega
      · rw [UInt16.le_iff_toNat_le, hn]; simp; omega
      · rw [UInt16.lt_iff_toNat_lt, UInt16.le_iff_toNat_le, hn]; simp; omega

private theorem bare_iff (x : UInt16) : plainNameChar x = true ↔ BareNameChar x := by
  unfold plainNameChar BareNameChar
  simp only [Bool.or_eq_true, Bool.and_eq_true, decide_eq_true_iff, UInt16.le_iff_toNat_le, UInt16.lt_iff_toNat_lt, ← UInt16.toNat_inj]
  simp
  omega

private theorem needQuotes_iff {n : QString} (h : WellFormed n) : needQuotes n = true ↔ ¬ ∀ x ∈ n, BareNameChar x := by
  obtain ⟨cs, rfl⟩ := h
  unfold needQuotes
  rw [utf16Valid_utf16, Bool.true_and, List.any_eq_true]
  simp only [← bare_iff]
  simp

private theorem trimmed_bytes {s : QString} (h : WellFormed s) (ht : TrimmedText s) : trimmedB (toUtf8 s) = toUtf8 s := by
  obtain ⟨cs, rfl⟩ := h
  rw [C11_toUtf8_is_utf8]
  have hs : ∀ b : UInt8, isSpaceB b = true → b.toNat < 128 ∧ (b.toNat = 32 ∨ (9 ≤ b.toNat ∧ b.toNat ≤ 13)) := by
    intro b hb
    unfold isSpaceB at hb
    simp only [Bool.or_eq_true, Bool.and_eq_true, decide_eq_true_iff, UInt8.le_iff_toNat_le, ← UInt8.toNat_inj] at hb
    simp at hb
    omega
  apply trim_id
  · intro b hb
    cases hsp : isSpaceB b with
    | false => rfl
    | true =>
      obtain ⟨h1, h2⟩ := hs b hsp
      have := ht _ (.inl (utf8_head hb h1))
      rw [toNat_ofNat16 _ (by omega)] at this
      omega
  · intro b hb
    cases hsp : isSpaceB b with
    | false => rfl
    | true =>
      obtain ⟨h1, h2⟩ := hs b hsp
      have := ht _ (.inr (utf8_getLast hb h1))
      rw [toNat_ofNat16 _ (by omega)] at this
      omega

private theorem bytes_avoid {s : QString} (h : WellFormed s) (xs : List UInt8) (hx : ∀ x ∈ xs, x.toNat < 128 ∧ UInt16.ofNat x.toNat ∉ s) : ∀ b ∈ toUtf8 s, b ∉ xs := by
  obtain ⟨cs, rfl⟩ := h
  rw [C11_toUtf8_is_utf8]
  intro b hb hbx
  obtain ⟨h1, h2⟩ := hx b hbx
  exact h2 (utf8_mem hb h1)

private theorem toUtf8_app {s : QString} (h : WellFormed s) (t : QString) : toUtf8 (s ++ t) = toUtf8 s ++ toUtf8 t := by
  obtain ⟨cs, rfl⟩ := h
  exact toUtf8_utf16_append cs t

/-- The end of the text: " <address>". -/
private theorem run_address {e : QString} (he : MailAddress e) (st : MailState) (hc : st.context = .top) (hq : st.inQuotedString = false) :
    mailRun (toUtf8 (q! " <" ++ e ++ q! ">")) st = { st with displayName := st.displayName ++ b! " ", addrSpec := st.addrSpec ++ toUtf8 e } := by
  have e1 : toUtf8 (q! " <" ++ e ++ q! ">") = c! ' ' :: c! '<' :: (toUtf8 e ++ b! ">") := by
    rw [List.append_assoc, toUtf8_app ⟨[' ', '<'], by decide⟩, toUtf8_app he.wellFormed.1]
    rfl
  rw [e1]
  have r1 := run_plain (b! " ") (c! '<' :: (toUtf8 e ++ b! ">")) st hc hq (by decide)
  have r1' : mailRun (c! ' ' :: c! '<' :: (toUtf8 e ++ b! ">")) st = _ := r1
  rw [r1', mailRun_step _ _ (by decide) (by decide)]
  have s1 : ({ st with displayName := st.displayName ++ b! " " } : MailState).step (c! '<') =
      some { st with displayName := st.displayName ++ b! " ", context := .angle } := by
    unfold MailState.step
    simp only [hc, hq]
    rfl
  rw [s1]
  simp only
  rw [run_angle _ _ { st with displayName := st.displayName ++ b! " ", context := .angle } rfl hq (bytes_avoid he.wellFormed.1 _ (by
    intro x hx
    simp only [List.mem_cons, List.not_mem_nil, or_false] at hx
    rcases hx with rfl | rfl | rfl | rfl
    · exact ⟨by decide, he.chars _ (by decide)⟩
    · exact ⟨by decide, he.chars _ (by decide)⟩
    · exact ⟨by decide, he.chars _ (by decide)⟩
    · exact ⟨by decide, he.chars _ (by decide)⟩)), mailRun_step _ _ (by decide) (by decide)]
  have s2 : ({ st with displayName := st.displayName ++ b! " ", context := .angle, addrSpec := st.addrSpec ++ toUtf8 e } : MailState).step (c! '>') =
      some { st with displayName := st.displayName ++ b! " ", addrSpec := st.addrSpec ++ toUtf8 e } := by
    unfold MailState.step
    simp only [hc, hq]
    rfl
  rw [s2]
  rfl

private theorem trim_last {l : QByteArray} (h : trimmedB l = l) : trimmedB (l ++ b! " ") = l := by
  unfold trimmedB trim at *
  cases l with
  | nil => rfl
  | cons x l =>
    have hx : isSpaceB x = false := by
      cases hx : isSpaceB x with
      | false => rfl
      | true =>
        have e := congrArg List.length h
        rw [List.dropWhile_cons_of_pos hx] at e
        have l1 := (List.dropWhile_sublist isSpaceB (l := l)).length_le
        have l2 := (List.dropWhile_sublist isSpaceB (l := (l.dropWhile isSpaceB).reverse)).length_le
        simp only [List.length_reverse, List.length_cons] at e l2
        omega
    rw [List.dropWhile_cons_of_neg (by simp [hx])] at h
    rw [List.cons_append, List.dropWhile_cons_of_neg (by simp [hx]), ← List.cons_append, List.reverse_append]
    show (List.dropWhile isSpaceB (32 :: (x :: l).reverse)).reverse = _
    rw [List.dropWhile_cons_of_pos (by decide)]
    exact h

private theorem result_of {lower : QString → QString} {e : QString} (he : MailAddress e) (d : QByteArray) (lvl : Int) (hd : trimmedB d = d) :
    mailResult lower { displayName := d ++ b! " ", addrSpec := toUtf8 e, commentLevel := lvl } = (unquoteFull (fromUtf8 d), lower e) := by
  unfold mailResult
  simp only [trim_last hd, trimmed_bytes he.wellFormed.1 he.ends, C11_utf8_roundtrip_partial e he.wellFormed.1 he.wellFormed.2, Bool.false_or]
  rw [if_neg (by simp), if_neg (by simpa using toUtf8_ne he.ne)]

private theorem flat_id {n : QString} (hq : qc! '"' ∉ n) : n.flatMap (fun x => if x = qc! '"' then q! "\\\"" else [x]) = n := by
  induction n with
  | nil => rfl
  | cons x n ih =>
    rw [List.flatMap_cons, if_neg (fun h => hq (by simp [h])), ih (fun h => hq (by simp [h]))]
    rfl

/-- The text made for a contact gives back the address in lower case, and the name with a backslash before each quote. -/
theorem C37_escaped_partial (lower : QString → QString) (c : Contact) (email : Option QString) (hn : MailName c.realName)
    (he : MailAddress (email.getD c.preferredEmail)) :
    parseEmailAddress lower (c.fullEmail email) =
      some (c.realName.flatMap (fun x => if x = qc! '"' then q! "\\\"" else [x]), lower (email.getD c.preferredEmail)) := by
  generalize hee : email.getD c.preferredEmail = e at he
  generalize hnn : c.realName = n at hn
  obtain ⟨cs, hcs⟩ := hn.wellFormed
  have hflat : n.flatMap (fun x => if x = qc! '"' then q! "\\\"" else [x]) = utf16 (escChars cs) := by
    rw [hcs, ← replace_quotes, replace_flat]
  unfold Contact.fullEmail
  simp only [hee, hnn]
  have h1 : e.isEmpty = false := by simpa using he.ne
  have h2 : n.isEmpty = false := by simpa using hn.ne
  rw [h1, h2]
  simp only [Bool.false_eq_true, if_false]
  rw [parseEmailAddress_run]
  split
  · next hq =>
    rw [if_neg (by simp)]
    rw [hcs, replace_quotes, ← hcs, hflat]
    have e1 : toUtf8 (q! "\"" ++ utf16 (escChars cs) ++ q! "\" <" ++ e ++ q! ">") = c! '"' :: (utf8 (escChars cs) ++ c! '"' :: toUtf8 (q! " <" ++ e ++ q! ">")) := by
      rw [List.append_assoc, List.append_assoc, List.append_assoc, toUtf8_app ⟨['"'], by decide⟩, toUtf8_app ⟨_, rfl⟩, C11_toUtf8_is_utf8]
      show _ = _
      congr 2
    rw [e1, mailRun_step _ _ (by decide) (by decide)]
    have s1 : ({} : MailState).step (c! '"') = some { displayName := b! "\"", inQuotedString := true } := by decide
    rw [s1]
    simp only
    rw [run_escaped cs _ _ rfl rfl (by
      intro ch hch h0
      apply hn.chars.2
      rw [hcs]
      exact List.mem_flatMap.2 ⟨_, hch, by rw [utf16Char_ascii (by omega), h0]; decide⟩) (by rw [← hcs]; exact hn.chars.1), mailRun_step _ _ (by decide) (by decide)]
    have s2 : ({ displayName := b! "\"" ++ utf8 (escChars cs), inQuotedString := true } : MailState).step (c! '"') =
        some { displayName := b! "\"" ++ utf8 (escChars cs) ++ b! "\"" } := rfl
    rw [s2]
    simp only
    rw [run_address he _ rfl rfl]
    simp only [List.nil_append]
    have hd : b! "\"" ++ utf8 (escChars cs) ++ b! "\"" = toUtf8 (q! "\"" ++ utf16 (escChars cs) ++ q! "\"") := by
      rw [List.append_assoc, List.append_assoc, toUtf8_app ⟨['"'], by decide⟩, toUtf8_app ⟨_, rfl⟩, C11_toUtf8_is_utf8]
      rfl
    have hwf : WellFormed (q! "\"" ++ utf16 (escChars cs) ++ q! "\"") := ⟨'"' :: escChars cs ++ ['"'], by simp [utf16]; rfl⟩
    rw [result_of he _ _ (by
      rw [hd]
      refine trimmed_bytes hwf ?_
      intro x hx
      have : x = qc! '"' := by
        rcases hx with hx | hx
        · simpa using hx.symm
        · rw [List.getLast?_concat] at hx; simpa using hx.symm
      rw [this]
      decide), hd, C11_utf8_roundtrip_partial _ hwf (by simp)]
    unfold unquoteFull
    have hne : utf16 (escChars cs) ≠ [] := by
      rw [← hflat]
      obtain ⟨x, t, rfl⟩ := List.exists_cons_of_ne_nil hn.ne
      rw [List.flatMap_cons]
      split <;> simp
    have hlen : 1 ≤ (utf16 (escChars cs)).length := List.length_pos_iff.2 hne
    rw [if_neg (by simp; omega), if_pos]
    · simp [mid]
    · simp [startsWith, endsWith]
  · next hq =>
    have hbare : ∀ x ∈ n, BareNameChar x := Classical.not_not.1 fun h => hq ((needQuotes_iff hn.wellFormed).2 h)
    obtain ⟨ht, hbom⟩ := hn.bare hbare
    rw [if_neg (by simp)]
    rw [List.append_assoc n, List.append_assoc n, toUtf8_app hn.wellFormed]
    have hav : ∀ y : UInt8, y.toNat < 128 → y ∈ [0, c! '\\', c! '"', c! '(', c! '<', c! ','] → UInt16.ofNat y.toNat ∉ n := by
      intro y hy hm hmn
      have := hbare _ hmn
      unfold BareNameChar at this
      rw [toNat_ofNat16 _ (by omega)] at this
      simp only [List.mem_cons, List.not_mem_nil, or_false] at hm
      rcases hm with rfl | rfl | rfl | rfl | rfl | rfl <;> revert this <;> decide
    rw [run_plain _ _ {} rfl rfl (bytes_avoid hn.wellFormed _ (by
      intro x hx
      have hl : x.toNat < 128 := by
        simp only [List.mem_cons, List.not_mem_nil, or_false] at hx
        rcases hx with rfl | rfl | rfl | rfl | rfl | rfl <;> decide
      exact ⟨hl, hav x hl hx⟩)), run_address he _ rfl rfl]
    simp only [List.nil_append]
    rw [result_of he _ _ (trimmed_bytes hn.wellFormed ht), C11_utf8_roundtrip_partial n hn.wellFormed hbom]
    have hquote : qc! '"' ∉ n := fun h => by
      have := hbare _ h
      revert this
      unfold BareNameChar
      decide
    have hid := flat_id hquote
    rw [hid]
    unfold unquoteFull
    split
    · rfl
    · rw [if_neg]
      intro hs
      simp only [Bool.and_eq_true, startsWith] at hs
      obtain ⟨x, t, rfl⟩ := List.exists_cons_of_ne_nil hn.ne
      simp at hs
      exact hquote (by simp [hs.1])

/-- A name without quotes comes back as it is. Missing: the cases below. -/
theorem C37_roundtrip_partial (lower : QString → QString) (c : Contact) (email : Option QString) (hn : MailName c.realName) (hq : qc! '"' ∉ c.realName)
    (he : MailAddress (email.getD c.preferredEmail)) (hl : lower (email.getD c.preferredEmail) = email.getD c.preferredEmail) :
    parseEmailAddress lower (c.fullEmail email) = some (c.realName, email.getD c.preferredEmail) := by
  rw [C37_escaped_partial lower c email hn he, hl]
  rw [flat_id hq]

/-- For names without quotes this is exact: the text gives name and address back exactly if every backslash of the name is followed by another
    character. Otherwise the address is not found at all. -/
theorem C37_backslashes_iff (lower : QString → QString) (c : Contact) (email : Option QString) (hw : WellFormed c.realName) (h0 : 0 ∉ c.realName)
    (hb : qc! '\\' ∈ c.realName) (hq : qc! '"' ∉ c.realName)
    (he : MailAddress (email.getD c.preferredEmail)) (hl : lower (email.getD c.preferredEmail) = email.getD c.preferredEmail) :
    (parseEmailAddress lower (c.fullEmail email) = some (c.realName, email.getD c.preferredEmail) ↔ backslashesPaired c.realName = true) ∧
    (backslashesPaired c.realName = false → ∃ name, parseEmailAddress lower (c.fullEmail email) = some (name, [])) := by
  have hnb : ¬ ∀ x ∈ c.realName, BareNameChar x := by
    intro h
    have := h _ hb
    revert this
    unfold BareNameChar
    decide
  have hne : c.realName ≠ [] := List.ne_nil_of_mem hb
  have bad : backslashesPaired c.realName = false → ∃ name, parseEmailAddress lower (c.fullEmail email) = some (name, []) := by
    intro hp
    generalize hee : email.getD c.preferredEmail = e at he
    generalize hnn : c.realName = n at *
    obtain ⟨cs, hcs⟩ := hw
    have hflat : n.flatMap (fun x => if x = qc! '"' then q! "\\\"" else [x]) = utf16 (escChars cs) := by
      rw [hcs, ← replace_quotes, replace_flat]
    unfold Contact.fullEmail
    simp only [hee, hnn]
    have h1 : e.isEmpty = false := by simpa using he.ne
    have h2 : n.isEmpty = false := by simpa using hne
    have h3 : needQuotes n = true := (needQuotes_iff ⟨cs, hcs⟩).2 hnb
    rw [h1, h2, h3]
    simp only [Bool.false_eq_true, if_false, if_true]
    rw [parseEmailAddress_run, if_neg (by simp), hcs, replace_quotes]
    have e1 : toUtf8 (q! "\"" ++ utf16 (escChars cs) ++ q! "\" <" ++ e ++ q! ">") = c! '"' :: (utf8 (escChars cs) ++ c! '"' :: (b! " <" ++ toUtf8 e ++ b! ">")) := by
      rw [List.append_assoc, List.append_assoc, List.append_assoc, toUtf8_app ⟨['"'], by decide⟩, toUtf8_app ⟨_, rfl⟩, C11_toUtf8_is_utf8,
        ← List.append_assoc (q! "\" <"), List.append_assoc (q! "\" <"), toUtf8_app ⟨['"', ' ', '<'], by decide⟩, toUtf8_app he.wellFormed.1]
      rfl
    rw [e1, mailRun_step _ _ (by decide) (by decide)]
    have s1 : ({} : MailState).step (c! '"') = some { displayName := b! "\"", inQuotedString := true } := by decide
    rw [s1]
    simp only
    have hnq : c! '"' ∉ utf8 (escChars cs) := by
      rw [← C11_toUtf8_is_utf8, ← hflat, flat_id hq]
      intro hm
      exact bytes_avoid ⟨cs, hcs⟩ [c! '"'] (by
        intro x hx
        rw [List.mem_singleton] at hx
        subst hx
        exact ⟨by decide, hq⟩) _ hm (by simp)
    rw [run_not_okB _ _ _ _ _ (Nat.le_refl _) rfl rfl (utf8_esc_nonzero cs (by
      intro ch hch h
      apply h0
      rw [hcs]
      exact List.mem_flatMap.2 ⟨_, hch, by rw [utf16Char_ascii (by omega), h]; decide⟩)) hnq (by decide) (by
        rw [okB_esc _ cs (Nat.le_refl _), ← hcs]; exact hp)]
    rw [← List.append_nil (b! " <" ++ toUtf8 e ++ b! ">"), run_quoted _ _ _ rfl rfl (by
      intro x hx
      simp only [List.mem_append] at hx
      rcases hx with (hx | hx) | hx
      · revert hx; revert x; decide
      · refine bytes_avoid he.wellFormed.1 _ ?_ x hx
        intro y hy
        simp only [List.mem_cons, List.not_mem_nil, or_false] at hy
        rcases hy with rfl | rfl | rfl
        · exact ⟨by decide, he.chars _ (by decide)⟩
        · exact ⟨by decide, he.chars _ (by decide)⟩
        · exact ⟨by decide, he.chars _ (by decide)⟩
      · revert hx; revert x; decide)]
    exact ⟨_, rfl⟩
  refine ⟨⟨fun h => ?_, fun h => C37_roundtrip_partial lower c email ⟨hne, hw, ⟨h, h0⟩, fun hx => absurd hx hnb⟩ hq he hl⟩, bad⟩
  cases hp : backslashesPaired c.realName with
  | true => rfl
  | false =>
    obtain ⟨name, h1⟩ := bad hp
    rw [h] at h1
    exact absurd (congrArg Prod.snd (Option.some.inj h1)) he.ne

/-- A contact without any name: the text is the address, and it comes back, with an empty name. -/
theorem C37_unnamed_partial (lower : QString → QString) (c : Contact) (email : Option QString) (hn : c.realName = [])
    (he : MailAddress (email.getD c.preferredEmail)) (hc : ∀ x ∈ q! "(<,", x ∉ email.getD c.preferredEmail) :
    parseEmailAddress lower (c.fullEmail email) = some ([], lower (email.getD c.preferredEmail)) := by
  unfold Contact.fullEmail
  generalize email.getD c.preferredEmail = e at he hc
  have h1 : e.isEmpty = false := by simpa using he.ne
  simp only [hn, h1, List.isEmpty_nil, Bool.false_eq_true, if_false, if_true]
  rw [parseEmailAddress_run, h1, ← List.append_nil (toUtf8 e)]
  simp only [Bool.false_eq_true, if_false]
  rw [run_plain _ _ {} rfl rfl (bytes_avoid he.wellFormed.1 _ (by
    intro x hx
    simp only [List.mem_cons, List.not_mem_nil, or_false] at hx
    rcases hx with rfl | rfl | rfl | rfl | rfl | rfl
    · exact ⟨by decide, he.chars _ (by decide)⟩
    · exact ⟨by decide, he.chars _ (by decide)⟩
    · exact ⟨by decide, he.chars _ (by decide)⟩
    · exact ⟨by decide, hc _ (by decide)⟩
    · exact ⟨by decide, hc _ (by decide)⟩
    · exact ⟨by decide, hc _ (by decide)⟩))]
  simp only [List.nil_append, mailRun]
  unfold mailResult
  simp only [trimmed_bytes he.wellFormed.1 he.ends, C11_utf8_roundtrip_partial e he.wellFormed.1 he.wellFormed.2]
  rw [if_neg (by simp), if_pos (by decide), if_neg (by simpa using toUtf8_ne he.ne)]
  rfl

/-! ### examples -/

private theorem trimmed_of {s : QString} (h : ∀ x ∈ s.head?.toList ++ s.getLast?.toList, x.toNat ≠ 32 ∧ ¬ (9 ≤ x.toNat ∧ x.toNat ≤ 13)) : TrimmedText s := by
  intro x hx
  apply h x
  rcases hx with hx | hx <;> rw [hx] <;> simp

private theorem annMail : MailAddress (q! "ann@example.org") :=
  ⟨by decide, ⟨⟨"ann@example.org".toList, by decide⟩, by decide⟩, by decide, trimmed_of (by decide)⟩

private theorem annName : MailName (q! "Ann \"the\" Lee, jr.") :=
  ⟨by decide, ⟨"Ann \"the\" Lee, jr.".toList, by decide⟩, by decide, fun h => by have := h (qc! ',') (by decide); exact absurd this (by unfold BareNameChar; decide)⟩

private theorem annBare : MailName (q! "Ann Lee") :=
  ⟨by decide, ⟨"Ann Lee".toList, by decide⟩, by decide, fun _ => ⟨trimmed_of (by decide), by decide⟩⟩

private def ann : Contact := { uid := [], formattedName := q! "Ann Lee", emails := [{ mail := q! "ann@example.org" }] }

example : ann.fullEmail none = q! "Ann Lee <ann@example.org>" ∧ parseEmailAddress toLowerQ (ann.fullEmail none) = some (q! "Ann Lee", q! "ann@example.org") :=
  ⟨by decide, C37_roundtrip_partial toLowerQ ann none annBare (by decide) annMail (by decide)⟩

example : parseEmailAddress toLowerQ (({ ann with formattedName := q! "Ann \"the\" Lee, jr." } : Contact).fullEmail none) =
    some (q! "Ann \\\"the\\\" Lee, jr.", q! "ann@example.org") :=
  C37_escaped_partial toLowerQ { ann with formattedName := q! "Ann \"the\" Lee, jr." } none annName annMail

example : parseEmailAddress toLowerQ (({ ann with formattedName := [] } : Contact).fullEmail none) = some ([], q! "ann@example.org") :=
  C37_unnamed_partial toLowerQ { ann with formattedName := [] } none rfl annMail (by decide)

/-- A name with backslashes, and one whose last backslash is not followed by anything. -/
example : parseEmailAddress toLowerQ (({ ann with formattedName := q! "DOM\\ann" } : Contact).fullEmail none) = some (q! "DOM\\ann", q! "ann@example.org") ∧
    ∃ name, parseEmailAddress toLowerQ (({ ann with formattedName := q! "DOM\\\\\\" } : Contact).fullEmail none) = some (name, []) :=
  ⟨(C37_backslashes_iff toLowerQ { ann with formattedName := q! "DOM\\ann" } none ⟨"DOM\\ann".toList, by decide⟩ (by decide) (by decide) (by decide) annMail (by decide)).1.2 (by decide),
    (C37_backslashes_iff toLowerQ { ann with formattedName := q! "DOM\\\\\\" } none ⟨"DOM\\\\\\".toList, by decide⟩ (by decide) (by decide) (by decide) annMail (by decide)).2 (by decide)⟩

/-! ### what is false -/

/-- C37 as stated is false of the code: a quote in the name comes back as backslash and quote. -/
theorem C37_false : ¬ ∀ (lower : QString → QString) (c : Contact) (email : Option QString), c.realName ≠ [] → email.getD c.preferredEmail ≠ [] →
    parseEmailAddress lower (c.fullEmail email) = some (c.realName, email.getD c.preferredEmail) := by
  intro h
  have h1 := h id { ann with formattedName := q! "Ann \"the\" Lee, jr." } none (by decide) (by decide)
  rw [C37_escaped_partial id { ann with formattedName := q! "Ann \"the\" Lee, jr." } none annName annMail] at h1
  exact absurd h1 (by decide)

/-- With a backslash at the end of the name the address is lost. -/
theorem C37_backslash_false : ∃ c : Contact, c.preferredEmail = q! "ann@example.org" ∧
    parseEmailAddress toLowerQ (c.fullEmail none) = some (q! "\"Ann\\\" <ann@example.org>", []) := by
  refine ⟨{ ann with formattedName := q! "Ann\\" }, rfl, ?_⟩
  rw [parseEmailAddress_run]
  decide +kernel

/-- An address in upper case comes back in lower case. -/
theorem C37_case_false : ∃ c : Contact, c.preferredEmail = q! "Ann@example.org" ∧
    parseEmailAddress toLowerQ (c.fullEmail none) = some (q! "Ann Lee", q! "ann@example.org") := by
  refine ⟨{ ann with emails := [{ mail := q! "Ann@example.org" }] }, rfl, ?_⟩
  rw [parseEmailAddress_run]
  decide +kernel

end KC
