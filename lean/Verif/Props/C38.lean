import Verif.Lemmas.Ldif
/-
  C38 — an LDIF line survives writing and reading.
  C39 — LDIF URL values survive.
  C60 — lines are folded at the line length.
-/
namespace KC
open KC.Spec

/-- C38: every name and every value, written as one line with any line length, are read back by the parser as one item with the same name and value. -/
theorem C38_line (name : QString) (hn : LdifName name) (value : QByteArray) (linelen : Nat) (es : List LdifEvent)
    (he : DocumentItems (b! "dn: a\ncn: b\n" ++ assembleLine name value linelen false ++ b! "\n") es) :
    es.map LdifEvent.short =
      [⟨.newEntry, q! "dn", b! "a", false⟩, ⟨.item, q! "cn", b! "b", false⟩, ⟨.item, name, value, false⟩, ⟨.endEntry, [], [], false⟩] :=
  context_line (assembleLine_text hn value linelen) (splitLine_plain hn value) (plain_ne hn value) he

/-- C38 for a single line that is not folded. -/
theorem C38_split (name : QString) (hn : LdifName name) (value : QByteArray) :
    splitLine (assembleLine name value 0 false) = (name, value, false) := by
  rw [← splitLine_plain hn value]
  simp [assembleLine, plainLine]

-- a name of a kind LDIF allows, and one it does not
private theorem name_cn : LdifName (q! "cn;lang-de") := by
  refine ⟨by decide, ⟨"cn;lang-de".toList, by decide⟩, by decide, by decide, by decide, by decide, by decide, ?_, ?_⟩ <;>
  · intro c hc; simp at hc; subst hc; unfold AsciiSpace; decide

example : assembleLine (q! "cn") [0xC3, 0xA4, 10, 0] 5 false = b! "cn:: \n w6QKA\n A==" := by decide
example : assembleLine (q! "description") (b! "a colon: here") 10 false = b! "description: \n a colon: h\n ere" := by decide
example : LdifName (q! "cn;lang-de") := name_cn
example : ¬ LdifName (q! "a:b") := fun h => h.noColon (by decide)

/-! ### C39 -/

/-- C39, what happens: the name is kept, the value is decoded as base64, and the URL flag is set unless the URL is empty. -/
theorem C39_split (name : QString) (hn : LdifName name) (url : QByteArray) (linelen : Nat) :
    splitLine (assembleLine name url linelen true) = (name, fromBase64 url, !url.isEmpty) := by
  obtain ⟨_, hcol, _, _, _, htr⟩ := LdifName.bytes hn
  have hname : fromUtf8 (toUtf8 name) = name := C11_utf8_roundtrip_partial name hn.wellFormed hn.noBom
  unfold assembleLine
  generalize toUtf8 name = n at *
  have e : n ++ b! ":< " ++ url = n ++ c! ':' :: (c! '<' :: 32 :: url) := by simp
  simp only [if_true]
  rw [e]
  unfold splitLine
  rw [indexOf?_append _ _ _ hcol]
  simp only [List.take_left, htr, hname]
  cases url <;> simp [fromBase64, decode64]

private theorem decode64_length (buf nbits : Nat) (s : QByteArray) (h : nbits < 8) : 8 * (decode64 buf nbits s).length ≤ nbits + 6 * s.length := by
  induction s generalizing buf nbits with
  | nil => simp [decode64]
  | cons c t ih =>
    rw [decode64]
    split
    · have := ih buf nbits h
      simp only [List.length_cons]; omega
    · rename_i d _
      dsimp only
      split
      · have := ih ((buf * 64 + d) % 2 ^ (nbits + 6 - 8)) (nbits + 6 - 8) (by omega)
        simp only [List.length_cons]; omega
      · have := ih (buf * 64 + d) (nbits + 6) (by omega)
        simp only [List.length_cons]; omega

/-- C39 as stated is false of the code, and it is so for every URL: no non-empty URL is read back. -/
theorem C39_false (name : QString) (hn : LdifName name) (url : QByteArray) (linelen : Nat) (hu : url ≠ []) :
    (splitLine (assembleLine name url linelen true)).2.1 ≠ url := by
  rw [C39_split name hn]
  intro h
  have h1 := decode64_length 0 0 url (by omega)
  have h2 := congrArg List.length h
  have h3 : 0 < url.length := by cases url <;> simp_all
  unfold fromBase64 at h2
  dsimp only at h2
  omega

/-- C39, the part that holds: the name survives and the item is flagged as a URL, in a document as well. -/
theorem C39_partial (name : QString) (hn : LdifName name) (url : QByteArray) (linelen : Nat) (hu : url ≠ []) (h10 : 10 ∉ url) (h13 : 13 ∉ url)
    (es : List LdifEvent) (he : DocumentItems (b! "dn: a\ncn: b\n" ++ assembleLine name url linelen true ++ b! "\n") es) :
    es.map LdifEvent.short =
      [⟨.newEntry, q! "dn", b! "a", false⟩, ⟨.item, q! "cn", b! "b", false⟩, ⟨.item, name, fromBase64 url, true⟩, ⟨.endEntry, [], [], false⟩] := by
  obtain ⟨_, _, hlf, hcr, ⟨c, t, hct, hc⟩, _⟩ := LdifName.bytes hn
  have hs := C39_split name hn url linelen
  have hb : (!url.isEmpty) = true := by cases url <;> simp_all
  rw [hb] at hs
  refine context_line ?_ hs (plain_ne hn _) he
  have e : assembleLine name url linelen true = c :: (t ++ b! ":< " ++ url) := by simp [assembleLine, hct]
  rw [hct] at hlf hcr
  simp only [List.mem_cons, not_or] at hlf hcr
  refine .inr ⟨c, _, _, e, e, hc, Folded.plain _ ?_ ?_⟩ <;> simp_all

example : splitLine (assembleLine (q! "jpegphoto") (b! "file:///tmp/photo.jpg") 0 true) ≠ (q! "jpegphoto", b! "file:///tmp/photo.jpg", true) := by decide

/-! ### C60 -/

/-- The folded rest of a line. -/
private def tailFold (linelen : Nat) : Nat → QByteArray → QByteArray
  | 0, v => v
  | n + 1, v => if v = [] then [] else 10 :: 32 :: (v.take linelen ++ tailFold linelen n (v.drop linelen))

private theorem ldifFold_eq (linelen n i : Nat) (r : QByteArray) : ldifFold linelen n i r = r.take i ++ tailFold linelen n (r.drop i) := by
  induction n generalizing i r with
  | zero => simp [ldifFold, tailFold]
  | succ n ih =>
    rw [ldifFold]
    split
    · rename_i hlt
      have hl : (r.take i).length = i := by simp; omega
      have hne : r.drop i ≠ [] := by
        intro h
        have := congrArg List.length h
        simp at this
        omega
      have e1 : (r.take i ++ b! "\n " ++ r.drop i).take (i + linelen + 2) = r.take i ++ (b! "\n " ++ (r.drop i).take linelen) := by
        rw [List.append_assoc, List.take_append, List.take_of_length_le (by omega), hl]
        congr 1
        rw [show i + linelen + 2 - i = linelen + 2 by omega]
        rfl
      have e2 : (r.take i ++ b! "\n " ++ r.drop i).drop (i + linelen + 2) = (r.drop i).drop linelen := by
        rw [List.append_assoc, List.drop_append, List.drop_of_length_le (by omega), hl]
        rw [show i + linelen + 2 - i = linelen + 2 by omega]
        rfl
      rw [ih, e1, e2, tailFold, if_neg hne]
      simp
    · rename_i hge
      have e1 : r.drop i = [] := List.drop_of_length_le (by omega)
      have e2 : r.take i = r := List.take_of_length_le (by omega)
      rw [e1, e2, tailFold, if_pos rfl, List.append_nil]

private theorem tailFold_lines (linelen n : Nat) (h0 : 0 < linelen) (a v : QByteArray) (ha : 10 ∉ a) (hv : 10 ∉ v) (hn : v.length ≤ n) :
    ∃ ls, splitOn 10 (a ++ tailFold linelen n v) = a :: ls ∧ ∀ l ∈ ls, l.length ≤ linelen + 1 ∧ l.head? = some 32 := by
  induction n generalizing a v with
  | zero =>
    have : v = [] := by cases v <;> simp_all
    subst this
    exact ⟨[], by rw [tailFold, List.append_nil, splitOn_of_not_mem _ _ ha], by simp⟩
  | succ n ih =>
    rw [tailFold]
    split
    · exact ⟨[], by rw [List.append_nil, splitOn_of_not_mem _ _ ha], by simp⟩
    · rename_i hne
      have h10 : 10 ∉ 32 :: v.take linelen := by
        simp only [List.mem_cons, not_or]
        exact ⟨by decide, fun h => hv (List.mem_of_mem_take h)⟩
      have hl : (v.drop linelen).length ≤ n := by
        have : 0 < v.length := by cases v <;> simp_all
        simp only [List.length_drop]; omega
      obtain ⟨ls, h1, h2⟩ := ih (32 :: v.take linelen) (v.drop linelen) h10 (fun h => hv (List.mem_of_mem_drop h)) hl
      refine ⟨(32 :: v.take linelen) :: ls, ?_, ?_⟩
      · rw [splitOn_append _ _ _ ha]
        rw [← h1]
        rfl
      · intro l hl
        simp only [List.mem_cons] at hl
        rcases hl with rfl | hl
        · refine ⟨?_, rfl⟩
          simp only [List.length_cons, List.length_take]; omega
        · exact h2 l hl

/-- C60: the first line of a written attribute is at most as long as the line length or the name with its colon, and every further line is at most one
    byte longer than the line length and starts with a space. -/
theorem C60_partial (name : QString) (hn : LdifName name) (value : QByteArray) (linelen : Nat) (h0 : 0 < linelen) :
    ∃ first more, splitOn 10 (assembleLine name value linelen false) = first :: more ∧
      first.length ≤ max linelen (name.length + 2) ∧ ∀ l ∈ more, l.length ≤ linelen + 1 ∧ l.head? = some 32 := by
  have hclean := plainLine_clean hn value
  have e : assembleLine name value linelen false =
      ldifFold linelen (plainLine name value).length (if name.length + 2 > linelen then name.length + 2 else linelen) (plainLine name value) := by
    simp [assembleLine, plainLine, h0]
  rw [e, ldifFold_eq]
  obtain ⟨ls, h1, h2⟩ := tailFold_lines linelen (plainLine name value).length h0
    ((plainLine name value).take (if name.length + 2 > linelen then name.length + 2 else linelen))
    ((plainLine name value).drop (if name.length + 2 > linelen then name.length + 2 else linelen))
    (fun h => hclean.1 (List.mem_of_mem_take h)) (fun h => hclean.1 (List.mem_of_mem_drop h)) (by simp)
  refine ⟨_, ls, h1, ?_, h2⟩
  rw [List.length_take]
  split <;> omega

/-- C60 as stated is false of the code: a continuation line is one byte longer than the line length (the space at its start is not counted). -/
theorem C60_false : ¬ ∀ (name : QString) (value : QByteArray) (linelen : Nat), LdifName name → name.length + 2 ≤ linelen →
    ∀ l ∈ splitOn 10 (assembleLine name value linelen false), l.length ≤ linelen := by
  intro h
  have := h (q! "dn") (b! "abcdefghijkl") 5 dn_name (by decide) (b! " bcdef") (by decide)
  revert this
  decide

end KC
