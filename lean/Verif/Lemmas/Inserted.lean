import Verif.Lemmas.Whole
import Verif.Props.C65
/- Helper lemmas: the text of a card with properties put between its lines. -/
namespace KC
open Spec

/-- a written line as physical lines: all but the first start with a blank -/
theorem good_phys (E : Codecs) (l : VCardLine) (hl : LineGood E l) :
    ∃ h0 ps, writeLine E l = crlfText (physList h0 ps) ∧ (∀ x ∈ physList h0 ps, (10 : UInt8) ∉ x) ∧ h0 ≠ [] ∧ GoodStart (h0 ++ ps.flatten) := by
  obtain ⟨h, hp, hok, hv⟩ := hl.params
  obtain ⟨out, mb, hw, hon, hosafe, -⟩ := value_reads E h l hp hok hv _ ⟨rfl, rfl, rfl⟩
  have hs : Sorted l.params := by rw [hp]; exact paramsAfter_sorted h
  have hseg : ∀ kv ∈ flatParams l.params, SegGood kv := by
    intro kv hkv; rw [hp] at hkv; exact hok kv (flatParams_mem hkv)
  have hhead : writeHead l = toLatin1 l.identifier ++ segsBytes (flatParams l.params) := by
    rw [writeHead_segs l hs]; simp [nameBytes, hl.group]
  have hrem := C01_escape_roundtrip_partial out (excludesComma l) hosafe
  have hesc : addEscapes out (excludesComma l) ≠ [] := by
    intro e; rw [e] at hrem; exact hon (by rw [← hrem]; rfl)
  let t := writeHead l ++ c! ':' :: addEscapes out (excludesComma l)
  have hcontent : writeContent E l = some (t, mb) := by
    unfold writeContent; rw [hw]; simp [hesc, t]
  have hnl : (10 : UInt8) ∉ t := by
    show (10 : UInt8) ∉ writeHead l ++ _
    have h1 : (10 : UInt8) ∉ toLatin1 l.identifier := not_mem_toLatin1 _ hl.name.latin _ hl.name.sep.2.2
    have h2 := (C01_escaped_is_single_line out (excludesComma l)).1
    have h3 : (10 : UInt8) ∉ segsBytes (flatParams l.params) := by
      simp only [segsBytes, List.mem_flatMap, List.mem_cons, not_exists, not_and, not_or]
      intro kv hkv
      exact ⟨by decide, segBody_lf kv (hseg kv hkv)⟩
    rw [hhead]
    simp [h1, h2, h3]
  have hstart : GoodStart t := by
    show GoodStart (writeHead l ++ _)
    rw [hhead]
    cases hf : flatParams l.params with
    | nil => simpa [segsBytes] using name_start l.identifier hl.name (c! ':') (.inr rfl) _
    | cons kv r =>
      have := name_start l.identifier hl.name (c! ';') (.inl rfl) (segBody kv ++ segsBytes r ++ c! ':' :: addEscapes out (excludesComma l))
      simpa [segsBytes] using this
  obtain ⟨h0, ps, hpc, hfix⟩ := fixLineSize_eq t mb
  refine ⟨h0, ps, ?_, ?_, ?_, ?_⟩
  · unfold writeLine
    rw [← physical_eq, ← hfix]
    cases hv' : l.value with
    | invalid => rw [hv'] at hv; cases hv
    | str s => simp [hcontent]
    | bytes b => simp [hcontent]
  · have hfl := flatten_pieces t mb
    rw [hpc] at hfl
    intro x hx
    have hsub : ∀ y ∈ h0 :: ps, (10 : UInt8) ∉ y := by
      intro y hy hm
      apply hnl
      rw [← hfl]
      exact List.mem_flatten.2 ⟨y, hy, hm⟩
    simp only [physList, List.mem_cons, List.mem_map] at hx
    rcases hx with rfl | ⟨y, hy, rfl⟩
    · exact hsub _ (by simp)
    · have := hsub y (by simp [hy])
      simp [this]
  · obtain ⟨c, r, rfl, _⟩ := pieces_head t mb (by simp [t]) h0 ps hpc
    simp
  · have hfl := flatten_pieces t mb
    rw [hpc, List.flatten_cons] at hfl
    rw [hfl]; exact hstart

theorem fine_phys (E : Codecs) (l : VCardLine) (h : LineFine E l) :
    writeLine E l = [] ∨ ∃ h0 ps, writeLine E l = crlfText (physList h0 ps) ∧ (∀ x ∈ physList h0 ps, (10 : UInt8) ∉ x) ∧ h0 ≠ [] ∧ GoodStart (h0 ++ ps.flatten) := by
  have hr := lineFine_reads E l h
  cases h with
  | invalid l h1 h2 => rw [readBack, if_pos (.inl h1)] at hr; exact .inl hr
  | empty id h hn => rw [readBack, if_pos (.inr rfl)] at hr; exact .inl hr
  | good l hg hne => exact .inr (good_phys E l hg)

theorem crlfText_inj {a b : List QByteArray} (ha : ∀ x ∈ a, (10 : UInt8) ∉ x) (hb : ∀ x ∈ b, (10 : UInt8) ∉ x) (h : crlfText a = crlfText b) : a = b := by
  have := congrArg physLines h
  rw [physLines_crlfText a ha, physLines_crlfText b hb] at this
  exact List.append_cancel_right this

/-- a part of a text that ends where a line ends -/
theorem crlf_split (ls : List QByteArray) (A B : QByteArray) (hn : ∀ x ∈ ls, (10 : UInt8) ∉ x) (h : crlfText ls = A ++ B) (hA : A = [] ∨ A.getLast? = some 10) :
    ∃ u w, ls = u ++ w ∧ A = crlfText u ∧ B = crlfText w := by
  induction ls generalizing A with
  | nil =>
    obtain ⟨rfl, rfl⟩ := List.append_eq_nil_iff.1 h.symm
    exact ⟨[], [], rfl, rfl, rfl⟩
  | cons l ls ih =>
    rcases hA with rfl | hA
    · exact ⟨[], l :: ls, rfl, rfl, h.symm⟩
    · have e : crlfText (l :: ls) = (l ++ [13, 10]) ++ crlfText ls := by simp [crlfText]
      rw [e] at h
      rcases List.append_eq_append_iff.1 h with ⟨A', rfl, h2⟩ | ⟨C, h1, h2⟩
      · have hA' : A' = [] ∨ A'.getLast? = some 10 := by
          rcases List.eq_nil_or_concat A' with rfl | ⟨a, x, rfl⟩
          · exact .inl rfl
          · right
            rw [List.concat_eq_append, ← List.append_assoc, List.getLast?_concat] at hA
            simpa using hA
        obtain ⟨u, w, e1, e2, e3⟩ := ih A' (fun x hx => hn x (List.mem_cons_of_mem _ hx)) h2 hA'
        exact ⟨l :: u, w, by rw [e1]; rfl, by rw [e2]; simp [crlfText], e3⟩
      · rcases List.eq_nil_or_concat C with rfl | ⟨C, x, rfl⟩
        · refine ⟨[l], ls, rfl, ?_, h2⟩
          rw [List.append_nil] at h1
          rw [← h1]; simp [crlfText]
        · exfalso
          rw [List.concat_eq_append, ← List.append_assoc, show l ++ [13, 10] = (l ++ [13]) ++ [(10 : UInt8)] by simp] at h1
          have h3 := (List.append_inj' h1 rfl).1
          have hm : (10 : UInt8) ∈ A := List.mem_of_getLast? hA
          have : (10 : UInt8) ∈ l ++ [13] := by rw [h3]; exact List.mem_append_left _ hm
          rcases List.mem_append.1 this with hx | hx
          · exact hn l (by simp) hx
          · revert hx; decide

/-- a text of written lines, cut where a line ends that is not continued -/
theorem lines_split (E : Codecs) (L : List VCardLine)
    (hP : ∀ l ∈ L, writeLine E l = [] ∨ ∃ h0 ps, writeLine E l = crlfText (physList h0 ps) ∧ ∀ x ∈ physList h0 ps, (10 : UInt8) ∉ x)
    (u w : List QByteArray) (hn : ∀ x ∈ u ++ w, (10 : UInt8) ∉ x) (he : L.flatMap (writeLine E) = crlfText (u ++ w))
    (hw : ∀ x t, w = x :: t → x.head? ≠ some 32) :
    ∃ L1 L2, L = L1 ++ L2 ∧ L1.flatMap (writeLine E) = crlfText u ∧ L2.flatMap (writeLine E) = crlfText w := by
  have all : ∀ M : List VCardLine, (∀ l ∈ M, l ∈ L) → ∃ ls, M.flatMap (writeLine E) = crlfText ls ∧ ∀ x ∈ ls, (10 : UInt8) ∉ x := by
    intro M
    induction M with
    | nil => intro _; exact ⟨[], rfl, by simp⟩
    | cons l M ih =>
      intro hM
      obtain ⟨ls, e, n⟩ := ih fun x hx => hM x (List.mem_cons_of_mem _ hx)
      rcases hP l (hM l (by simp)) with h | ⟨h0, ps, h, n0⟩
      · exact ⟨ls, by rw [List.flatMap_cons, h, e]; rfl, n⟩
      · refine ⟨physList h0 ps ++ ls, by rw [List.flatMap_cons, h, e, crlfText_append], fun x hx => ?_⟩
        rcases List.mem_append.1 hx with hx | hx
        · exact n0 x hx
        · exact n x hx
  induction L generalizing u with
  | nil =>
    have : u ++ w = [] := by
      cases h : u ++ w with
      | nil => rfl
      | cons a t => rw [h] at he; simp [crlfText] at he
    obtain ⟨rfl, rfl⟩ := List.append_eq_nil_iff.1 this
    exact ⟨[], [], rfl, rfl, rfl⟩
  | cons l L ih =>
    have hP' := fun x hx => hP x (List.mem_cons_of_mem l hx)
    have all' : ∀ M : List VCardLine, (∀ l ∈ M, l ∈ L) → ∃ ls, M.flatMap (writeLine E) = crlfText ls ∧ ∀ x ∈ ls, (10 : UInt8) ∉ x :=
      fun M hM => all M fun x hx => List.mem_cons_of_mem _ (hM x hx)
    rcases hP l (by simp) with h | ⟨h0, ps, h, n0⟩
    · rw [List.flatMap_cons, h, List.nil_append] at he
      obtain ⟨L1, L2, e1, e2, e3⟩ := ih hP' u hn he all'
      exact ⟨l :: L1, L2, by rw [e1]; rfl, by rw [List.flatMap_cons, h, e2]; rfl, e3⟩
    · cases u with
      | nil => exact ⟨[], l :: L, rfl, rfl, he⟩
      | cons a u =>
        obtain ⟨rest, er, nr⟩ := all' L fun _ hx => hx
        rw [List.flatMap_cons, h, er, ← crlfText_append] at he
        have hlist := crlfText_inj (by
          intro x hx
          rcases List.mem_append.1 hx with hx | hx
          · exact n0 x hx
          · exact nr x hx) hn he
        simp only [physList, List.cons_append, List.cons.injEq] at hlist
        obtain ⟨rfl, hlist⟩ := hlist
        rcases List.append_eq_append_iff.1 hlist with ⟨u', h1, h2⟩ | ⟨c, h1, h2⟩
        · obtain ⟨L1, L2, e1, e2, e3⟩ := ih hP' u' (by rw [← h2]; exact nr) (by rw [er, h2]) all'
          exact ⟨l :: L1, L2, by rw [e1]; rfl, by rw [List.flatMap_cons, h, e2, ← crlfText_append, physList, h1]; rfl, e3⟩
        · cases c with
          | nil =>
            rw [List.nil_append] at h2
            rw [List.append_nil] at h1
            exact ⟨[l], L, rfl, by simp only [List.flatMap_cons, List.flatMap_nil, List.append_nil, h, physList, h1], by rw [er, h2]⟩
          | cons x c =>
            exfalso
            have hx : x ∈ ps.map ((32 : UInt8) :: ·) := by rw [h1]; simp
            obtain ⟨y, -, rfl⟩ := List.mem_map.1 hx
            exact hw _ _ h2 rfl

/-- reading a card with properties put between its lines -/
theorem readText_inserted (E : Codecs) (R : VCardLine → Option VCardLine) (L1 L2 : List VCardLine) (h1 : ∀ l ∈ L1, Reads E l (R l)) (h2 : ∀ l ∈ L2, Reads E l (R l))
    (ps : List WrittenProperty) (hg : ∀ p ∈ ps, p.Good) :
    readText E (b! "BEGIN:VCARD\r\n" ++ L1.flatMap (writeLine E) ++ (ps.flatMap fun p => p.first :: p.rest).flatMap (· ++ [13, 10]) ++ L2.flatMap (writeLine E) ++ b! "END:VCARD\r\n\r\n") =
      some [cardAfter (L1.filterMap R ++ (ps.map fun p => lineOf E p.unfolded) ++ L2.filterMap R)] := by
  obtain ⟨a, e1, n1, f1⟩ := reads_lines_block E R L1 h1
  obtain ⟨b, e2, n2, f2⟩ := reads_lines_block E R L2 h2
  let m := ps.flatMap fun p => p.first :: p.rest
  have nm : ∀ x ∈ m, (10 : UInt8) ∉ x := by
    intro x hx
    obtain ⟨p, hp, hx⟩ := List.mem_flatMap.1 hx
    rcases List.mem_cons.1 hx with rfl | hr
    · exact (hg p hp).oneLine
    · exact ((hg p hp).folded x hr).2
  have e : b! "BEGIN:VCARD\r\n" ++ L1.flatMap (writeLine E) ++ (ps.flatMap fun p => p.first :: p.rest).flatMap (· ++ [13, 10]) ++ L2.flatMap (writeLine E) ++ b! "END:VCARD\r\n\r\n" =
      crlfText (b! "BEGIN:VCARD" :: (a ++ (m ++ (b ++ [b! "END:VCARD", []])))) := by
    rw [e1, e2]
    show _ = b! "BEGIN:VCARD" ++ [13, 10] ++ crlfText (a ++ (m ++ (b ++ [b! "END:VCARD", []])))
    rw [crlfText_append, crlfText_append, crlfText_append]
    have t : crlfText [b! "END:VCARD", []] = b! "END:VCARD\r\n\r\n" := by decide
    have t' : b! "BEGIN:VCARD" ++ [13, 10] = b! "BEGIN:VCARD\r\n" := by decide
    have t'' : (ps.flatMap fun p => p.first :: p.rest).flatMap (· ++ [13, 10]) = crlfText m := rfl
    rw [t, t', t'']
    simp only [List.append_assoc]
  have hlf : ∀ x ∈ b! "BEGIN:VCARD" :: (a ++ (m ++ (b ++ [b! "END:VCARD", []]))), (10 : UInt8) ∉ x := by
    intro x hx
    simp only [List.mem_cons, List.mem_append, List.not_mem_nil, or_false] at hx
    rcases hx with rfl | h | h | h | rfl | rfl
    · decide
    · exact n1 x h
    · exact nm x h
    · exact n2 x h
    · decide
    · decide
  unfold readText
  rw [e, physLines_crlfText _ hlf]
  unfold fedLines
  rw [if_neg (by simp)]
  have fb : feed E {} (b! "BEGIN:VCARD") = some { inVCard := true } := by
    unfold feed
    rw [if_neg (by decide), if_neg (by decide), if_neg (by simp)]
    unfold RS.mark
    rw [if_pos (by decide)]
  obtain ⟨s1, g1, i1, o1, c1⟩ := f1 { inVCard := true } [] rfl (by simp [absorb])
  obtain ⟨s2, g2, i2, o2, c2⟩ := feed_properties E ps hg s1 i1 _ c1
  obtain ⟨s3, g3, i3, o3, c3⟩ := f2 s2 _ i2 c2
  rw [List.cons_append, List.foldlM_cons, fb]
  show ((_ ++ _ : List QByteArray).foldlM (feed E) _).map RS.out = _
  have fin : ∀ s : RS, s.inVCard = true → s.out = [] → ∀ c, absorb E s = some c → (([b! "END:VCARD", []] ++ [[]] : List QByteArray).foldlM (feed E) s).map RS.out = some [c] := by
    intro s hi ho c hc
    have he := feed_plain E s (b! "END:VCARD") hi _ hc (by decide) (by decide)
    have hme : RS.mark (b! "END:VCARD") { s with card := c } = { currentLine := [], inVCard := false, card := [], out := [c] } := by
      unfold RS.mark
      rw [if_neg (by decide), if_pos (by decide), ho]
      rfl
    rw [List.cons_append, List.foldlM_cons, he, hme]
    rfl
  rw [List.append_assoc, List.foldlM_append, g1]
  show ((_ ++ _ : List QByteArray).foldlM (feed E) _).map RS.out = _
  rw [List.append_assoc, List.foldlM_append, g2]
  show ((_ ++ _ : List QByteArray).foldlM (feed E) _).map RS.out = _
  rw [List.append_assoc, List.foldlM_append, g3]
  show ((_ ++ _ : List QByteArray).foldlM (feed E) _).map RS.out = _
  rw [fin s3 i3 (by rw [o3, o2, o1]) _ c3]
  unfold cardAfter
  rw [List.foldl_append, List.foldl_append]

end KC
