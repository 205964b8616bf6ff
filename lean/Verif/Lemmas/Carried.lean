import Verif.Lemmas.CarriedText
import Verif.Lemmas.Whole
/- Helper lemmas: whole contacts after the round trip, whatever their texts. -/
namespace KC
open Spec

/-! ### lines -/

def carriedValue : QVariant → QVariant
  | .str s => .str (carried s)
  | x => x

/-- a line whose text is replaced by the text after the round trip -/
def carriedLine (l : VCardLine) : VCardLine := { l with value := carriedValue l.value }

theorem lineFine_other (E E0 : Codecs) (l : VCardLine) (h : LineFine E0 l) (hs : ∀ s, l.value ≠ .str s) : LineFine E l := by
  cases h with
  | invalid l h1 h2 => exact .invalid l h1 h2
  | empty id h hn => exact .empty id h hn
  | good l hg hne =>
    refine .good l ⟨hg.group, hg.name, hg.raw, ?_⟩ hne
    obtain ⟨h, h1, h2, h3⟩ := hg.params
    refine ⟨h, h1, h2, ?_⟩
    generalize l.value = x at *
    cases h3 with
    | text s => exact absurd rfl (hs s)
    | bytes b a1 a2 a3 a4 a5 a6 => exact .bytes b a1 a2 a3 a4 a5 a6
    | coded s => exact absurd rfl (hs s)

theorem writeValue_text (E : Codecs) (l : VCardLine) (h : List (QString × QString)) (hl : l.params = paramsAfter h) (hn : NoCoding h) (s : QString)
    (hv : l.value = .str s) : writeValue E l = (toUtf8 s, true) := by
  have e1 : l.parameter (q! "charset") = [] := by
    have := C12_first_value h (q! "charset")
    rw [valuesOf_none (fun p hp => (hn p hp).2)] at this
    unfold VCardLine.parameter at this ⊢
    rw [hl]; exact this
  have e2 : q! "encoding" ∉ l.parameterList := by
    intro hm
    refine (mem_parameterList_iff h (q! "encoding")).1 ?_ (valuesOf_none (fun p hp => (hn p hp).1))
    unfold VCardLine.parameterList at *
    rw [hl] at hm; exact hm
  unfold writeValue
  simp [e1, e2, hv, QVariant.toString]

/-- A line is read back as the line with the text after the round trip. -/
theorem reads_carried (E E0 : Codecs) (h0 : E0.encoder (b! "UTF-8") = none) (l : VCardLine) (h : LineFine E0 (carriedLine l)) :
    Reads E l (readBack (carriedLine l)) := by
  by_cases hs : ∀ s, l.value ≠ .str s
  · have e : carriedLine l = l := by
      unfold carriedLine
      cases l with
      | mk id g val ps b64 =>
        cases val with
        | str s => exact absurd rfl (hs s)
        | invalid => rfl
        | bytes b => rfl
    rw [e] at h ⊢
    exact lineFine_reads E l (lineFine_other E E0 l h hs)
  · push Not at hs
    obtain ⟨s, hs⟩ := hs
    have hv' : (carriedLine l).value = .str (carried s) := by unfold carriedLine; simp [hs, carriedValue]
    by_cases hne : s = []
    · subst hne
      have e : carriedLine l = l := by
        unfold carriedLine; rw [hs]; cases l; simp at hs; subst hs; rfl
      rw [e] at h ⊢
      generalize hl : l = l' at h
      cases h with
      | invalid _ h1 => rw [← hl, hs] at h1; cases h1
      | empty id ps hn => exact lineFine_reads E _ (.empty id ps hn)
      | good _ hg hne => exact absurd (hl ▸ hs) hne
    · have hne' : carried s ≠ [] := fun e => hne (carried_eq_nil.1 e)
      have hrb : readBack (carriedLine l) = some (lineRead (carriedLine l)) := by
        unfold readBack; rw [hv', if_neg]; simp [hne']
      rw [hrb]
      generalize hl : carriedLine l = l' at h
      cases h with
      | invalid _ h1 => rw [← hl, hv'] at h1; cases h1
      | empty id ps hn => rw [hl] at hv'; simp [mkLine] at hv'; exact absurd hv' hne'
      | good _ hg _ =>
        subst hl
        obtain ⟨ps, hp, hok, hv⟩ := hg.params
        have hv0 := hv
        rw [hv'] at hv
        generalize hx : (QVariant.str (carried s)) = x at hv
        cases hv with
        | bytes b => cases hx
        | coded s' _ _ _ _ hq =>
          obtain ⟨enc, _, henc, _⟩ := hq.codecs
          rw [h0] at henc; cases henc
        | text s' hn hn2 hpl _ =>
          cases hx
          have hw' := writeValue_text E (carriedLine l) ps hp hn (carried s) hv'
          refine reads_value E l _ ps hg.group hg.name hp hok (by rw [hs]; exact fun e => by cases e) (toUtf8 s) (toUtf8 (carried s)) true
            (writeValue_text E l ps hp hn s hs) ?_ ?_ ?_
          · rw [C01_escape_exact]; exact (toUtf8_carriedFrom false s).symm
          · intro e
            have := C11_utf8_roundtrip_partial _ hpl.wf hpl.bom
            rw [e] at this
            exact hne' (by rw [← this]; rfl)
          · intro q hq
            have hv1 : ValueReads E ps (carriedLine l).value := by rw [hv']; exact .text _ hn hn2 hpl hne'
            obtain ⟨out, mb, a1, -, -, a2, a3⟩ := value_reads E ps (carriedLine l) hp hok hv1 q hq
            rw [hw'] at a1
            obtain ⟨rfl, rfl⟩ := Prod.mk.inj a1
            exact ⟨a2, a3⟩

/-! ### lines that are unchanged -/

theorem carriedLine_fixed (E0 : Codecs) (h0 : E0.encoder (b! "UTF-8") = none) (l : VCardLine) (h : LineFine E0 l) : carriedLine l = l := by
  have key : carriedValue l.value = l.value := by
    cases h with
    | invalid l h1 => rw [h1]; rfl
    | empty id ps => rfl
    | good l hg =>
      obtain ⟨ps, -, -, hv⟩ := hg.params
      generalize l.value = x at hv
      cases hv with
      | bytes b => rfl
      | coded s' _ _ _ _ hq =>
        obtain ⟨enc, _, henc, _⟩ := hq.codecs
        rw [h0] at henc; cases henc
      | text s hn hn2 hpl =>
        show QVariant.str (carried s) = _
        congr 1
        have h1 : toUtf8 (carried s) = toUtf8 s := by
          rw [carried, toUtf8_carriedFrom, ← C01_escape_exact _ false]
          exact C01_escape_roundtrip_partial _ _ hpl.safe
        obtain ⟨cs, rfl⟩ := hpl.wf
        obtain ⟨cs', hc⟩ := wf_carried false (utf16 cs)
        have e1 := decode_toUtf8_utf16 cs []
        have e2 := decode_toUtf8_utf16 cs' []
        simp only [List.append_nil] at e1 e2
        unfold carried at h1 ⊢
        rw [← hc, h1, e1] at e2
        exact (List.append_cancel_right e2).symm
  unfold carriedLine; rw [key]

/-! ### sections -/

variable {E : ToolEnv} {v : Version} {c : Contact}

theorem encoded_other (hv : v ≠ .v2_1) (s : QString) (l : VCardLine) : encoded v s l = l := by
  unfold encoded; rw [if_neg]; simp [hv]

theorem carriedLine_foldl {α : Type} (f : VCardLine → α → VCardLine) (hf : ∀ l x, carriedLine (f l x) = f (carriedLine l) x) (xs : List α) (l : VCardLine) :
    carriedLine (xs.foldl f l) = xs.foldl f (carriedLine l) := by
  induction xs generalizing l with
  | nil => rfl
  | cons x xs ih => rw [List.foldl_cons, ih, hf]; rfl

theorem carriedLine_add (l : VCardLine) (k x : QString) : carriedLine (l.addParameter k x) = (carriedLine l).addParameter k x := rfl
theorem carriedLine_text (id s : QString) : carriedLine (textLine id s) = textLine id (carried s) := rfl
theorem carriedLine_params (l : VCardLine) (ps : ParameterMap) : carriedLine (l.addParameters ps) = (carriedLine l).addParameters ps :=
  carriedLine_foldl _ (fun _ _ => rfl) _ _
theorem carriedLine_tool (l : VCardLine) (k : QString) (xs : List QString) : carriedLine (toolAddParameter l v k xs) = toolAddParameter (carriedLine l) v k xs := by
  cases v
  · exact carriedLine_foldl _ (fun _ _ => rfl) _ _
  · rfl
  · unfold toolAddParameter; simp only; split <;> rfl
theorem carriedLine_ite (P : Prop) [Decidable P] (a b : VCardLine) : carriedLine (if P then a else b) = if P then carriedLine a else carriedLine b := by split <;> rfl
theorem map_ite_list (P : Prop) [Decidable P] (a b : List VCardLine) : (if P then a else b).map carriedLine = if P then a.map carriedLine else b.map carriedLine := by split <;> rfl

theorem carried_semi (l : List QString) : carried (joinEscaped (qc! ';') l) = joinEscaped (qc! ';') (l.map carried) :=
  carried_join (by decide) (by decide) (by decide) (by decide) l

/-- the same lines -/
theorem fixed_lines {E0 : ToolEnv} (h0 : E0.encoder (b! "UTF-8") = none) {L : List VCardLine} (h : Fine E0 L) : L = L.map carriedLine := by
  conv_lhs => rw [← List.map_id L]
  exact List.map_congr_left fun l hl => (carriedLine_fixed E0.toCodecs h0 l (h l hl)).symm

section
variable (hv : v ≠ .v2_1)
include hv

theorem carried_address (a : Address) : addressLines E v (a.carried v) = (addressLines E v a).map carriedLine := by
  unfold addressLines Address.carried
  simp only [carried_isEmpty, List.map_append, map_ite_list, List.map_nil, List.map_cons, carriedLine_tool, encoded_other hv, carriedLine_ite, carriedLine_add,
    carriedLine_text, carried_semi]
  by_cases h4 : v = .v4_0
  · simp [h4]
  · simp [h4]

theorem carried_email (e : Email) : emailLine v e.carried = carriedLine (emailLine v e) := by
  unfold emailLine Email.carried
  rw [carriedLine_foldl]
  · rfl
  · intro l p
    rw [if_neg (by simp [hv]), if_neg (by simp [hv])]
    rfl

theorem carried_org (d : QString) (o : ParamText) : orgLine v (carried d) o.carried = carriedLine (orgLine v d o) := by
  unfold orgLine ParamText.carried
  simp only [carried_isEmpty, encoded_other hv, carriedLine_params, carriedLine_text, carried_semi]
  by_cases h : d.isEmpty = true <;> simp [h]

theorem carried_phone (p : PhoneNumber) : phoneLine v p.carried = carriedLine (phoneLine v p) := by
  unfold phoneLine PhoneNumber.carried
  simp only [carriedLine_ite, carriedLine_tool]
  rw [carriedLine_foldl]
  · rfl
  · intro l q
    rw [carriedLine_ite]
    rfl

theorem carried_coded (id : QString) (t : ParamText) : codedTextLine v id t.carried = carriedLine (codedTextLine v id t) := by
  unfold codedTextLine ParamText.carried
  simp only [encoded_other hv, carriedLine_params, carriedLine_text]

end

theorem carried_paramText (id : QString) (t : ParamText) : paramTextLine id t.carried = carriedLine (paramTextLine id t) := by
  unfold paramTextLine ParamText.carried
  simp only [carriedLine_params, carriedLine_text]

theorem carried_rawBytes (p : Picture) : p.carried.rawBytes E = p.rawBytes E := rfl

theorem carried_picture4 (id : QString) (p : Picture) : createPicturev4 E id p.carried = carriedLine (createPicturev4 E id p) := by
  unfold createPicturev4
  rw [carriedLine_ite]
  rfl

theorem carried_picture (id : QString) (p : Picture) : createPicture E id p.carried v = carriedLine (createPicture E id p v) := by
  have he : p.carried.isEmpty = p.isEmpty := by
    unfold Picture.isEmpty Picture.carried
    simp
  unfold createPicture
  simp only [he, carriedLine_ite]
  cases v <;> rfl

theorem carried_pictures (id : QString) (p : Picture) (extra : List Picture) :
    pictureLines E v id p.carried (extra.map Picture.carried) = (pictureLines E v id p extra).map carriedLine := by
  unfold pictureLines
  rw [map_ite_list]
  simp only [List.map_cons, List.map_map, carried_picture4, carried_picture]
  congr 1
  · congr 1; exact List.map_congr_left fun x _ => carried_picture4 id x
  · congr 1; exact List.map_congr_left fun x _ => carried_picture id x

theorem carried_sound (s : Sound) : createSound s.carried v = carriedLine (createSound s v) := by
  unfold createSound Sound.carried
  simp only [carried_isEmpty, carriedLine_ite]
  rfl

theorem carried_key (k : Key) : createKey k.carried v = carriedLine (createKey k v) := by
  unfold createKey Key.carried
  simp only [carried_isEmpty, carriedLine_ite, carriedLine_add]
  rfl

theorem carried_gender (g : Gender) : carried (g.gender ++ if g.comment.isEmpty then [] else qc! ';' :: g.comment) =
    carried g.gender ++ if g.comment.isEmpty then [] else qc! ';' :: carried g.comment := by
  by_cases h : g.comment.isEmpty = true
  · simp [h]
  · rw [if_neg h, if_neg h, carried_mid (by decide) (by decide) (by decide)]

theorem lowerQ_unit (u : UInt16) : (u = 92 → lowerQ u = 92) ∧ (u = 10 → lowerQ u = 10) ∧ (u = 13 → lowerQ u = 13) ∧ (u = 63 → lowerQ u = 63) := by
  refine ⟨?_, ?_, ?_, ?_⟩ <;> rintro rfl <;> decide

theorem carried_group (k : QString) : toLowerQ (carried k) = q! "group" ↔ toLowerQ k = q! "group" := by
  constructor
  · intro h
    rwa [carried_fixed (s := k)] at h
    intro u hu
    have hm : lowerQ u ∈ toLowerQ (carried k) := List.mem_map_of_mem hu
    rw [h] at hm
    refine ⟨?_, ?_, ?_⟩ <;> rintro rfl <;> revert hm <;> decide
  · intro h
    rwa [carried_ascii (s := k)]
    intro u hu
    have hm : lowerQ u ∈ toLowerQ k := List.mem_map_of_mem hu
    rw [h] at hm
    refine ⟨?_, ?_⟩
    · by_contra hc
      have : lowerQ u ∈ (q! "group" : QString) → (lowerQ u).toNat < 128 := by
        intro hm
        revert hm
        generalize lowerQ u = w
        simp only [List.mem_cons, List.not_mem_nil, or_false]
        rintro (rfl | rfl | rfl | rfl | rfl) <;> decide
      have h2 := this hm
      unfold lowerQ at h2
      have hu := u.toNat_lt
      split at h2
      · rename_i g
        simp only [UInt16.le_iff_toNat_le] at g
        have e1 : (65 : UInt16).toNat = 65 := rfl
        have e2 : (90 : UInt16).toNat = 90 := rfl
        have e3 : (0xC0 : UInt16).toNat = 0xC0 := rfl
        have e4 : (0xDE : UInt16).toNat = 0xDE := rfl
        have e5 : (u + 32).toNat = (u.toNat + 32) % 65536 := by simp [UInt16.toNat_add]
        omega
      · omega
    · rintro rfl
      revert hm; decide

/-! ### all lines -/

theorem isoDate_chars (d : Option (Int × Nat × Nat)) : ∀ u ∈ isoDate d, u ≠ 10 ∧ u ≠ 13 ∧ u ≠ 63 := by
  have hp : ∀ w n, ∀ u ∈ padded w n, u ≠ 10 ∧ u ≠ 13 ∧ u ≠ 63 := by
    intro w n u hu
    have := padded_chars w n u hu
    refine ⟨?_, ?_, ?_⟩ <;> rintro rfl <;> simp at this
  intro u hu
  cases d with
  | none => cases hu
  | some x =>
    obtain ⟨y, m, d⟩ := x
    unfold isoDate at hu
    simp only at hu
    split at hu
    · simp only [List.mem_append, List.mem_cons] at hu
      rcases hu with h | rfl | h | rfl | h
      · exact hp _ _ u h
      · decide
      · exact hp _ _ u h
      · decide
      · exact hp _ _ u h
    · cases hu

theorem carried_custom (hv : v ≠ .v2_1) {key value : QString} (h : CustomOK E.toCodecs v key (carried value)) (h0 : E.encoder (b! "UTF-8") = none)
    (hf : Fine E (customLine E v false (key ++ qc! ':' :: carried value))) :
    customLine E v false (key ++ qc! ':' :: carried value) = (customLine E v false (key ++ qc! ':' :: value)).map carriedLine := by
  have hne : value ≠ [] := fun e => h.text.2 (by rw [e]; rfl)
  by_cases hk : v = .v4_0 ∧ key = q! "KADDRESSBOOK-X-Anniversary"
  · obtain ⟨d, hd, hy, e⟩ := h.anniversary hk.1 hk.2
    have hfix : carried value = value := by
      apply carried_fixed
      rw [e]
      exact isoDate_chars _
    rw [hfix] at hf ⊢
    exact fixed_lines h0 hf
  · rw [customLine_eq h, customLine_of h hne, if_neg hk, if_neg hk, List.map_cons, List.map_nil, encoded_other hv, encoded_other hv, carriedLine_text]

/-- The lines of the contact after the round trip are the lines of the contact, with the texts after the round trip. -/
theorem carried_lines (hv : v ≠ .v2_1) (h0 : E.encoder (b! "UTF-8") = none) (hR : Carriable E v (c.carried v)) :
    contactLines E v false (c.carried v) = (contactLines E v false c).map carriedLine := by
  have s0 : versionLines v = (versionLines v).map carriedLine := by cases v <;> rfl
  have s1 : adrLines E v (c.carried v) = (adrLines E v c).map carriedLine := by
    show (c.addresses.map (Address.carried v)).flatMap _ = (c.addresses.flatMap _).map _
    rw [List.flatMap_map, List.map_flatMap]
    congr 1; funext a; exact carried_address hv a
  have s2 : bdayLines v (c.carried v) = (bdayLines v c).map carriedLine := fixed_lines h0 (fine_bday hR)
  have s3 : deathLines v (c.carried v) = (deathLines v c).map carriedLine := fixed_lines h0 (fine_death hR)
  have s4 : categoryLines v (c.carried v) = (categoryLines v c).map carriedLine := by
    unfold categoryLines
    rw [map_ite_list]
    show (if v ≠ .v2_1 then [textLine (q! "CATEGORIES") (joinEscaped (qc! ',') (c.categories.map carried))] else []) = _
    rw [← carried_join (by decide) (by decide) (by decide) (by decide)]
    rfl
  have s5 : memberLines v (c.carried v) = (memberLines v c).map carriedLine := by
    unfold memberLines
    rw [map_ite_list]
    have e : (c.carried v).kind = carried c.kind := rfl
    have e2 : (decide (toLowerQ (c.carried v).kind = q! "group")) = decide (toLowerQ c.kind = q! "group") := by
      rw [e]; exact decide_eq_decide.2 (carried_group c.kind)
    rw [e2]
    show (if _ then (c.members.map carried).map _ else []) = if _ then (c.members.map _).map _ else []
    rw [List.map_map, List.map_map]
    rfl
  have s6 : sourceLines (c.carried v) = (sourceLines c).map carriedLine := by
    show (c.sources.map carried).map _ = (c.sources.map _).map _
    rw [List.map_map, List.map_map]; rfl
  have pt : ∀ (l : List ParamText) (id : QString), (l.map ParamText.carried).map (paramTextLine id) = (l.map (paramTextLine id)).map carriedLine := by
    intro l id
    rw [List.map_map, List.map_map]
    exact List.map_congr_left fun t _ => carried_paramText id t
  have s7 : relatedLines (c.carried v) = (relatedLines c).map carriedLine := pt _ _
  have s8 : classLines v (c.carried v) = (classLines v c).map carriedLine := fixed_lines h0 (fine_class hR)
  have s9 : langLines v (c.carried v) = (langLines v c).map carriedLine := by
    unfold langLines; rw [map_ite_list]
    show (if _ then (c.langs.map ParamText.carried).map _ else []) = _
    rw [pt]; rfl
  have s10 : pidLines v (c.carried v) = (pidLines v c).map carriedLine := by
    unfold pidLines; rw [map_ite_list]
    show (if _ then (c.clientPidMaps.map ParamText.carried).map _ else []) = _
    rw [pt]; rfl
  have s11 : emailLines v (c.carried v) = (emailLines v c).map carriedLine := by
    show (c.emails.map Email.carried).map _ = (c.emails.map _).map _
    rw [List.map_map, List.map_map]
    exact List.map_congr_left fun t _ => carried_email hv t
  have enc : ∀ (id s : QString), [encoded v (carried s) (textLine id (carried s))] = [encoded v s (textLine id s)].map carriedLine := by
    intro id s
    rw [encoded_other hv, encoded_other hv]; rfl
  have s12 : fnLines v (c.carried v) = (fnLines v c).map carriedLine := enc _ _
  have s13 : geoLines E v (c.carried v) = (geoLines E v c).map carriedLine := fixed_lines h0 (fine_geo hR)
  have s14 : keyLines v (c.carried v) = (keyLines v c).map carriedLine := by
    show (c.keys.map Key.carried).map _ = (c.keys.map _).map _
    rw [List.map_map, List.map_map]
    exact List.map_congr_left fun t _ => carried_key t
  have s15 : logoLines E v (c.carried v) = (logoLines E v c).map carriedLine := carried_pictures _ _ _
  have s16 : mailerLines v (c.carried v) = (mailerLines v c).map carriedLine := by
    unfold mailerLines; rw [map_ite_list]
    congr 1; exact enc _ _
  have s17 : nLines v (c.carried v) = (nLines v c).map carriedLine := by
    unfold nLines
    simp only [encoded_other hv, List.map_cons, List.map_nil, carriedLine_ite, carriedLine_add, carriedLine_text, carried_semi]
    by_cases h4 : v = .v4_0
    · subst h4; rfl
    · simp [h4, Contact.carried]
  have s18 : nameLines v (c.carried v) = (nameLines v c).map carriedLine := by
    unfold nameLines; rw [map_ite_list]
    congr 1; exact enc _ _
  have s19 : nickLines v (c.carried v) = (nickLines v c).map carriedLine := by
    unfold nickLines; rw [map_ite_list]
    show (if _ then (c.nickNames.map ParamText.carried).map _ else []) = _
    rw [pt]; rfl
  have s20 : noteLines v (c.carried v) = (noteLines v c).map carriedLine := enc _ _
  have s21 : orgLines v (c.carried v) = (orgLines v c).map carriedLine := by
    show (c.organizations.map ParamText.carried).map _ = (c.organizations.map _).map _
    rw [List.map_map, List.map_map]
    exact List.map_congr_left fun t _ => carried_org hv c.department t
  have s22 : photoLines E v (c.carried v) = (photoLines E v c).map carriedLine := carried_pictures _ _ _
  have s23 : prodidLines v (c.carried v) = (prodidLines v c).map carriedLine := by
    unfold prodidLines; rw [map_ite_list]; rfl
  have s24 : revLines v (c.carried v) = (revLines v c).map carriedLine := fixed_lines h0 (fine_rev hR)
  have ct : ∀ (l : List ParamText) (id : QString), (l.map ParamText.carried).map (codedTextLine v id) = (l.map (codedTextLine v id)).map carriedLine := by
    intro l id
    rw [List.map_map, List.map_map]
    exact List.map_congr_left fun t _ => carried_coded hv id t
  have s25 : roleLines v (c.carried v) = (roleLines v c).map carriedLine := ct _ _
  have s26 : sortLines v (c.carried v) = (sortLines v c).map carriedLine := by
    unfold sortLines; rw [map_ite_list]
    by_cases h3 : v = .v3_0
    · subst h3; rfl
    · rw [if_neg h3, if_neg h3]; rfl
  have s27 : soundLines v (c.carried v) = (soundLines v c).map carriedLine := by
    unfold soundLines; rw [map_ite_list]
    congr 1
    rw [List.map_cons, ← carried_sound]
    congr 1
    show (c.extraSounds.map Sound.carried).map _ = (c.extraSounds.map _).map _
    rw [List.map_map, List.map_map]
    exact List.map_congr_left fun t _ => carried_sound t
  have s28 : telLines v (c.carried v) = (telLines v c).map carriedLine := by
    show (c.phoneNumbers.map PhoneNumber.carried).map _ = (c.phoneNumbers.map _).map _
    rw [List.map_map, List.map_map]
    exact List.map_congr_left fun t _ => carried_phone hv t
  have s29 : titleLines v (c.carried v) = (titleLines v c).map carriedLine := ct _ _
  have s30 : tzLines (c.carried v) = (tzLines c).map carriedLine := fixed_lines h0 (fine_tz hR)
  have s31 : uidLines (c.carried v) = (uidLines c).map carriedLine := rfl
  have s32 : urlLines (c.carried v) = (urlLines c).map carriedLine := by
    show (c.extraUrls.map ParamUrl.carried).map _ = (c.extraUrls.map _).map _
    rw [List.map_map, List.map_map]
    exact List.map_congr_left fun t _ => (carriedLine_params (textLine (q! "URL") t.url) t.params).symm
  have s33 : genderLines v (c.carried v) = (genderLines v c).map carriedLine := by
    unfold genderLines; rw [map_ite_list]
    have e : (c.carried v).gender.isValid = c.gender.isValid := by
      unfold Gender.isValid Contact.carried; simp
    rw [e]
    congr 1
    rw [List.map_cons, List.map_nil, carriedLine_text, carried_gender]
    unfold Contact.carried
    simp
  have s34 : kindLines v (c.carried v) = (kindLines v c).map carriedLine := by
    unfold kindLines; rw [map_ite_list]
    have e : (c.carried v).kind.isEmpty = c.kind.isEmpty := carried_isEmpty _
    rw [e]; rfl
  have s35 : calendarLines E v (c.carried v) = (calendarLines E v c).map carriedLine := fixed_lines h0 (fine_calendar hR)
  have s36 : groupLines (c.carried v) = (groupLines c).map carriedLine := by
    show (c.fieldGroups.map FieldGroup.carried).map _ = (c.fieldGroups.map _).map _
    rw [List.map_map, List.map_map]
    exact List.map_congr_left fun t _ => (carriedLine_params (textLine t.fieldGroupName t.value) t.params).symm
  have s37 : imppLines (c.carried v) = (imppLines c).map carriedLine := by
    show (c.impps.map ParamUrl.carried).map _ = (c.impps.map _).map _
    rw [List.map_map, List.map_map]
    refine List.map_congr_left fun t _ => ?_
    show _ = carriedLine _
    rw [carriedLine_foldl]
    · rfl
    · intro l q
      rw [carriedLine_ite]; rfl
  have s38 : customLines E v false (c.carried v) = (customLines E v false c).map carriedLine := by
    have hf := fine_custom hR
    have hc := hR.customs.2
    unfold customLines Contact.customsList at *
    change Fine E (((c.customs.map fun p => (p.1, carried p.2)).map fun p => p.1 ++ qc! ':' :: p.2).flatMap _) at hf
    change ∀ p ∈ (c.customs.map fun p => (p.1, carried p.2)), _ at hc
    show ((c.customs.map fun p => (p.1, carried p.2)).map fun p => p.1 ++ qc! ':' :: p.2).flatMap _ = _
    rw [List.map_map, List.flatMap_map] at hf ⊢
    rw [List.flatMap_map, List.map_flatMap]
    refine List.flatMap_congr fun p hp => ?_
    exact carried_custom hv (hc (p.1, carried p.2) (List.mem_map.2 ⟨p, hp, rfl⟩)) h0 fun l hl => hf l (List.mem_flatMap.2 ⟨p, hp, hl⟩)
  unfold contactLines contactSections
  rw [List.map_flatten]
  simp only [List.map_cons, List.map_nil]
  rw [s1, s2, s3, s4, s5, s6, s7, s8, s9, s10, s11, s12, s13, s14, s15, s16, s17, s18, s19, s20, s21, s22, s23, s24, s25, s26, s27, s28, s29, s30, s31, s32, s33, s34, s35,
    s36, s37, s38, ← s0]

/-! ### whole cards -/

theorem carried_addLine (f : VCardLine → VCardLine) (hf : ∀ l, (f l).identifier = l.identifier) (card : VCard) (l : VCardLine) :
    VCard.addLine (card.map fun p => (p.1, p.2.map f)) (f l) = (VCard.addLine card l).map fun p => (p.1, p.2.map f) := by
  have h1 : ∀ (card : VCard) (k : QString), SMap.find (card.map fun p => (p.1, p.2.map f)) k = (SMap.find card k).map (List.map f) := by
    intro card k
    induction card with
    | nil => rfl
    | cons p t ih =>
      simp only [SMap.find, List.map_cons, List.find?_cons] at ih ⊢
      by_cases h : p.1 = k <;> simp [h]
      simpa using ih
  have h2 : ∀ (card : VCard) (k : QString) (l : VCardLine), SMap.modify (card.map fun p => (p.1, p.2.map f)) k (· ++ [f l]) =
      (SMap.modify card k (· ++ [l])).map fun p => (p.1, p.2.map f) := by
    intro card k l
    induction card with
    | nil => rfl
    | cons p t ih =>
      simp only [SMap.modify, List.map_cons]
      by_cases h : p.1 = k
      · simp [h]
      · simp only [h, if_false, List.map_cons]; rw [ih]
  have h3 : ∀ (card : VCard) (k : QString) (l : VCardLine), SMap.insertSorted (card.map fun p => (p.1, p.2.map f)) k [f l] =
      (SMap.insertSorted card k [l]).map fun p => (p.1, p.2.map f) := by
    intro card k l
    induction card with
    | nil => rfl
    | cons p t ih =>
      simp only [SMap.insertSorted, List.map_cons]
      by_cases h : qlt p.1 k = true
      · simp only [h, if_true, List.map_cons]; rw [ih]
      · simp [h]
  unfold VCard.addLine
  rw [hf, h1]
  cases SMap.find card l.identifier with
  | none => exact h3 _ _ _
  | some x => exact h2 _ _ _

theorem carried_cardAfter (f : VCardLine → VCardLine) (hf : ∀ l, (f l).identifier = l.identifier) (L : List VCardLine) :
    cardAfter (L.map f) = (cardAfter L).map fun p => (p.1, p.2.map f) := by
  unfold cardAfter
  suffices ∀ card : VCard, (L.map f).foldl VCard.addLine (card.map fun p => (p.1, p.2.map f)) = (L.foldl VCard.addLine card).map fun p => (p.1, p.2.map f) from this []
  induction L with
  | nil => intro card; rfl
  | cons l L ih => intro card; rw [List.map_cons, List.foldl_cons, List.foldl_cons, carried_addLine f hf, ih]

theorem carried_written (f : VCardLine → VCardLine) (hf : ∀ l, (f l).identifier = l.identifier) (L : List VCardLine) :
    (writeOrder (cardAfter (L.map f))).flatMap (cardAfter (L.map f)).lines = ((writeOrder (cardAfter L)).flatMap (cardAfter L).lines).map f := by
  have h1 : writeOrder (cardAfter (L.map f)) = writeOrder (cardAfter L) := by
    unfold writeOrder VCard.identifiers
    have e : ((cardAfter L).map fun p => (p.1, p.2.map f)).map (·.1) = (cardAfter L).map (·.1) := by rw [List.map_map]; rfl
    rw [carried_cardAfter f hf]
    simp only [e]
  rw [h1, List.map_flatMap]
  congr 1
  funext n
  rw [C13_lines, C13_lines, List.filter_map]
  congr 1
  exact List.filter_congr fun l _ => by simp [hf]

/-- the same environment without text codecs -/
def ToolEnv.plain (E : ToolEnv) : ToolEnv := { E with encoder := fun _ => none }

theorem coded_env (hv : v ≠ .v2_1) {E E' : Codecs} {s : QString} (h : CodedText E v s) : CodedText E' v s := by
  unfold CodedText at *
  rw [if_neg (fun x => hv x.1)] at *
  exact h

theorem joined_env (hv : v ≠ .v2_1) {E E' : Codecs} {sep : UInt16} {l : List QString} (h : Joined E v sep l) : Joined E' v sep l := by
  unfold Joined at *
  rw [if_neg (fun x => hv x.1)] at *
  exact h

/-- Outside version 2.1 the codecs do not matter. -/
theorem carriable_plain (hv : v ≠ .v2_1) (hR : Carriable E v c) : Carriable E.plain v c where
  uid := hR.uid
  formattedName := coded_env hv hR.formattedName
  note := coded_env hv hR.note
  mailer := fun h => coded_env hv (hR.mailer h)
  name := fun h => coded_env hv (hR.name h)
  nameParts := joined_env hv hR.nameParts
  sortString := hR.sortString
  sortAs := hR.sortAs
  productId := hR.productId
  birthday := hR.birthday
  revision := hR.revision
  deathDate := hR.deathDate
  timeZone := hR.timeZone
  geo := fun h => let g := hR.geo h; ⟨g.latRange, g.longRange, g.lat, g.long⟩
  categories := fun h => joined_env hv (hR.categories h)
  addresses := fun a ha =>
    let h := hR.addresses a ha
    ⟨h.some, joined_env hv h.parts, fun h4 => coded_env hv (h.label h4), h.label4, fun h4 hg => let g := h.geo h4 hg; ⟨g.latRange, g.longRange, g.lat, g.long⟩⟩
  labels := hR.labels
  phoneNumbers := hR.phoneNumbers
  emails := hR.emails
  organizations := fun o ho => let h := hR.organizations o ho; ⟨h.1, h.2.1, joined_env hv h.2.2.1, h.2.2.2⟩
  titles := hR.titles
  roles := hR.roles
  nickNames := hR.nickNames
  relationships := hR.relationships
  langs := hR.langs
  clientPidMaps := hR.clientPidMaps
  members := hR.members
  sources := hR.sources
  extraUrls := hR.extraUrls
  impps := hR.impps
  calendarUrls := hR.calendarUrls
  gender := hR.gender
  kind := hR.kind
  keys := hR.keys
  pictures := by
    intro p hp
    have h := hR.pictures p hp
    by_cases h4 : v = .v4_0
    · rw [if_pos h4] at h ⊢; exact ⟨h.intern, h.url⟩
    · rw [if_neg h4] at h ⊢; exact fun he => ⟨(h he).intern, (h he).url⟩
  sounds := hR.sounds
  fieldGroups := hR.fieldGroups
  customs := ⟨hR.customs.1, fun p hp => let h := hR.customs.2 p hp; ⟨h.name, h.chars, h.messaging, h.spelled, ⟨coded_env hv h.text.1, h.text.2⟩, h.spouse, h.anniversary⟩⟩

/-- The text of the contacts, read. -/
theorem parseContacts_carried (hv : v ≠ .v2_1) (ids : IdKind → Nat → QString) (hinj : ∀ k i j, ids k i = ids k j → i = j) (cs : List Contact)
    (hR : ∀ c ∈ cs, Carriable E v (c.carried v)) (hu : ∀ c ∈ cs, ∀ i, carried c.uid ≠ ids .contact i) :
    ∃ cs', ReadAs E v ids 0 0 0 (cs.map fun c => (c.carried v).merged) cs' ∧
      ∀ fuel, (physLines (createContacts E v false cs)).length + 2 ≤ fuel → parseContacts E ids fuel (createContacts E v false cs) = .ok cs' := by
  have hlines : ∀ c ∈ cs, contactLines E v false (c.carried v) = (contactLines E v false c).map carriedLine := fun c hc =>
    carried_lines (E := E.plain) hv rfl (carriable_plain hv (hR c hc))
  obtain ⟨cs', e, h⟩ := readCards_merged ids hinj (cs.map (Contact.carried v)) (by
      intro c hc
      obtain ⟨c, hcc, rfl⟩ := List.mem_map.1 hc
      exact hR c hcc) (by
      intro c hc
      obtain ⟨c, hcc, rfl⟩ := List.mem_map.1 hc
      exact hu c hcc) 0 0 0 0
  rw [List.map_map] at h
  refine ⟨cs', h, fun fuel hf => ?_⟩
  have hr := reads_text E.toCodecs (fun l => readBack (carriedLine l)) (cs.map fun c => cardAfter (contactLines E v false c)) (by
    intro card hc l hl
    obtain ⟨c, hcc, rfl⟩ := List.mem_map.1 hc
    refine reads_carried E.toCodecs E.plain.toCodecs rfl l ?_
    refine fine_all (carriable_plain hv (hR c hcc)) _ ?_
    show _ ∈ contactLines E v false (c.carried v)
    rw [hlines c hcc]
    exact List.mem_map.2 ⟨l, mem_flatMap_lines _ _ _ hl, rfl⟩)
  have hp := parseVCards_of_readText E.toCodecs (createContacts E v false cs) _ hr fuel hf
  unfold parseContacts
  rw [hp, List.map_map]
  simp only
  have he : (cs.map ((fun c => cardAfter (((writeOrder c).flatMap c.lines).filterMap fun l => readBack (carriedLine l))) ∘ fun c => cardAfter (contactLines E v false c))) =
      (cs.map (Contact.carried v)).map fun c => cardAfter (writtenBack (contactLines E v false c)) := by
    rw [List.map_map]
    refine List.map_congr_left fun c hc => ?_
    show cardAfter _ = cardAfter (writtenBack (contactLines E v false (c.carried v)))
    rw [hlines c hc]
    unfold writtenBack
    rw [carried_written carriedLine (fun _ => rfl), List.filterMap_map]
    rfl
  rw [he, e]

theorem carried_written_swap (c : Contact) : (c.written v).carried v = (c.carried v).written v := by
  unfold Contact.written Contact.carried
  simp only [List.filter_map]
  congr 2
  refine List.filter_congr fun a _ => ?_
  simp only [Function.comp, Address.parts, Address.carried, List.any_cons, List.any_nil, carried_eq_nil, ne_eq]
  by_cases hv : v = .v4_0
  · simp [hv]
  · simp [hv, carried_eq_nil]

/-- any contacts -/
theorem parseContacts_any (hv : v ≠ .v2_1) (ids : IdKind → Nat → QString) (hinj : ∀ k i j, ids k i = ids k j → i = j) (cs : List Contact)
    (hR : ∀ c ∈ cs, Carriable E v ((c.carried v).written v)) (hu : ∀ c ∈ cs, ∀ i, carried c.uid ≠ ids .contact i) :
    ∃ cs', ReadAs E v ids 0 0 0 (cs.map fun c => ((c.carried v).written v).merged) cs' ∧
      ∀ fuel, (physLines (createContacts E v false cs)).length + 2 ≤ fuel → parseContacts E ids fuel (createContacts E v false cs) = .ok cs' := by
  obtain ⟨cs', h1, h2⟩ := parseContacts_carried (E := E) hv ids hinj (cs.map (Contact.written v)) (by
    intro c hc; obtain ⟨d, hd, rfl⟩ := List.mem_map.1 hc; rw [carried_written_swap]; exact hR d hd) (by
    intro c hc; obtain ⟨d, hd, rfl⟩ := List.mem_map.1 hc; exact hu d hd)
  rw [written_text] at h2
  rw [List.map_map] at h1
  refine ⟨cs', ?_, h2⟩
  convert h1 using 2
  funext c
  show _ = ((c.written v).carried v).merged
  rw [carried_written_swap]

end KC
