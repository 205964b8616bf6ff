import Verif.Lemmas.Components
/- Helper lemmas: the names of the lines of each section of a written contact. -/
namespace KC
open Spec

theorem id_add (l : VCardLine) (k v : QString) : (l.addParameter k v).identifier = l.identifier := rfl

theorem id_fold {α : Type} (f : VCardLine → α → VCardLine) (hf : ∀ l x, (f l x).identifier = l.identifier) (m : List α) (l : VCardLine) :
    (m.foldl f l).identifier = l.identifier := by
  induction m generalizing l with
  | nil => rfl
  | cons x m ih => rw [List.foldl_cons, ih, hf]

theorem id_adds (l : VCardLine) (m : ParameterMap) : (l.addParameters m).identifier = l.identifier := by
  unfold VCardLine.addParameters; apply id_fold; intros; rfl

theorem id_tool (l : VCardLine) (v : Version) (k : QString) (vs : List QString) : (toolAddParameter l v k vs).identifier = l.identifier := by
  cases v with
  | v2_1 => unfold toolAddParameter; apply id_fold; intros; rfl
  | v3_0 => rfl
  | v4_0 => unfold toolAddParameter; simp only; split <;> rfl

theorem id_encoded (v : Version) (t : QString) (l : VCardLine) : (encoded v t l).identifier = l.identifier := by
  unfold encoded; split <;> rfl

theorem id_text (id s : QString) : (textLine id s).identifier = id := rfl

theorem id_addIf (m : ParameterMap) (P : QString → Bool) (l : VCardLine) :
    (m.foldl (fun line p => if P p.1 then addJoined line p else line) l).identifier = l.identifier :=
  id_fold _ (fun l p => by split <;> rfl) m l

/-- every line of the section has this name -/
def Named (sec : List VCardLine) (n : QString) : Prop := ∀ l ∈ sec, l.identifier = n

theorem named_nil (n : QString) : Named [] n := fun _ h => by simp at h
theorem named_one {l : VCardLine} {n : QString} (h : l.identifier = n) : Named [l] n := fun x hx => by
  rw [List.mem_singleton] at hx; subst hx; exact h
theorem named_map {α : Type} {f : α → VCardLine} {m : List α} {n : QString} (h : ∀ x, (f x).identifier = n) : Named (m.map f) n := fun l hl => by
  obtain ⟨x, _, rfl⟩ := List.mem_map.1 hl; exact h x
theorem named_ite {P : Prop} [Decidable P] {a b : List VCardLine} {n : QString} (ha : Named a n) (hb : Named b n) : Named (if P then a else b) n := by
  split
  · exact ha
  · exact hb

variable (E : ToolEnv) (v : Version) (c : Contact)

theorem named_version : Named (versionLines v) (q! "VERSION") := named_one rfl
theorem named_bday : Named (bdayLines v c) (q! "BDAY") := named_one (by split <;> rfl)
theorem named_death : Named (deathLines v c) (q! "DEATHDATE") := named_ite (named_one rfl) (named_nil _)
theorem named_category : Named (categoryLines v c) (q! "CATEGORIES") := named_ite (named_one rfl) (named_nil _)
theorem named_member : Named (memberLines v c) (q! "MEMBER") := named_ite (named_map fun _ => rfl) (named_nil _)
theorem named_source : Named (sourceLines c) (q! "SOURCE") := named_map fun _ => rfl
theorem named_related : Named (relatedLines c) (q! "RELATED") := named_map fun _ => id_adds _ _
theorem named_class : Named (classLines v c) (q! "CLASS") := named_ite (named_one (by unfold createSecrecy; split <;> rfl)) (named_nil _)
theorem named_lang : Named (langLines v c) (q! "LANG") := named_ite (named_map fun _ => id_adds _ _) (named_nil _)
theorem named_pid : Named (pidLines v c) (q! "CLIENTPIDMAP") := named_ite (named_map fun _ => id_adds _ _) (named_nil _)
theorem named_email : Named (emailLines v c) (q! "EMAIL") := named_map fun e => id_fold _ (fun l p => by
  simp only
  split
  · have : ∀ (P Q : Prop) [Decidable P] [Decidable Q] (l : VCardLine) (vs : List QString), (if Q then (if P then l else toolAddParameter l v p.1 vs).addParameter (q! "PREF") []
        else (if P then l else toolAddParameter l v p.1 vs)).identifier = l.identifier := by
      intro P Q _ _ l vs
      split <;> split <;> simp [id_add, id_tool]
    exact this _ _ _ _
  · rfl) _ _
theorem named_fn : Named (fnLines v c) (q! "FN") := named_one (id_encoded _ _ _)
theorem named_geo : Named (geoLines E v c) (q! "GEO") := named_ite (named_one rfl) (named_nil _)
theorem named_key : Named (keyLines v c) (q! "KEY") := named_map fun k => by
  unfold createKey
  simp only
  (repeat' split) <;> rfl
theorem named_pictures {id : QString} {p : Picture} {extra : List Picture} (h : v = .v4_0 → ∀ x ∈ p :: extra, x.isIntern = false) :
    Named (pictureLines E v id p extra) id := by
  have n : ∀ x, (createPicture E id x v).identifier = id := by
    intro x
    unfold createPicture
    simp only
    (repeat' split) <;> rfl
  unfold pictureLines
  split
  · rename_i e
    intro l hl
    rcases List.mem_cons.1 hl with rfl | hl
    · unfold createPicturev4; rw [if_neg (by simp [h e p (by simp)])]; rfl
    · obtain ⟨x, hx, rfl⟩ := List.mem_map.1 hl
      unfold createPicturev4; rw [if_neg (by simp [h e x (by simp [hx])])]; rfl
  · intro l hl
    rcases List.mem_cons.1 hl with rfl | hl
    · exact n _
    · obtain ⟨x, hx, rfl⟩ := List.mem_map.1 hl
      exact n _
theorem named_mailer : Named (mailerLines v c) (q! "MAILER") := named_ite (named_nil _) (named_one (id_encoded _ _ _))
theorem named_n : Named (nLines v c) (q! "N") := named_one (by split <;> simp [id_add, id_encoded, id_text])
theorem named_name : Named (nameLines v c) (q! "NAME") := named_ite (named_nil _) (named_one (id_encoded _ _ _))
theorem named_nick : Named (nickLines v c) (q! "NICKNAME") := named_ite (named_map fun _ => id_adds _ _) (named_nil _)
theorem named_note : Named (noteLines v c) (q! "NOTE") := named_one (id_encoded _ _ _)
theorem named_org : Named (orgLines v c) (q! "ORG") := named_map fun o => by
  unfold orgLine; simp only [id_adds, id_encoded, id_text]
theorem named_prodid : Named (prodidLines v c) (q! "PRODID") := named_ite (named_one rfl) (named_nil _)
theorem named_rev : Named (revLines v c) (q! "REV") := named_one rfl
theorem named_role : Named (roleLines v c) (q! "ROLE") := named_map fun t => by
  unfold codedTextLine; simp only [id_adds, id_encoded, id_text]
theorem named_sort : Named (sortLines v c) (q! "SORT-STRING") := named_ite (named_one rfl) (named_nil _)
theorem named_sound : Named (soundLines v c) (q! "SOUND") := by
  have n : ∀ s, (createSound s v).identifier = q! "SOUND" := by
    intro s
    unfold createSound
    simp only
    (repeat' split) <;> rfl
  refine named_ite (named_nil _) ?_
  intro l hl
  rcases List.mem_cons.1 hl with rfl | hl
  · exact n _
  · obtain ⟨x, _, rfl⟩ := List.mem_map.1 hl
    exact n _
theorem named_tel : Named (telLines v c) (q! "TEL") := named_map fun p => by
  unfold phoneLine
  simp only
  have h : ∀ P : Prop, ∀ [Decidable P], ∀ (l : VCardLine) (k : QString) (vs : List QString), (if P then l else toolAddParameter l v k vs).identifier = l.identifier := by
    intro P _ l k vs; split <;> simp [id_tool]
  rw [h]
  exact id_fold _ (fun l p => by split <;> rfl) _ _
theorem named_title : Named (titleLines v c) (q! "TITLE") := named_map fun t => by
  unfold codedTextLine; simp only [id_adds, id_encoded, id_text]
theorem named_tz : Named (tzLines c) (q! "TZ") := named_ite (named_one rfl) (named_nil _)
theorem named_uid : Named (uidLines c) (q! "UID") := named_one rfl
theorem named_url : Named (urlLines c) (q! "URL") := named_map fun _ => id_adds _ _
theorem named_gender : Named (genderLines v c) (q! "GENDER") := named_ite (named_one rfl) (named_nil _)
theorem named_kind : Named (kindLines v c) (q! "KIND") := named_ite (named_one rfl) (named_nil _)
theorem named_impp : Named (imppLines c) (q! "IMPP") := named_map fun _ => id_fold _ (fun l p => by split <;> rfl) _ _

theorem names_adr : ∀ l ∈ adrLines E v c, l.identifier = q! "ADR" ∨ l.identifier = q! "LABEL" := by
  intro l hl
  obtain ⟨a, _, hl⟩ := List.mem_flatMap.1 hl
  unfold addressLines at hl
  simp only at hl
  rcases List.mem_append.1 hl with hl | hl
  · split at hl
    · rw [List.mem_singleton] at hl; subst hl; right; simp only [id_tool, id_encoded, id_text]
    · cases hl
  · split at hl
    · cases hl
    · rw [List.mem_singleton] at hl; subst hl; left
      rw [id_tool]
      (repeat' split) <;> simp only [id_add, id_encoded, id_text]

theorem names_calendar : ∀ l ∈ calendarLines E v c, l.identifier ∈ [q! "CALADRURI", q! "CALURI", q! "FBURL"] := by
  intro l hl
  unfold calendarLines at hl
  split at hl
  · obtain ⟨u, hu, rfl⟩ := List.mem_map.1 hl
    rw [id_adds, id_text]
    have := (List.mem_filter.1 hu).2
    unfold calendarName at *
    revert this
    (repeat' split) <;> simp
  · cases hl

variable {E v c}

theorem groupOK_name {g : FieldGroup} (h : GroupOK g) : nameTag g.fieldGroupName = .fieldGroup ∧ NameGood g.fieldGroupName ∧
    (nameRead g.fieldGroupName).1 ++ qc! '.' :: (nameRead g.fieldGroupName).2 = g.fieldGroupName := by
  obtain ⟨a, b, hab, ha, na, nb, hadr, hst⟩ := h.name
  have hsp : splitOn (qc! '.') g.fieldGroupName = [a, b] := by
    rw [hab, splitOn_append _ _ _ na.sep.2.2.1, splitOn_of_not_mem _ _ nb.sep.2.2.1]
  have hnr : nameRead g.fieldGroupName = (a, b) := by unfold nameRead; rw [hsp]
  refine ⟨?_, ⟨?_, ?_, ?_, ?_, ?_⟩, ?_⟩
  · unfold nameTag tagOf
    rw [hnr]
    simp only
    rw [if_pos]
    simp [ha, hadr]
  · rw [hab]
    intro u hu
    rcases List.mem_append.1 hu with hu | hu
    · exact na.latin u hu
    · rcases List.mem_cons.1 hu with rfl | hu
      · decide
      · exact nb.latin u hu
  · rw [hab]
    simp only [List.mem_append, List.mem_cons, not_or]
    exact ⟨⟨na.sep.1, by decide, nb.sep.1⟩, ⟨na.sep.2.1, by decide, nb.sep.2.1⟩, ⟨na.sep.2.2.2, by decide, nb.sep.2.2.2⟩⟩
  · rw [hsp]; simp
  · intro x hx
    apply hst x
    rw [hab] at hx
    cases a with
    | nil => exact absurd rfl ha
    | cons y a => simpa using hx
  · have hdot : (c! '.') ∈ toLowerB (toLatin1 g.fieldGroupName) := by
      rw [hab]
      simp only [toLowerB, toLatin1, List.map_append, List.map_cons, List.mem_append, List.mem_cons]
      right; left; decide
    constructor
    · intro e; rw [e] at hdot; revert hdot; decide
    · intro e; rw [e] at hdot; revert hdot; decide
  · rw [hnr, hab]

theorem dash_key {key app n : QString} (h : key = app ++ qc! '-' :: n) (hd : qc! '-' ∉ app) :
    indexQ (qc! '-') key = app.length ∧ key.take app.length = app ∧ key.drop (app.length + 1) = n := by
  subst h
  refine ⟨?_, by simp, by simp⟩
  unfold indexQ
  rw [indexOf?_append _ _ _ hd]

theorem take_drop_two (key : QString) : (q! "X-" ++ key).drop 2 = key := rfl

theorem customOK_lower {E : Codecs} {key value : QString} (h : CustomOK E v key value) (name : QString)
    (hn : renamed importNames (toLowerQ (q! "X-" ++ name)) = some (q! "X-" ++ name)) (he : toLowerQ (q! "X-" ++ key) = toLowerQ (q! "X-" ++ name)) : key = name := by
  have := h.spelled _ (by rw [he]; exact hn)
  have := congrArg (List.drop 2) this
  rw [take_drop_two, take_drop_two] at this
  exact this.symm

/-- the line of a custom field whose name can be carried -/
theorem customLine_of {key value value' : QString} (h : CustomOK E.toCodecs v key value') (hne : value ≠ []) :
    customLine E v false (key ++ qc! ':' :: value) =
      if v = .v4_0 ∧ key = q! "KADDRESSBOOK-X-Anniversary" then
        [{ ({ identifier := q! "ANNIVERSARY" } : VCardLine).addParameter (q! "VALUE") (q! "DATE") with
           value := .str (createDateTime ((isoDateOf E value).map fun d => { date := d, time := (0, 0, 0, 0), zone := none }) true true) }]
      else [encoded v value (textLine (q! "X-" ++ key) value)] := by
  have hi : (indexOf? (qc! ':') (key ++ qc! ':' :: value)).getD (key ++ qc! ':' :: value).length = key.length := by
    rw [indexOf?_append _ _ _ h.chars.sep.2.1]; rfl
  have hdrop : (key ++ qc! ':' :: value).drop (key.length + 1) = value := by simp
  have htake : (key ++ qc! ':' :: value).take key.length = key := by simp
  have hne : value.isEmpty = false := by cases value with | nil => exact absurd rfl hne | cons _ _ => rfl
  unfold customLine
  simp only [hi, hdrop, htake, hne, Bool.false_eq_true, if_false]
  by_cases hv : v = .v4_0
  · have hsp : toLowerQ (q! "X-" ++ key) ≠ q! "x-kaddressbook-x-spousesname" := fun e =>
      h.spouse hv (customOK_lower h (q! "KADDRESSBOOK-X-SpousesName") (by decide +kernel) (e.trans (by decide +kernel)))
    by_cases hk : key = q! "KADDRESSBOOK-X-Anniversary"
    · have : toLowerQ (q! "X-" ++ key) = q! "x-kaddressbook-x-anniversary" := by rw [hk]; decide +kernel
      rw [this, if_pos (by simp [hv]), if_pos ⟨hv, hk⟩]
    · have : toLowerQ (q! "X-" ++ key) ≠ q! "x-kaddressbook-x-anniversary" := fun e =>
        hk (customOK_lower h (q! "KADDRESSBOOK-X-Anniversary") (by decide +kernel) (e.trans (by decide +kernel)))
      rw [if_neg (by rw [decide_eq_false this]; simp), if_neg (by rw [decide_eq_false hsp]; simp), if_neg (by simp [hk])]
  · rw [if_neg (by simp [hv]), if_neg (by simp [hv]), if_neg (by simp [hv])]

/-- the line of a custom field -/
theorem customLine_eq {key value : QString} (h : CustomOK E.toCodecs v key value) :
    customLine E v false (key ++ qc! ':' :: value) =
      if v = .v4_0 ∧ key = q! "KADDRESSBOOK-X-Anniversary" then
        [{ ({ identifier := q! "ANNIVERSARY" } : VCardLine).addParameter (q! "VALUE") (q! "DATE") with
           value := .str (createDateTime ((isoDateOf E value).map fun d => { date := d, time := (0, 0, 0, 0), zone := none }) true true) }]
      else [encoded v value (textLine (q! "X-" ++ key) value)] := customLine_of h h.text.2

theorem startsWith_x (key : QString) : startsWith (q! "x-") (toLowerQ (q! "X-" ++ key)) = true := by
  have : toLowerQ (q! "X-" ++ key) = q! "x-" ++ toLowerQ key := by
    unfold toLowerQ; rw [List.map_append]; congr 1
  rw [this]
  simp [startsWith]

theorem nameRead_plain {s : QString} (h : qc! '.' ∉ s) : nameRead s = ([], s) := by
  unfold nameRead; rw [splitOn_of_not_mem _ _ h]

theorem custom_dot {key : QString} (h : qc! '.' ∉ key) : qc! '.' ∉ q! "X-" ++ key := by
  intro hm
  rcases List.mem_append.1 hm with hm | hm
  · revert hm; decide
  · exact h hm

theorem tagTable_no_x : ∀ p ∈ tagTable, startsWith (q! "x-") p.1 = false := by decide +kernel

theorem customOK_tag {E : Codecs} {key value : QString} (h : CustomOK E v key value) : nameTag (q! "X-" ++ key) = .x := by
  unfold nameTag tagOf
  rw [nameRead_plain (custom_dot h.chars.sep.2.2.1)]
  simp only [ne_eq, not_true_eq_false, decide_false, Bool.false_and, Bool.false_eq_true, if_false]
  have : tagTable.find? (fun p => decide (p.1 = toLowerQ (q! "X-" ++ key))) = none := by
    rw [List.find?_eq_none]
    intro p hp e
    simp only [decide_eq_true_eq] at e
    have h1 := tagTable_no_x p hp
    rw [e, startsWith_x] at h1
    cases h1
  rw [this]
  simp only [startsWith_x, if_true]

theorem customOK_good {E : Codecs} {key value : QString} (h : CustomOK E v key value) : NameGood (q! "X-" ++ key) := by
  have hd := custom_dot h.chars.sep.2.2.1
  refine ⟨?_, ?_, ?_, ?_, ?_⟩
  · intro u hu
    rcases List.mem_append.1 hu with hu | hu
    · have : ∀ u ∈ q! "X-", u.toNat < 256 := by decide
      exact this u hu
    · exact h.chars.latin u hu
  · simp only [List.mem_append, not_or]
    exact ⟨⟨by decide, h.chars.sep.1⟩, ⟨by decide, h.chars.sep.2.1⟩, ⟨by decide, h.chars.sep.2.2.2⟩⟩
  · rw [splitOn_of_not_mem _ _ hd]; simp
  · intro c hc
    have : c = qc! 'X' := by simpa using hc.symm
    subst this; decide
  · have : toLowerB (toLatin1 (q! "X-" ++ key)) = b! "x-" ++ toLowerB (toLatin1 key) := by
      rw [toLatin1_append]; unfold toLowerB; rw [List.map_append]; congr 1
    rw [this]
    constructor <;> intro e <;> have := congrArg List.head? e <;> simp at this <;> revert this <;> decide

theorem customs_section (h : ∀ p ∈ c.customs, CustomOK E.toCodecs v p.1 p.2) : customLines E v false c = c.customs.map fun p =>
    if v = .v4_0 ∧ p.1 = q! "KADDRESSBOOK-X-Anniversary" then
        { ({ identifier := q! "ANNIVERSARY" } : VCardLine).addParameter (q! "VALUE") (q! "DATE") with
           value := .str (createDateTime ((isoDateOf E p.2).map fun d => { date := d, time := (0, 0, 0, 0), zone := none }) true true) }
      else encoded v p.2 (textLine (q! "X-" ++ p.1) p.2) := by
  unfold customLines Contact.customsList
  rw [List.flatMap_map]
  generalize c.customs = m at h
  induction m with
  | nil => rfl
  | cons p m ih =>
    rw [List.flatMap_cons, ih fun q hq => h q (List.mem_cons_of_mem _ hq), customLine_eq (h p (by simp)), List.map_cons]
    split <;> rfl

/-- the kinds of lines of the sections -/
def secTags : List (List Tag) :=
  [[.other], [.adr, .label], [.bday], [.deathdate], [.categories], [.member], [.source], [.related], [.class_], [.lang], [.clientpidmap], [.email],
   [.fn], [.geo], [.key], [.logo], [.mailer], [.n], [.name], [.nickname], [.note], [.org], [.photo], [.prodid], [.rev], [.role], [.sortString],
   [.sound], [.tel], [.title], [.tz], [.uid], [.url], [.gender], [.kind], [.caladruri, .caluri, .fburl], [.fieldGroup], [.impp], [.x, .anniversary]]

theorem named_tags {sec : List VCardLine} {n : QString} {ts : List Tag} (h : Named sec n) (ht : nameTag n ∈ ts) : ∀ l ∈ sec, nameTag l.identifier ∈ ts :=
  fun l hl => by rw [h l hl]; exact ht

theorem readable_pictures (hR : Carriable E v c) :
    (v = .v4_0 → ∀ x ∈ c.logo :: c.extraLogos, x.isIntern = false) ∧ (v = .v4_0 → ∀ x ∈ c.photo :: c.extraPhotos, x.isIntern = false) := by
  have key : v = .v4_0 → ∀ x ∈ c.logo :: c.extraLogos ++ c.photo :: c.extraPhotos, x.isIntern = false := by
    intro e x hx
    have := hR.pictures x hx
    rw [if_pos e] at this
    cases hi : x.isIntern with
    | false => rfl
    | true => have := (this.intern hi).1; rw [e] at this; cases this
  exact ⟨fun e x hx => key e x (List.mem_append_left _ hx), fun e x hx => key e x (List.mem_append_right _ hx)⟩

theorem secOK (hR : Carriable E v c) : SecOK (contactSections E v false c) secTags := by
  unfold SecOK contactSections secTags
  repeat' first | exact List.Forall₂.nil | refine List.Forall₂.cons ?_ ?_
  · exact named_tags (named_version v) (by decide +kernel)
  · intro l hl
    rcases names_adr E v c l hl with e | e <;> rw [e] <;> decide +kernel
  · exact named_tags (named_bday v c) (by decide +kernel)
  · exact named_tags (named_death v c) (by decide +kernel)
  · exact named_tags (named_category v c) (by decide +kernel)
  · exact named_tags (named_member v c) (by decide +kernel)
  · exact named_tags (named_source c) (by decide +kernel)
  · exact named_tags (named_related c) (by decide +kernel)
  · exact named_tags (named_class v c) (by decide +kernel)
  · exact named_tags (named_lang v c) (by decide +kernel)
  · exact named_tags (named_pid v c) (by decide +kernel)
  · exact named_tags (named_email v c) (by decide +kernel)
  · exact named_tags (named_fn v c) (by decide +kernel)
  · exact named_tags (named_geo E v c) (by decide +kernel)
  · exact named_tags (named_key v c) (by decide +kernel)
  · exact named_tags (named_pictures E v (readable_pictures hR).1) (by decide +kernel)
  · exact named_tags (named_mailer v c) (by decide +kernel)
  · exact named_tags (named_n v c) (by decide +kernel)
  · exact named_tags (named_name v c) (by decide +kernel)
  · exact named_tags (named_nick v c) (by decide +kernel)
  · exact named_tags (named_note v c) (by decide +kernel)
  · exact named_tags (named_org v c) (by decide +kernel)
  · exact named_tags (named_pictures E v (readable_pictures hR).2) (by decide +kernel)
  · exact named_tags (named_prodid v c) (by decide +kernel)
  · exact named_tags (named_rev v c) (by decide +kernel)
  · exact named_tags (named_role v c) (by decide +kernel)
  · exact named_tags (named_sort v c) (by decide +kernel)
  · exact named_tags (named_sound v c) (by decide +kernel)
  · exact named_tags (named_tel v c) (by decide +kernel)
  · exact named_tags (named_title v c) (by decide +kernel)
  · exact named_tags (named_tz c) (by decide +kernel)
  · exact named_tags (named_uid c) (by decide +kernel)
  · exact named_tags (named_url c) (by decide +kernel)
  · exact named_tags (named_gender v c) (by decide +kernel)
  · exact named_tags (named_kind v c) (by decide +kernel)
  · intro l hl
    have := names_calendar E v c l hl
    simp only [List.mem_cons, List.not_mem_nil, or_false] at this
    rcases this with e | e | e <;> rw [e] <;> decide +kernel
  · intro l hl
    obtain ⟨g, hg, rfl⟩ := List.mem_map.1 hl
    rw [id_adds, id_text, (groupOK_name (hR.fieldGroups g hg)).1]
    decide
  · exact named_tags (named_impp c) (by decide +kernel)
  · rw [customs_section hR.customs.2]
    intro l hl
    obtain ⟨p, hp, rfl⟩ := List.mem_map.1 hl
    split
    · show nameTag (q! "ANNIVERSARY") ∈ _
      decide +kernel
    · rw [id_encoded, id_text, customOK_tag (hR.customs.2 p hp)]; decide

end KC
