import Verif.Props.C35
import Verif.Props.C86

/-! # C109: going through the binary stream makes no difference to the exports -/

namespace KC
open Spec

/-- What the stream keeps to the letter: pictures without file content, or whose file is what Qt makes of its image; valid URLs; names of custom fields
    without a colon. (`Sorted`, `CountableContact`: as every contact has them, and less than 2^32 parameters.) -/
structure StreamSafe (E : ToolEnv) (c : Contact) : Prop where
  counted : CountableContact c
  sorted : Sorted c.customs
  pictures : ∀ p ∈ [c.logo, c.photo] ++ c.extraLogos ++ c.extraPhotos, p.isIntern = true →
    p.rawData = [] ∨ ∃ i, p.imageData E.toQtEnv = some i ∧ E.encodeImage i (toUpperQ p.type) = p.rawData
  urls : ∀ u ∈ c.extraUrls.map (·.url) ++ c.impps.map (·.url) ++ c.calendarUrls.map (·.url) ++ c.sources, u = [] ∨ E.urlValid u = true
  customs : ∀ p ∈ c.customs, qc! ':' ∉ p.1

/-- A contact without its pictures. -/
private def unpictured (c : Contact) : Contact := { c with logo := {}, photo := {}, extraLogos := [], extraPhotos := [], empty := false, changed := false }

private theorem streamed_unpictured (E : ToolEnv) (c : Contact) (h : StreamSafe E c) : unpictured (c.streamed E.toQtEnv) = unpictured c := by
  have hc := C35_contact E.toQtEnv (unpictured c) { uid := [] } ⟨h.counted.1, h.counted.2, h.counted.3, h.counted.4, h.counted.5, h.counted.6, h.counted.7, h.counted.8,
    h.counted.9, h.counted.10, h.counted.11, h.counted.12, h.counted.13⟩ rfl rfl []
  have hp := C35_contact_partial E.toQtEnv (unpictured c) { uid := [] } ⟨h.counted.1, h.counted.2, h.counted.3, h.counted.4, h.counted.5, h.counted.6, h.counted.7, h.counted.8,
    h.counted.9, h.counted.10, h.counted.11, h.counted.12, h.counted.13⟩ rfl rfl (by simp [unpictured]) h.urls h.sorted h.customs []
  rw [hc] at hp
  have e := congrArg Prod.fst (Option.some.inj hp)
  have e2 := congrArg unpictured e
  exact e2

private theorem streamed_eq (E : ToolEnv) (c : Contact) (h : StreamSafe E c) :
    c.streamed E.toQtEnv = { c with logo := c.logo.streamed E.toQtEnv, photo := c.photo.streamed E.toQtEnv, extraLogos := c.extraLogos.map (Picture.streamed E.toQtEnv), extraPhotos := c.extraPhotos.map (Picture.streamed E.toQtEnv), empty := false } := by
  have e := streamed_unpictured E c h
  have e2 := congrArg (fun d : Contact => ({ d with logo := c.logo.streamed E.toQtEnv, photo := c.photo.streamed E.toQtEnv, extraLogos := c.extraLogos.map (Picture.streamed E.toQtEnv), extraPhotos := c.extraPhotos.map (Picture.streamed E.toQtEnv), empty := false, changed := c.changed } : Contact)) e
  exact e2

private theorem streamed_picture (E : ToolEnv) (p : Picture) (h : p.isIntern = true →
    p.rawData = [] ∨ ∃ i, p.imageData E.toQtEnv = some i ∧ E.encodeImage i (toUpperQ p.type) = p.rawData) :
    ∀ v id, createPicture E id (p.streamed E.toQtEnv) v = createPicture E id p v ∧ createPicturev4 E id (p.streamed E.toQtEnv) = createPicturev4 E id p := by
  intro v id
  obtain ⟨u, t, im, r, i⟩ := p
  cases i with
  | false => exact ⟨rfl, rfl⟩
  | true =>
    have hr : Picture.rawBytes E (Picture.streamed E.toQtEnv ⟨u, t, im, r, true⟩) = Picture.rawBytes E ⟨u, t, im, r, true⟩ ∧
        Picture.isEmpty (Picture.streamed E.toQtEnv ⟨u, t, im, r, true⟩) = Picture.isEmpty ⟨u, t, im, r, true⟩ := by
      rcases h rfl with h | ⟨i, h1, h2⟩
      · simp only at h
        subst h
        cases im <;> exact ⟨rfl, rfl⟩
      · have e : Picture.streamed E.toQtEnv ⟨u, t, im, r, true⟩ = ⟨u, t, some i, [], true⟩ := by unfold Picture.streamed; rw [h1]
        rw [e]
        cases r with
        | nil => exact ⟨by
            cases im with
            | none => simp [Picture.imageData] at h1
            | some j => simp [Picture.imageData] at h1; subst h1; rfl, by
            cases im with
            | none => simp [Picture.imageData] at h1
            | some j => rfl⟩
        | cons x r => exact ⟨h2, by simp [Picture.isEmpty]⟩
    unfold createPicture createPicturev4
    rw [hr.1, hr.2]
    exact ⟨rfl, rfl⟩

private theorem streamed_pictures (E : ToolEnv) (v : Version) (id : QString) (p : Picture) (l : List Picture) (hp : ∀ q ∈ p :: l, q.isIntern = true →
    q.rawData = [] ∨ ∃ i, q.imageData E.toQtEnv = some i ∧ E.encodeImage i (toUpperQ q.type) = q.rawData) :
    pictureLines E v id (p.streamed E.toQtEnv) (l.map (Picture.streamed E.toQtEnv)) = pictureLines E v id p l := by
  have e : ∀ q ∈ p :: l, _ := fun q hq => streamed_picture E q (hp q hq) v id
  have e0 := e p List.mem_cons_self
  unfold pictureLines
  rw [e0.1, e0.2, List.map_map, List.map_map]
  congr 1
  · congr 1
    exact List.map_congr_left fun q hq => (e q (List.mem_cons_of_mem _ hq)).2
  · congr 1
    exact List.map_congr_left fun q hq => (e q (List.mem_cons_of_mem _ hq)).1

private theorem streamed_lines (E : ToolEnv) (v : Version) (ex b : Bool) (c : Contact) (h : StreamSafe E c) :
    contactLines E v ex { c.streamed E.toQtEnv with changed := b } = contactLines E v ex c := by
  rw [streamed_eq E c h]
  have h1 := streamed_pictures E v (q! "LOGO") c.logo c.extraLogos fun q hq => h.pictures q (by
    rcases List.mem_cons.1 hq with rfl | hq
    · simp
    · simp [hq])
  have h2 := streamed_pictures E v (q! "PHOTO") c.photo c.extraPhotos fun q hq => h.pictures q (by
    rcases List.mem_cons.1 hq with rfl | hq
    · simp
    · simp [hq])
  unfold contactLines contactSections
  unfold logoLines photoLines
  simp only [h1, h2]
  rfl

private theorem streamed_ldif (E : ToolEnv) (L : LdifEnv) (f : QString) (b : Bool) (c : Contact) (h : StreamSafe E c) (he : c.empty = false) (str : QString) :
    addresseeToLDIF L f { c.streamed E.toQtEnv with changed := b } str = addresseeToLDIF L f c str := by
  rw [streamed_eq E c h]
  simp only [addresseeToLDIF, he]
  rfl

private theorem foldl_ldif {α β : Type} (F G : β → α → β) (l : List α) (h : ∀ c ∈ l, ∀ acc, F acc c = G acc c) (acc : β) : l.foldl F acc = l.foldl G acc := by
  induction l generalizing acc with
  | nil => rfl
  | cons c l ih => rw [List.foldl_cons, List.foldl_cons, h c List.mem_cons_self, ih fun x hx => h x (List.mem_cons_of_mem _ hx)]

/-- **C109.** Contacts put on a binary stream and read from it again: the same vCards, in any version and for both kinds of export, and the same LDIF text are
    made of them. `fresh` are the new contacts that are read into. -/
theorem C109_partial (E : ToolEnv) (cs : List Contact) (fresh : Contact) (hf : fresh.logo.rawData = [] ∧ fresh.photo.rawData = [])
    (h : ∀ c ∈ cs, StreamSafe E c) (rest : List Item) :
    ∃ cs', rdList (rdContact fresh) (wrList (wrContact E.toQtEnv) cs ++ rest) = some (cs', rest) ∧
      (∀ v ex, createContacts E v ex cs' = createContacts E v ex cs) ∧
      ((∀ c ∈ cs, c.empty = false) → ∀ L f str, addresseesToLDIF L f cs' str = addresseesToLDIF L f cs str) := by
  refine ⟨_, rdList_map _ _ (fun c => { c.streamed E.toQtEnv with changed := fresh.changed }) cs
    (fun c hc rest => C35_contact E.toQtEnv c fresh (h c hc).counted hf.1 hf.2 rest) rest, fun v ex => ?_, fun he L f str => ?_⟩
  · unfold createContacts
    rw [List.map_map]
    congr 1
    exact List.map_congr_left fun c hc => by
      show _ = _
      rw [Function.comp_apply, streamed_lines E v ex fresh.changed c (h c hc)]
  · have key : ∀ (acc : Bool × QString), (cs.map fun c => ({ c.streamed E.toQtEnv with changed := fresh.changed } : Contact)).foldl
        (fun acc c => let r := addresseeToLDIF L f c acc.2; (r.1 || acc.1, r.2)) acc =
        cs.foldl (fun acc c => let r := addresseeToLDIF L f c acc.2; (r.1 || acc.1, r.2)) acc := by
      intro acc
      rw [List.foldl_map]
      refine foldl_ldif _ _ cs (fun c hc acc => ?_) acc
      rw [streamed_ldif E L f _ c (h c hc) (he c hc)]
    simp only [addresseesToLDIF, List.isEmpty_map, key]

/-- Non-vacuity: two copies of the sample contact, which has linked pictures, web addresses and custom fields, with another logo. -/
example (v : Version) (rest : List Item) : ∃ cs', rdList (rdContact { uid := q! "new" })
      (wrList (wrContact Sample.env.toQtEnv) [Sample.contact, { Sample.contact with logo := { rawData := [1, 2], type := q! "png", isIntern := true } }] ++ rest) = some (cs', rest) ∧
    createContacts Sample.env v false cs' =
      createContacts Sample.env v false [Sample.contact, { Sample.contact with logo := { rawData := [1, 2], type := q! "png", isIntern := true } }] := by
  obtain ⟨cs', h1, h2, -⟩ := C109_partial Sample.env [Sample.contact, { Sample.contact with logo := { rawData := [1, 2], type := q! "png", isIntern := true } }] { uid := q! "new" }
    ⟨rfl, rfl⟩ (by
      intro c hc
      simp only [List.mem_cons, List.not_mem_nil, or_false] at hc
      rcases hc with rfl | rfl
      all_goals
        refine ⟨?_, by unfold Sorted; decide, ?_, ?_, by decide⟩
        · constructor <;> simp [Countable, Sample.contact]
        · simp [Sample.contact, Picture.imageData, Sample.env]
        · decide) rest
  exact ⟨cs', h1, h2 v false⟩

private def picEnv : ToolEnv := { Sample.env with loadImage := fun b => some (b.take 2) }
private def picContact : Contact := { uid := q! "u", photo := { rawData := [1, 2, 3], type := q! "png", isIntern := true } }
private def urlEnv : ToolEnv := { Sample.env with urlValid := fun u => decide (qc! ' ' ∉ u) }
private def urlContact : Contact := { uid := q! "u", extraUrls := [{ url := q! "x y" }] }

/-- C109 fails for an embedded picture whose file is not what Qt makes of its image - for example one with a comment: another file is exported. -/
theorem C109_picture_false : ∃ (E : ToolEnv) (c c' : Contact), c.photo.rawData = [1, 2, 3] ∧ E.loadImage [1, 2, 3] = some [1, 2] ∧ E.encodeImage [1, 2] (q! "PNG") = [1, 2] ∧
    rdContact { uid := [] } (wrContact E.toQtEnv c) = some (c', []) ∧ createContacts E .v3_0 false [c'] ≠ createContacts E .v3_0 false [c] := by
  refine ⟨picEnv, picContact, { picContact.streamed picEnv.toQtEnv with changed := false }, rfl, rfl, rfl, ?_, ?_⟩
  · have h := C35_contact picEnv.toQtEnv picContact { uid := [] } (by constructor <;> simp [picContact]) rfl rfl []
    rwa [List.append_nil] at h
  · decide +kernel

/-- C109 fails for a web address that is not valid: it is exported before, not after. -/
theorem C109_url_false : ∃ (E : ToolEnv) (c c' : Contact), c.extraUrls = [{ url := q! "x y" }] ∧ E.urlValid (q! "x y") = false ∧
    rdContact { uid := [] } (wrContact E.toQtEnv c) = some (c', []) ∧ createContacts E .v3_0 false [c'] ≠ createContacts E .v3_0 false [c] := by
  refine ⟨urlEnv, urlContact, { urlContact.streamed urlEnv.toQtEnv with changed := false }, rfl, by decide, ?_, ?_⟩
  · have h := C35_contact urlEnv.toQtEnv urlContact { uid := [] } (by constructor <;> simp [urlContact, Countable]) rfl rfl []
    rwa [List.append_nil] at h
  · decide +kernel

end KC
