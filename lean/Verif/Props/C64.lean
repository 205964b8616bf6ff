import Verif.Model.Media
import Verif.Spec.Sample
/-
  C64: a picture, a sound and a key show what was set last, and reading them changes nothing.
-/
namespace KC
namespace Spec

/-- What a picture was last given: an address (with a type), an image (`none`: the null image), or the bytes of an image file. -/
inductive PictureContent where
  | url (u t : QString)
  | image (i : Option (List UInt8))
  | raw (r : QByteArray) (t : QString)

/-- What a call sets, if it is not a reader. -/
def given : PictureOp → Option PictureContent
  | .setUrl u => some (.url u [])
  | .setUrlType u t => some (.url u t)
  | .setImage i => some (.image i)
  | .setRawData r t => some (.raw r t)
  | .readImage => none
  | .readRaw => none

/-- The last thing set in a history. -/
def lastGiven (ops : List PictureOp) : Option PictureContent := (ops.filterMap given).getLast?

/-- All that can be seen of a picture agrees with what it was given. -/
def Shows (E : ToolEnv) (alpha : List UInt8 → Bool) (p : Picture) : PictureContent → Prop
  | .url u t => p.isIntern = false ∧ p.url = u ∧ p.type = t ∧ (p.isEmpty = true ↔ u = [])
  | .raw r t => p.isIntern = true ∧ p.type = t ∧ (p.readRaw E).2 = r ∧ (p.isEmpty = true ↔ r = []) ∧
      (p.readImage E.toQtEnv).2 = if r = [] then none else E.loadImage r
  | .image none => p.isIntern = true ∧ p.type = q! "jpeg" ∧ p.isEmpty = true ∧ (p.readImage E.toQtEnv).2 = none ∧ (p.readRaw E).2 = []
  | .image (some x) => p.isIntern = true ∧ p.type = (if alpha x = true then q! "png" else q! "jpeg") ∧ p.isEmpty = false ∧
      (p.readImage E.toQtEnv).2 = some x ∧ (p.readRaw E).2 = E.encodeImage x (if alpha x = true then q! "PNG" else q! "JPEG")

/-- The same history without the readers. -/
def withoutReads (ops : List PictureOp) : List PictureOp := ops.filter fun o => (given o).isSome

end Spec

/-- The members of a picture that was last given this. -/
def PicInv (E : ToolEnv) (alpha : List UInt8 → Bool) (p : Picture) : Spec.PictureContent → Prop
  | .url u t => p.isIntern = false ∧ p.url = u ∧ p.type = t
  | .raw r t => p.isIntern = true ∧ p.type = t ∧ p.rawData = r ∧ (p.image = none ∨ (r ≠ [] ∧ p.image = E.loadImage r))
  | .image i => p.isIntern = true ∧
      p.type = (if (match i with | some x => alpha x | none => false) = true then q! "png" else q! "jpeg") ∧
      p.image = i ∧ (p.rawData = [] ∨ ∃ x, i = some x ∧ p.rawData = E.encodeImage x (toUpperQ p.type))

theorem picInv_step (E : ToolEnv) (alpha : List UInt8 → Bool) (p : Picture) (o : PictureOp) (x : Option Spec.PictureContent)
    (h : ∀ c, x = some c → PicInv E alpha p c) (c : Spec.PictureContent) (hc : (Spec.given o).or x = some c) :
    PicInv E alpha (p.step E alpha o) c := by
  cases o with
  | setUrl u => simp [Spec.given] at hc; subst hc; simp [PicInv, Picture.step, Picture.setUrl]
  | setUrlType u t => simp [Spec.given] at hc; subst hc; simp [PicInv, Picture.step, Picture.setUrlType]
  | setImage i => simp [Spec.given] at hc; subst hc; cases i <;> simp [PicInv, Picture.step, Picture.setImage]
  | setRawData r t => simp [Spec.given] at hc; subst hc; simp [PicInv, Picture.step, Picture.setRawData]
  | readImage =>
    simp only [Spec.given, Option.none_or] at hc
    have := h c hc
    cases c with
    | url u t => exact this
    | image i =>
      obtain ⟨h1, h2, h3, h4⟩ := this
      refine ⟨h1, h2, ?_, h4⟩
      simp only [Picture.step, Picture.readImage, h3]
      rcases h4 with h4 | ⟨x, hx, h4⟩
      · simp [h4]
      · simp [hx]
    | raw r t =>
      obtain ⟨h1, h2, h3, h4⟩ := this
      refine ⟨h1, h2, h3, ?_⟩
      simp only [Picture.step, Picture.readImage, h3]
      by_cases hr : r = []
      · subst hr; rcases h4 with h4 | ⟨h4, _⟩
        · simp [h4]
        · exact absurd rfl h4
      · right; refine ⟨hr, ?_⟩
        rcases h4 with h4 | ⟨_, h4⟩
        · simp [h4, hr]
        · rw [h4]; cases E.loadImage r <;> simp
  | readRaw =>
    simp only [Spec.given, Option.none_or] at hc
    have := h c hc
    cases c with
    | url u t => exact this
    | image i =>
      obtain ⟨h1, h2, h3, h4⟩ := this
      refine ⟨h1, h2, h3, ?_⟩
      simp only [Picture.step, Picture.readRaw, h3]
      cases i with
      | none => rcases h4 with h4 | ⟨x, hx, h4⟩
                · simp [h4]
                · cases hx
      | some y =>
        right; refine ⟨y, rfl, ?_⟩
        rcases h4 with h4 | ⟨x, hx, h4⟩
        · simp [h4]
        · cases hx; rw [h4]; cases he : E.encodeImage y (toUpperQ p.type) <;> simp [he]
    | raw r t =>
      obtain ⟨h1, h2, h3, h4⟩ := this
      refine ⟨h1, h2, ?_, h4⟩
      simp only [Picture.step, Picture.readRaw, h3]
      by_cases hr : r = []
      · subst hr; rcases h4 with h4 | ⟨h4, _⟩
        · simp [h4]
        · exact absurd rfl h4
      · simp [hr]

theorem picInv_run (E : ToolEnv) (alpha : List UInt8 → Bool) (p : Picture) (ops : List PictureOp) (c : Spec.PictureContent)
    (h : Spec.lastGiven ops = some c) : PicInv E alpha (p.run E alpha ops) c := by
  have key : ∀ (ops : List PictureOp) (p : Picture) (x : Option Spec.PictureContent),
      (∀ c, x = some c → PicInv E alpha p c) → ∀ c, (Spec.lastGiven ops).or x = some c → PicInv E alpha (p.run E alpha ops) c := by
    intro ops
    induction ops with
    | nil => intro p x hx c hc; exact hx c (by simpa [Spec.lastGiven] using hc)
    | cons o t ih =>
      intro p x hx c hc
      refine ih (p.step E alpha o) ((Spec.given o).or x) (fun c hc => picInv_step E alpha p o x hx c hc) c ?_
      rw [← hc, ← Option.or_assoc]
      congr 1
      unfold Spec.lastGiven
      cases hg : Spec.given o with
      | none => simp [List.filterMap_cons, hg]
      | some g =>
        simp only [List.filterMap_cons, hg]
        rw [List.getLast?_cons]
        cases (t.filterMap Spec.given).getLast? <;> rfl
  exact key ops p none (fun c h => nomatch h) c (by rw [h]; rfl)

theorem shows_of_inv (E : ToolEnv) (alpha : List UInt8 → Bool) (p : Picture) (c : Spec.PictureContent)
    (h : PicInv E alpha p c) : Spec.Shows E alpha p c := by
  cases c with
  | url u t =>
    obtain ⟨h1, h2, h3⟩ := h
    refine ⟨h1, h2, h3, ?_⟩
    simp [Picture.isEmpty, h1, h2]
  | raw r t =>
    obtain ⟨h1, h2, h3, h4⟩ := h
    by_cases hr : r = []
    · subst hr
      rcases h4 with h4 | ⟨h4, _⟩
      · simp [Spec.Shows, Picture.isEmpty, Picture.readRaw, Picture.readImage, h1, h2, h3, h4]
      · exact absurd rfl h4
    · refine ⟨h1, h2, ?_, ?_, ?_⟩
      · simp [Picture.readRaw, h3, hr]
      · simp [Picture.isEmpty, h1, h3, hr]
      · rw [if_neg hr]
        rcases h4 with h4 | ⟨_, h4⟩
        · simp [Picture.readImage, h3, h4, hr]
        · simp only [Picture.readImage, h3, h4]
          cases E.loadImage r <;> simp
  | image i =>
    obtain ⟨h1, h2, h3, h4⟩ := h
    cases i with
    | none =>
      rcases h4 with h4 | ⟨x, hx, _⟩
      · refine ⟨h1, by simpa using h2, ?_, ?_, ?_⟩ <;> simp [Picture.isEmpty, Picture.readRaw, Picture.readImage, h1, h3, h4]
      · cases hx
    | some x =>
      have ht : toUpperQ p.type = if alpha x = true then q! "PNG" else q! "JPEG" := by
        rw [h2]; simp only; split <;> decide
      refine ⟨h1, h2, ?_, ?_, ?_⟩
      · simp [Picture.isEmpty, h1, h3]
      · simp [Picture.readImage, h3]
      · rw [← ht]
        rcases h4 with h4 | ⟨y, hy, h4⟩
        · simp [Picture.readRaw, h3, h4]
        · cases hy
          simp only [Picture.readRaw, h3, h4]
          cases E.encodeImage x (toUpperQ p.type) <;> simp

/-- After any history of setters and readers the picture shows exactly what was set last. -/
theorem C64_picture (E : ToolEnv) (alpha : List UInt8 → Bool) (p : Picture) (ops : List PictureOp) (c : Spec.PictureContent)
    (h : Spec.lastGiven ops = some c) : Spec.Shows E alpha (p.run E alpha ops) c :=
  shows_of_inv E alpha _ c (picInv_run E alpha p ops c h)

/-- After any history of a sound: whether it is embedded, its address and data and `isEmpty` are those of the last calls. -/
theorem C64_sound (s : Sound) (ops : List SoundOp) (u : QString) (d : QByteArray) :
    let s1 := (ops.foldl Sound.step s).setUrl u
    let s2 := (ops.foldl Sound.step s).setData d
    (s1.isIntern = false ∧ s1.url = u ∧ s1.data = (ops.foldl Sound.step s).data ∧ s1.type = (ops.foldl Sound.step s).type ∧
      (s1.isEmpty = true ↔ u = [])) ∧
    (s2.isIntern = true ∧ s2.data = d ∧ s2.url = (ops.foldl Sound.step s).url ∧ s2.type = (ops.foldl Sound.step s).type ∧
      (s2.isEmpty = true ↔ d = [])) := by
  simp [Sound.setUrl, Sound.setData, Sound.isEmpty]

namespace Spec

/-- The last value that `f` picks from a history, or the start value. -/
def latest {ο α : Type} (f : ο → Option α) (start : α) (ops : List ο) : α := ((ops.filterMap f).getLast?).getD start

end Spec

theorem latest_cons {ο α : Type} (f : ο → Option α) (s : α) (o : ο) (t : List ο) :
    Spec.latest f s (o :: t) = Spec.latest f ((f o).getD s) t := by
  unfold Spec.latest
  cases h : f o with
  | none => simp [List.filterMap_cons, h]
  | some a => simp only [List.filterMap_cons, h, List.getLast?_cons, Option.getD_some]

/-- A key: every member has the value of the last call that sets it, and the key counts as binary exactly when binary
    data was set after the last text. -/
theorem C64_key (k : Key) (ops : List KeyOp) :
    let r := ops.foldl Key.step k
    r.id = Spec.latest (fun | .setId i => some i | _ => none) k.id ops ∧
    r.type = Spec.latest (fun | .setType t => some t | _ => none) k.type ops ∧
    r.customTypeString = Spec.latest (fun | .setCustomType s => some s | _ => none) k.customTypeString ops ∧
    r.binaryData = Spec.latest (fun | .setBinaryData b => some b | _ => none) k.binaryData ops ∧
    r.textData = Spec.latest (fun | .setTextData t => some t | _ => none) k.textData ops ∧
    r.isBinary = Spec.latest (fun | .setBinaryData _ => some true | .setTextData _ => some false | _ => none) k.isBinary ops := by
  induction ops generalizing k with
  | nil => simp [Spec.latest]
  | cons o t ih =>
    have := ih (k.step o)
    simp only [List.foldl_cons, latest_cons]
    cases o <;> simpa [Key.step, Key.setBinaryData, Key.setTextData] using this

/-- The same for sounds. -/
theorem C64_sound_history (s : Sound) (ops : List SoundOp) :
    let r := ops.foldl Sound.step s
    r.url = Spec.latest (fun | .setUrl u => some u | _ => none) s.url ops ∧
    r.data = Spec.latest (fun | .setData d => some d | _ => none) s.data ops ∧
    r.isIntern = Spec.latest (fun | .setData _ => some true | .setUrl _ => some false) s.isIntern ops ∧
    r.type = s.type ∧
    (r.isEmpty = true ↔ if r.isIntern = true then r.data = [] else r.url = []) := by
  have h5 : ∀ r : Sound, (r.isEmpty = true ↔ if r.isIntern = true then r.data = [] else r.url = []) := by
    intro r; cases h : r.isIntern <;> simp [Sound.isEmpty, h]
  refine ⟨?_, ?_, ?_, ?_, h5 _⟩
  all_goals
    induction ops generalizing s with
    | nil => simp [Spec.latest]
    | cons o t ih =>
      have := ih (s.step o)
      simp only [List.foldl_cons, latest_cons]
      cases o <;> simpa [Sound.step, Sound.setUrl, Sound.setData] using this

namespace Spec

/-- Two pictures look the same: everything that can be seen of them (the file bytes for an embedded one) agrees. -/
def LooksSame (E : ToolEnv) (p q : Picture) : Prop :=
  p.isIntern = q.isIntern ∧ p.url = q.url ∧ p.type = q.type ∧ p.isEmpty = q.isEmpty ∧
  (p.readImage E.toQtEnv).2 = (q.readImage E.toQtEnv).2 ∧ (p.isIntern = true → (p.readRaw E).2 = (q.readRaw E).2)

end Spec

theorem looksSame_trans {E : ToolEnv} {p q r : Picture} (h : Spec.LooksSame E p q) (h' : Spec.LooksSame E q r) : Spec.LooksSame E p r := by
  obtain ⟨a1, a2, a3, a4, a5, a6⟩ := h
  obtain ⟨b1, b2, b3, b4, b5, b6⟩ := h'
  exact ⟨a1.trans b1, a2.trans b2, a3.trans b3, a4.trans b4, a5.trans b5, fun h => (a6 h).trans (b6 (a1 ▸ h))⟩

theorem looksSame_readImage (E : ToolEnv) (p : Picture) : Spec.LooksSame E (p.readImage E.toQtEnv).1 p := by
  rcases p with ⟨u, t, i, r, n⟩
  refine ⟨rfl, rfl, rfl, ?_, ?_, ?_⟩
  · cases i <;> cases r <;> simp [Picture.readImage, Picture.isEmpty]
  · cases i <;> cases r <;> simp [Picture.readImage]
  · intro _; cases i <;> cases r <;> simp [Picture.readImage, Picture.readRaw]

theorem looksSame_readRaw (E : ToolEnv) (p : Picture) : Spec.LooksSame E (p.readRaw E).1 p := by
  rcases p with ⟨u, t, i, r, n⟩
  refine ⟨rfl, rfl, rfl, ?_, ?_, ?_⟩
  · cases i <;> cases r <;> simp [Picture.readRaw, Picture.isEmpty]
  · cases i <;> cases r <;> simp [Picture.readImage, Picture.readRaw]
  · intro _; cases i <;> cases r <;> simp [Picture.readRaw]

theorem looksSame_setter (E : ToolEnv) (alpha : List UInt8 → Bool) (p q : Picture) (o : PictureOp) (ho : (Spec.given o).isSome = true)
    (h : Spec.LooksSame E p q) : Spec.LooksSame E (p.step E alpha o) (q.step E alpha o) := by
  obtain ⟨h1, h2, h3, h4, h5, h6⟩ := h
  cases o with
  | setUrl u =>
    refine ⟨rfl, rfl, rfl, ?_, h5, fun h => by cases h⟩
    simp [Picture.step, Picture.setUrl, Picture.isEmpty]
  | setUrlType u t =>
    refine ⟨rfl, rfl, rfl, ?_, h5, fun h => by cases h⟩
    simp [Picture.step, Picture.setUrlType, Picture.isEmpty]
  | setImage i => exact ⟨rfl, h2, rfl, rfl, rfl, fun _ => rfl⟩
  | setRawData r t => exact ⟨rfl, h2, rfl, rfl, rfl, fun _ => rfl⟩
  | readImage => cases ho
  | readRaw => cases ho

/-- Reading never matters: after any history a picture looks as if none of the readers had been called in between. -/
theorem C64_reading_is_harmless (E : ToolEnv) (alpha : List UInt8 → Bool) (p : Picture) (ops : List PictureOp) :
    Spec.LooksSame E (p.run E alpha ops) (p.run E alpha (Spec.withoutReads ops)) := by
  have key : ∀ (ops : List PictureOp) (p q : Picture), Spec.LooksSame E p q →
      Spec.LooksSame E (p.run E alpha ops) (q.run E alpha (Spec.withoutReads ops)) := by
    intro ops
    induction ops with
    | nil => intro p q h; exact h
    | cons o t ih =>
      intro p q h
      cases ho : (Spec.given o).isSome with
      | true =>
        have : Spec.withoutReads (o :: t) = o :: Spec.withoutReads t := by simp [Spec.withoutReads, ho]
        rw [this]
        exact ih _ _ (looksSame_setter E alpha p q o ho h)
      | false =>
        have : Spec.withoutReads (o :: t) = Spec.withoutReads t := by simp [Spec.withoutReads, ho]
        rw [this]
        refine ih _ _ (looksSame_trans ?_ h)
        cases o with
        | readImage => exact looksSame_readImage E p
        | readRaw => exact looksSame_readRaw E p
        | setUrl u => cases ho
        | setUrlType u t => cases ho
        | setImage i => cases ho
        | setRawData r t => cases ho
  exact key ops p p ⟨rfl, rfl, rfl, rfl, rfl, fun _ => rfl⟩

theorem readRaw_rawBytes (E : ToolEnv) (p : Picture) : (p.readRaw E).2 = p.rawBytes E := by
  rcases p with ⟨u, t, i, r, n⟩
  cases i <;> cases r <;> simp [Picture.readRaw, Picture.rawBytes]

theorem readImage_imageData (E : QtEnv) (p : Picture) : (p.readImage E).2 = p.imageData E := by
  rcases p with ⟨u, t, i, r, n⟩
  cases i <;> cases r <;> simp [Picture.readImage, Picture.imageData]

/-- So a picture gives the same vCard lines before and after it was looked at. -/
theorem C64_same_export (E : ToolEnv) (p q : Picture) (h : Spec.LooksSame E p q) (id : QString) (v : Version) :
    createPicture E id p v = createPicture E id q v ∧ createPicturev4 E id p = createPicturev4 E id q := by
  obtain ⟨h1, h2, h3, h4, h5, h6⟩ := h
  rw [readRaw_rawBytes, readRaw_rawBytes] at h6
  unfold createPicture createPicturev4
  rw [h4, h2, h3]
  cases hi : q.isIntern with
  | false => rw [h1, hi]; simp
  | true => rw [h1] at h6 ⊢; rw [hi] at h6 ⊢; rw [h6 rfl]; exact ⟨rfl, rfl⟩

/-- Comparing is not as robust: two different image files with the same pixels compare as different pictures, until someone
    looks at both images; then they compare as equal. -/
theorem C64_comparison_after_reading_false (E : QtEnv) (a b : QByteArray) (x : List UInt8) (hab : a ≠ b) (ha : a ≠ []) (hb : b ≠ [])
    (hla : E.loadImage a = some x) (hlb : E.loadImage b = some x) (t : QString) :
    let p := ({} : Picture).setRawData a t
    let q := ({} : Picture).setRawData b t
    p.eq E q = false ∧ (p.readImage E).1.eq E (q.readImage E).1 = true := by
  simp [Picture.setRawData, Picture.eq, Picture.readImage, hla, hlb, ha, hb, hab]

/-- And the other way round: bytes taken from an image that was encoded with loss give an equal picture, until someone looks
    at its image. -/
theorem C64_comparison_lost_false (E : ToolEnv) (alpha : List UInt8 → Bool) (x y : List UInt8) (hxy : y ≠ x)
    (hne : E.encodeImage x (if alpha x = true then q! "PNG" else q! "JPEG") ≠ [])
    (hy : E.loadImage (E.encodeImage x (if alpha x = true then q! "PNG" else q! "JPEG")) = some y) :
    let q := (({} : Picture).setImage alpha (some x)).step E alpha .readRaw
    let p := ({} : Picture).setRawData (q.readRaw E).2 q.type
    p.eq E.toQtEnv q = true ∧ (p.readImage E.toQtEnv).1.eq E.toQtEnv q = false := by
  intro q p
  have ht : toUpperQ (if alpha x = true then q! "png" else q! "jpeg") = if alpha x = true then q! "PNG" else q! "JPEG" := by
    split <;> decide
  generalize he : E.encodeImage x (if alpha x = true then q! "PNG" else q! "JPEG") = e at hne hy
  have hq : q = { type := if alpha x = true then q! "png" else q! "jpeg", image := some x, rawData := e, isIntern := true } := by
    simp only [q, Picture.step, Picture.readRaw, Picture.setImage]
    simp only [List.isEmpty_nil, if_true, ht, he]
  have hp : p = { type := if alpha x = true then q! "png" else q! "jpeg", image := none, rawData := e, isIntern := true } := by
    simp only [p, hq, Picture.readRaw, Picture.setRawData]
    simp [hne]
  rw [hp, hq]
  simp [Picture.eq, Picture.readImage, hne, hy, hxy]

/-- These are the only cases: comparing is unaffected by looking at the images unless both pictures hold file bytes, both decode, and
    one was not decoded yet. Then the bytes are compared before and the decoded images afterwards. -/
theorem C64_comparison_after_reading_partial (E : QtEnv) (p q : Picture) :
    (¬ (p.rawData ≠ [] ∧ q.rawData ≠ [] ∧ (p.image = none ∨ q.image = none) ∧ p.imageData E ≠ none ∧ q.imageData E ≠ none) →
      (p.readImage E).1.eq E (q.readImage E).1 = p.eq E q) ∧
    (p.rawData ≠ [] ∧ q.rawData ≠ [] ∧ (p.image = none ∨ q.image = none) ∧ p.imageData E ≠ none ∧ q.imageData E ≠ none →
      p.isIntern = true → q.isIntern = true → p.type = q.type →
      p.eq E q = decide (p.rawData = q.rawData) ∧
      (p.readImage E).1.eq E (q.readImage E).1 = decide (p.imageData E = q.imageData E)) := by
  rcases p with ⟨u, t, i, r, n⟩
  rcases q with ⟨u', t', i', r', n'⟩
  constructor
  · intro h
    cases n <;> cases n' <;> try (simp [Picture.eq, Picture.readImage]; done)
    simp only [Picture.eq, Picture.readImage, Picture.imageData] at h ⊢
    cases i <;> cases i' <;> cases r <;> cases r' <;> simp_all
    all_goals rename_i a b
    all_goals try (cases ha : E.loadImage (a :: b) <;> simp_all; done)
    all_goals try (rename_i c d; cases ha : E.loadImage (a :: b) <;> cases hb : E.loadImage (c :: d) <;> simp_all; done)
  · rintro ⟨h1, h2, h3, h4, h5⟩ h6 h7 h8
    simp only [Picture.eq, Picture.readImage, Picture.imageData] at *
    cases i <;> cases i' <;> cases r <;> cases r' <;> simp_all [Option.isSome_iff_ne_none]

namespace C64Ex

/-- An environment in which images decode to their first byte and encode with a format byte. -/
def env : ToolEnv := { Sample.env with loadImage := fun b => b.head?.map fun x => [x], encodeImage := fun i f => i ++ [UInt8.ofNat f.length] }

/-- Non-vacuity: a history with reads between the setters. -/
example : Spec.lastGiven [.setUrl (q! "u"), .readRaw, .setRawData [1, 2] (q! "png"), .readImage] = some (.raw [1, 2] (q! "png")) := rfl

example : let p := ({} : Picture).run env (fun _ => true) [.setUrl (q! "u"), .setImage (some [7]), .readRaw, .readImage]
    p.type = q! "png" ∧ (p.readRaw env).2 = [7, 3] ∧ (p.readImage env.toQtEnv).2 = some [7] := by decide

example : let p := ({} : Picture).setRawData [1, 2] (q! "png")
    let q := ({} : Picture).setRawData [1, 3] (q! "png")
    p.eq env.toQtEnv q = false ∧ (p.readImage env.toQtEnv).1.eq env.toQtEnv (q.readImage env.toQtEnv).1 = true := by decide

example : let x : List UInt8 := [7, 9]
    env.encodeImage x (q! "JPEG") ≠ [] ∧ env.loadImage (env.encodeImage x (q! "JPEG")) = some [7] := by decide

end C64Ex
end KC
