import Verif.Model.Stream
import Verif.Props.C31
import Verif.Props.C34
/-
  C35: what is written to a binary stream is read back, and the rest of the stream is left.
-/
namespace KC
variable {α β : Type}

/-- Reading what was written gives the object, whatever follows on the stream, and stops right after it. -/
def ReadsBack (w : α → List Item) (r : Rd α) (x : α) : Prop := ∀ rest, r (w x ++ rest) = some (x, rest)

theorem rd_bind {r : Rd α} {f : α → Rd β} {s s' : List Item} {a : α} (h : r s = some (a, s')) : (r >>= f) s = f a s' := by
  show Rd.bind r f s = _
  unfold Rd.bind; rw [h]
theorem rd_pure (a : α) (s : List Item) : (pure a : Rd α) s = some (a, s) := rfl

theorem rdStr_cons (s r) : rdStr (.str s :: r) = some (s, r) := rfl
theorem rdBytes_cons (s r) : rdBytes (.bytes s :: r) = some (s, r) := rfl
theorem rdNum_cons (s r) : rdNum (.num s :: r) = some (s, r) := rfl
theorem rdInt_num (s : Nat) (r) : rdInt (.num s :: r) = some ((s : Int), r) := rfl
theorem rdInt_cons (s r) : rdInt (.int s :: r) = some (s, r) := rfl
theorem rdFlag_cons (s r) : rdFlag (.flag s :: r) = some (s, r) := rfl
theorem rdFlt_cons (s r) : rdFlt (.flt s :: r) = some (s, r) := rfl
theorem rdTime_cons (s r) : rdTime (.time s :: r) = some (s, r) := rfl
theorem rdUrl_cons (s r) : rdUrl (.url s :: r) = some (s, r) := rfl
theorem rdImg_cons (s r) : rdImg (.img s :: r) = some (s, r) := rfl

/-- Elements that come back as `g` of what was written. -/
theorem rdMany_map (w : α → List Item) (r : Rd β) (g : α → β) (l : List α) (h : ∀ x ∈ l, ∀ rest, r (w x ++ rest) = some (g x, rest)) :
    ∀ rest, rdMany r l.length (l.flatMap w ++ rest) = some (l.map g, rest) := by
  induction l with
  | nil => intro rest; rfl
  | cons x t ih =>
    intro rest
    simp only [List.length_cons, rdMany, List.flatMap_cons, List.append_assoc]
    rw [rd_bind (h x (by simp) _), rd_bind (ih (fun y hy => h y (List.mem_cons_of_mem _ hy)) _)]
    rfl

theorem rdList_map (w : α → List Item) (r : Rd β) (g : α → β) (l : List α) (h : ∀ x ∈ l, ∀ rest, r (w x ++ rest) = some (g x, rest))
    (rest : List Item) : rdList r (wrList w l ++ rest) = some (l.map g, rest) := by
  unfold rdList wrList
  rw [List.cons_append, rd_bind (rdNum_cons _ _), rdMany_map w r g l h]

theorem rdList_id (w : α → List Item) (r : Rd α) (l : List α) (h : ∀ x ∈ l, ReadsBack w r x) (rest : List Item) :
    rdList r (wrList w l ++ rest) = some (l, rest) := by
  have := rdList_map w r id l h rest
  simpa using this

theorem rdStrings (l : List QString) (rest : List Item) : rdList rdStr (wrList (fun s => [.str s]) l ++ rest) = some (l, rest) :=
  rdList_id _ _ l (fun x _ rest => rfl) rest

/-- Parameters: fewer than 2^32 of them. -/
theorem C35_parameters (m : ParameterMap) (h : m.length < 2 ^ 32) : ReadsBack wrParams rdParams m := by
  intro rest
  unfold wrParams rdParams
  rw [Nat.mod_eq_of_lt h, List.cons_append, rd_bind (rdNum_cons _ _)]
  have := rdMany_map (fun p : QString × List QString => .str p.1 :: wrList (fun s => [.str s]) p.2)
    (do let p ← rdStr; let l ← rdList rdStr; pure (p, l)) id m (by
      intro x _ rest
      rw [List.cons_append, rd_bind (rdStr_cons _ _), rd_bind (rdStrings _ _)]
      rfl) rest
  simpa using this

/-- Having a number of parameters that can be counted. -/
def Countable (m : ParameterMap) : Prop := m.length < 2 ^ 32

theorem C35_text (t : ParamText) (h : Countable t.params) : ReadsBack wrParamText rdParamText t := by
  intro rest
  unfold wrParamText rdParamText
  rw [List.append_assoc, rd_bind (C35_parameters _ h _), List.singleton_append, rd_bind (rdStr_cons _ _)]; rfl

theorem C35_email (t : Email) (h : Countable t.params) : ReadsBack wrEmail rdEmail t := by
  intro rest
  unfold wrEmail rdEmail
  rw [List.append_assoc, rd_bind (C35_parameters _ h _), List.singleton_append, rd_bind (rdStr_cons _ _)]; rfl

theorem C35_fieldGroup (t : FieldGroup) (h : Countable t.params) : ReadsBack wrFieldGroup rdFieldGroup t := by
  intro rest
  unfold wrFieldGroup rdFieldGroup
  rw [List.append_assoc, rd_bind (C35_parameters _ h _)]
  simp only [List.cons_append, List.nil_append]
  rw [rd_bind (rdStr_cons _ _), rd_bind (rdStr_cons _ _)]; rfl

/-- What becomes of a URL: an invalid one becomes empty. -/
def streamedUrl (E : QtEnv) (u : QString) : QString := if E.urlValid u then u else []

theorem rdResUrl_write (E : QtEnv) (u : ParamUrl) (h : Countable u.params) (rest : List Item) :
    rdResUrl (wrResUrl E u ++ rest) = some ({ u with url := streamedUrl E u.url }, rest) := by
  unfold wrResUrl rdResUrl wrUrl
  rw [List.append_assoc, rd_bind (C35_parameters _ h _), List.singleton_append, rd_bind (rdUrl_cons _ _)]; rfl

theorem rdImpp_write (E : QtEnv) (u : ParamUrl) (h : Countable u.params) (rest : List Item) :
    rdImpp (wrImpp E u ++ rest) = some ({ u with url := streamedUrl E u.url }, rest) := by
  unfold wrImpp rdImpp wrUrl
  rw [List.append_assoc, List.append_assoc, rd_bind (C35_parameters _ h _), List.singleton_append, rd_bind (rdUrl_cons _ _), List.singleton_append,
    rd_bind (rdInt_num _ _)]; rfl

theorem rdCalendar_write (E : QtEnv) (u : CalendarUrl) (h : Countable u.params) (rest : List Item) :
    rdCalendar (wrCalendar E u ++ rest) = some ({ u with url := streamedUrl E u.url }, rest) := by
  unfold wrCalendar rdCalendar wrUrl
  rw [List.append_assoc, List.append_assoc, rd_bind (C35_parameters _ h _), List.singleton_append, rd_bind (rdNum_cons _ _), List.singleton_append,
    rd_bind (rdUrl_cons _ _)]; rfl

/-- URLs, instant-messaging addresses and calendars: valid or empty ones come back. -/
theorem C35_urls_partial (E : QtEnv) (u : ParamUrl) (c : CalendarUrl) (h : Countable u.params) (hc : Countable c.params)
    (hu : u.url = [] ∨ E.urlValid u.url = true) (hcu : c.url = [] ∨ E.urlValid c.url = true) :
    ReadsBack (wrResUrl E) rdResUrl u ∧ ReadsBack (wrImpp E) rdImpp u ∧ ReadsBack (wrCalendar E) rdCalendar c := by
  have e : streamedUrl E u.url = u.url := by
    unfold streamedUrl; rcases hu with h | h <;> simp [h]
  have e2 : streamedUrl E c.url = c.url := by
    unfold streamedUrl; rcases hcu with h | h <;> simp [h]
  refine ⟨fun rest => ?_, fun rest => ?_, fun rest => ?_⟩
  · rw [rdResUrl_write E u h, e]
  · rw [rdImpp_write E u h, e]
  · rw [rdCalendar_write E c hc, e2]

theorem C35_gender (g : Gender) : ReadsBack wrGender rdGender g := fun _ => rfl
theorem C35_geo (g : Geo) : ReadsBack wrGeo rdGeo g := fun _ => rfl
theorem C35_key (k : Key) : ReadsBack wrKey rdKey k := by
  intro rest
  obtain ⟨i, bd, td, ct, ty, ib⟩ := k
  cases ty <;> rfl
theorem C35_sound (s : Sound) : ReadsBack wrSound rdSound s := fun _ => rfl
theorem C35_timeZone (z : TimeZone) : ReadsBack wrTimeZone rdTimeZone z := fun _ => rfl
theorem C35_secrecy (s : Secrecy) : ReadsBack wrSecrecy rdSecrecy s := by intro rest; cases s <;> rfl
theorem C35_address (a : Address) : ReadsBack wrAddress rdAddress a := fun _ => rfl
theorem C35_phone (p : PhoneNumber) (h : Countable p.params) : ReadsBack wrPhone rdPhone p := by
  intro rest
  unfold wrPhone rdPhone
  simp only [List.append_assoc, List.cons_append, List.nil_append]
  rw [rd_bind (rdStr_cons _ _), rd_bind (rdNum_cons _ _), rd_bind (rdStr_cons _ _), rd_bind (C35_parameters _ h _)]; rfl

/-- Pictures: the image comes back, the file content does not; the object read into keeps its own file content. -/
theorem C35_picture (E : QtEnv) (p old : Picture) (rest : List Item) :
    rdPicture old (wrPicture E p ++ rest) = some ({ p with image := p.imageData E, rawData := old.rawData }, rest) := rfl

/-- The picture read into a new object compares equal exactly if it is not embedded or can be decoded. -/
theorem C35_picture_equal_iff (E : QtEnv) (p : Picture) :
    p.eq E { p with image := p.imageData E, rawData := [] } = true ↔ p.isIntern = false ∨ p.imageData E ≠ none := by
  obtain ⟨u, t, im, r, i⟩ := p
  cases i with
  | false => simp [Picture.eq]
  | true =>
    cases im with
    | some x => simp [Picture.eq, Picture.imageData]
    | none =>
      cases r with
      | nil => simp [Picture.eq, Picture.imageData]
      | cons a b =>
        cases h : E.loadImage (a :: b) <;> simp [Picture.eq, Picture.imageData, h]

/-! ### the whole contact -/

/-- All parameters of a contact can be counted. -/
structure CountableContact (c : Contact) : Prop where
  phones : ∀ x ∈ c.phoneNumbers, Countable x.params
  emails : ∀ x ∈ c.emails, Countable x.params
  langs : ∀ x ∈ c.langs, Countable x.params
  impps : ∀ x ∈ c.impps, Countable x.params
  calendars : ∀ x ∈ c.calendarUrls, Countable x.params
  urls : ∀ x ∈ c.extraUrls, Countable x.params
  relationships : ∀ x ∈ c.relationships, Countable x.params
  fieldGroups : ∀ x ∈ c.fieldGroups, Countable x.params
  titles : ∀ x ∈ c.titles, Countable x.params
  roles : ∀ x ∈ c.roles, Countable x.params
  organizations : ∀ x ∈ c.organizations, Countable x.params
  nickNames : ∀ x ∈ c.nickNames, Countable x.params
  clientPidMaps : ∀ x ∈ c.clientPidMaps, Countable x.params

/-- What becomes of a picture. -/
def Picture.streamed (E : QtEnv) (p : Picture) : Picture := { p with image := p.imageData E, rawData := [] }

/-- What becomes of a contact: pictures are decoded, invalid URLs become empty, the custom fields are restored from
    their listing, and the contact is no longer empty. -/
def Contact.streamed (E : QtEnv) (c : Contact) : Contact :=
  { c with logo := c.logo.streamed E, photo := c.photo.streamed E, extraLogos := c.extraLogos.map (Picture.streamed E),
           extraPhotos := c.extraPhotos.map (Picture.streamed E),
           extraUrls := c.extraUrls.map fun u => { u with url := streamedUrl E u.url },
           impps := c.impps.map fun u => { u with url := streamedUrl E u.url },
           calendarUrls := c.calendarUrls.map fun u => { u with url := streamedUrl E u.url },
           sources := c.sources.map (streamedUrl E),
           customs := (c.setCustoms c.customsList).customs, empty := false }

theorem rdPicture_list (E : QtEnv) (l : List Picture) (rest : List Item) :
    rdList (rdPicture {}) (wrList (wrPicture E) l ++ rest) = some (l.map (Picture.streamed E), rest) :=
  rdList_map _ _ _ l (fun _ _ _ => rfl) rest

/-- A contact written and read into a contact without embedded pictures: exactly what comes back, and the rest of the stream
    is left. Whether the contact was changed is that of the object read into. -/
theorem C35_contact (E : QtEnv) (c old : Contact) (hc : CountableContact c) (h1 : old.logo.rawData = []) (h2 : old.photo.rawData = [])
    (rest : List Item) :
    rdContact old (wrContact E c ++ rest) = some ({ c.streamed E with changed := old.changed }, rest) := by
  unfold wrContact rdContact
  simp only [List.append_assoc, List.cons_append, List.nil_append]
  rw [rd_bind (rdStr_cons _ _), rd_bind (rdStr_cons _ _), rd_bind (rdStr_cons _ _), rd_bind (rdStr_cons _ _), rd_bind (rdStr_cons _ _),
    rd_bind (rdStr_cons _ _), rd_bind (rdStr_cons _ _), rd_bind (rdStr_cons _ _), rd_bind (rdTime_cons _ _), rd_bind (rdFlag_cons _ _),
    rd_bind (rdStr_cons _ _), rd_bind (C35_timeZone _ _), rd_bind (C35_geo _ _), rd_bind (rdStr_cons _ _), rd_bind (rdStr_cons _ _),
    rd_bind (rdStr_cons _ _), rd_bind (rdTime_cons _ _), rd_bind (rdStr_cons _ _), rd_bind (C35_secrecy _ _), rd_bind (C35_picture E _ _ _),
    rd_bind (C35_picture E _ _ _), rd_bind (C35_sound _ _),
    rd_bind (rdList_id _ _ _ (fun x hx => C35_phone x (hc.phones x hx)) _), rd_bind (rdList_id _ _ _ (fun x _ => C35_address x) _),
    rd_bind (rdList_id _ _ _ (fun x hx => C35_email x (hc.emails x hx)) _), rd_bind (rdStrings _ _), rd_bind (rdStrings _ _),
    rd_bind (rdList_id _ _ _ (fun x _ => C35_key x) _), rd_bind (rdList_id _ _ _ (fun x hx => C35_text x (hc.langs x hx)) _),
    rd_bind (C35_gender _ _), rd_bind (rdStr_cons _ _),
    rd_bind (rdList_map _ _ _ _ (fun x hx => rdCalendar_write E x (hc.calendars x hx)) _), rd_bind (rdList_id _ _ _ (fun x _ => C35_sound x) _),
    rd_bind (rdPicture_list E _ _), rd_bind (rdPicture_list E _ _), rd_bind (rdList_map _ _ _ _ (fun x hx => rdResUrl_write E x (hc.urls x hx)) _),
    rd_bind (rdStrings _ _), rd_bind (rdList_id _ _ _ (fun x hx => C35_text x (hc.relationships x hx)) _),
    rd_bind (rdList_map (wrUrl E) rdUrl (streamedUrl E) _ (fun x hx rest => rfl) _),
    rd_bind (rdList_map _ _ _ _ (fun x hx => rdImpp_write E x (hc.impps x hx)) _),
    rd_bind (rdList_id _ _ _ (fun x hx => C35_fieldGroup x (hc.fieldGroups x hx)) _),
    rd_bind (rdList_id _ _ _ (fun x hx => C35_text x (hc.titles x hx)) _), rd_bind (rdList_id _ _ _ (fun x hx => C35_text x (hc.roles x hx)) _),
    rd_bind (rdList_id _ _ _ (fun x hx => C35_text x (hc.organizations x hx)) _),
    rd_bind (rdList_id _ _ _ (fun x hx => C35_text x (hc.nickNames x hx)) _),
    rd_bind (rdList_id _ _ _ (fun x hx => C35_text x (hc.clientPidMaps x hx)) _), rd_bind (rdTime_cons _ _), rd_pure, h1, h2]
  rfl

/-- Partial: a contact without embedded pictures, with valid URLs and without ':' in custom field names comes back with all its
    data. -/
theorem C35_contact_partial (E : QtEnv) (c old : Contact) (hc : CountableContact c) (h1 : old.logo.rawData = []) (h2 : old.photo.rawData = [])
    (hp : ∀ p ∈ [c.logo, c.photo] ++ c.extraLogos ++ c.extraPhotos, p.rawData = [])
    (hu : ∀ u ∈ c.extraUrls.map (·.url) ++ c.impps.map (·.url) ++ c.calendarUrls.map (·.url) ++ c.sources, u = [] ∨ E.urlValid u = true)
    (hs : Sorted c.customs) (hcn : ∀ p ∈ c.customs, qc! ':' ∉ p.1) (rest : List Item) :
    rdContact old (wrContact E c ++ rest) = some ({ c with empty := false, changed := old.changed }, rest) := by
  rw [C35_contact E c old hc h1 h2]
  congr 2
  have hpic : ∀ p : Picture, p.rawData = [] → p.streamed E = p := by
    rintro ⟨u, t, im, r, i⟩ h
    simp only at h; subst h
    cases im <;> simp [Picture.streamed, Picture.imageData]
  have hurl : ∀ u, u = [] ∨ E.urlValid u = true → streamedUrl E u = u := by
    intro u h; unfold streamedUrl; rcases h with h | h <;> simp [h]
  have e1 : c.logo.streamed E = c.logo := hpic _ (hp _ (by simp))
  have e2 : c.photo.streamed E = c.photo := hpic _ (hp _ (by simp))
  have e3 : c.extraLogos.map (Picture.streamed E) = c.extraLogos := by
    conv => rhs; rw [← List.map_id c.extraLogos]
    exact List.map_congr_left (fun p h => hpic p (hp p (by simp [h])))
  have e4 : c.extraPhotos.map (Picture.streamed E) = c.extraPhotos := by
    conv => rhs; rw [← List.map_id c.extraPhotos]
    exact List.map_congr_left (fun p h => hpic p (hp p (by simp [h])))
  have e5 : (c.extraUrls.map fun u => { u with url := streamedUrl E u.url }) = c.extraUrls := by
    conv => rhs; rw [← List.map_id c.extraUrls]
    exact List.map_congr_left (fun u h => by rw [hurl _ (hu _ (by simp only [List.mem_append, List.mem_map]; exact Or.inl (Or.inl (Or.inl ⟨u, h, rfl⟩))))]; rfl)
  have e6 : (c.impps.map fun u => { u with url := streamedUrl E u.url }) = c.impps := by
    conv => rhs; rw [← List.map_id c.impps]
    exact List.map_congr_left (fun u h => by rw [hurl _ (hu _ (by simp only [List.mem_append, List.mem_map]; exact Or.inl (Or.inl (Or.inr ⟨u, h, rfl⟩))))]; rfl)
  have e7 : (c.calendarUrls.map fun u => { u with url := streamedUrl E u.url }) = c.calendarUrls := by
    conv => rhs; rw [← List.map_id c.calendarUrls]
    exact List.map_congr_left (fun u h => by rw [hurl _ (hu _ (by simp only [List.mem_append, List.mem_map]; exact Or.inl (Or.inr ⟨u, h, rfl⟩)))]; rfl)
  have e8 : c.sources.map (streamedUrl E) = c.sources := by
    conv => rhs; rw [← List.map_id c.sources]
    exact List.map_congr_left (fun u h => hurl u (hu u (by simp [h])))
  have e9 : (c.setCustoms c.customsList).customs = c.customs := by
    have hn := nodup_of_sorted hs
    simp only [Contact.setCustoms, Contact.customsList]
    rw [setCustomsLoop_listing _ [] hcn (by simpa using hn)]
    have hspec := sortByName_spec _ hn
    exact SMap.ext_find hspec.1 hs hspec.2
  unfold Contact.streamed
  rw [e1, e2, e3, e4, e5, e6, e7, e8, e9]

/-- Non-vacuity: a contact with a phone number, a custom field and a title. -/
example (E : QtEnv) : let c : Contact := { uid := q! "1", phoneNumbers := [{ id := q! "i", params := [(q! "a", [q! "b"])] }],
                                           customs := [(q! "a-b", q! "c:d")], titles := [{ text := q! "Dr" }] }
    rdContact { uid := [] } (wrContact E c ++ [.num 7]) = some ({ c with empty := false }, [.num 7]) := by
  refine C35_contact_partial E _ { uid := [] } ?_ rfl rfl (by simp) (by simp) (by simp [Sorted]) (by simp) [.num 7]
  constructor <;> simp [Countable]

/-! ### the claim as listed is false -/

/-- A picture whose file content Qt cannot decode is lost, ... -/
theorem C35_picture_false (E : QtEnv) (h : E.loadImage [1] = none) :
    ¬ ∀ p : Picture, ∃ p', rdPicture {} (wrPicture E p) = some (p', []) ∧ p.eq E p' = true := by
  intro hh
  obtain ⟨p', h1, h2⟩ := hh { rawData := [1], isIntern := true }
  have := C35_picture E { rawData := [1], isIntern := true } {} []
  rw [List.append_nil] at this
  rw [this] at h1
  simp only [Option.some.injEq, Prod.mk.injEq, and_true] at h1
  subst h1
  rw [C35_picture_equal_iff] at h2
  simp [Picture.imageData, h] at h2

/-- ... and a custom field with a ':' in its name changes its name. -/
theorem C35_customs_false (E : QtEnv) : ¬ ∀ c : Contact, ∃ c', rdContact { uid := [] } (wrContact E c) = some (c', []) ∧ c'.customs = c.customs := by
  intro hh
  obtain ⟨c', h1, h2⟩ := hh { uid := [], customs := [(q! "a-b:c", q! "1")] }
  have := C35_contact E { uid := [], customs := [(q! "a-b:c", q! "1")] } { uid := [] } (by constructor <;> simp) rfl rfl []
  rw [List.append_nil] at this
  rw [this] at h1
  simp only [Option.some.injEq, Prod.mk.injEq, and_true] at h1
  subst h1
  have e : ((({ uid := [], customs := [(q! "a-b:c", q! "1")] } : Contact).setCustoms
      ({ uid := [], customs := [(q! "a-b:c", q! "1")] } : Contact).customsList).customs) = [(q! "a-b:c", q! "1")] := h2
  exact absurd e (by decide)

/-- A picture that is a link keeps the file content of the picture read into. -/
theorem C35_stale_false (E : QtEnv) :
    ¬ ∀ p old : Picture, ∃ p', rdPicture old (wrPicture E p) = some (p', []) ∧ p'.rawData = p.rawData := by
  intro hh
  obtain ⟨p', h1, h2⟩ := hh { url := q! "http://a" } { rawData := [1], isIntern := true }
  have := C35_picture E { url := q! "http://a" } { rawData := [1], isIntern := true } []
  rw [List.append_nil] at this
  rw [this] at h1
  simp only [Option.some.injEq, Prod.mk.injEq, and_true] at h1
  subst h1
  have e : ([1] : List UInt8) = [] := h2
  exact absurd e (by decide)

/-- Non-vacuity of `C35_picture_false`: a loader that knows no format with one byte. -/
example : ∃ E : QtEnv, E.loadImage [1] = none :=
  ⟨⟨fun _ => true, fun _ => [], fun _ => false, fun b => if b.length < 2 then none else some b, fun _ _ _ => 0⟩, rfl⟩

end KC
