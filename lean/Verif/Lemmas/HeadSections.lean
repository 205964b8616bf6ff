import Verif.Lemmas.Heads
import Verif.Props.C10
import Verif.Lemmas.CardNames
/-
  Helper lemmas: the heads of the lines of a contact.
-/
namespace KC
open KC.Spec

/-- the conditions on a contact for a class of texts -/
structure HeadsIn (P : QString → Prop) (E : ToolEnv) (v : Version) (c : Contact) : Prop where
  heads : ∀ t ∈ headTexts E v c, P t
  groups : ∀ g ∈ c.fieldGroups, GroupName g.fieldGroupName

variable {P : QString → Prop} {E : ToolEnv} {v : Version} {c : Contact}

def Heads (P : QString → Prop) (S : List VCardLine) : Prop := ∀ l ∈ S, HeadOk P l

theorem heads_one {l : VCardLine} (h : HeadOk P l) : Heads P [l] := fun x hx => by rw [List.mem_singleton] at hx; subst hx; exact h
theorem heads_nil : Heads P [] := fun x hx => by cases hx
theorem heads_ite {Q : Prop} [Decidable Q] {a b : List VCardLine} (ha : Q → Heads P a) (hb : ¬ Q → Heads P b) : Heads P (if Q then a else b) := by
  split
  · rename_i h; exact ha h
  · rename_i h; exact hb h
theorem heads_map {α : Type} {f : α → VCardLine} {m : List α} (h : ∀ x ∈ m, HeadOk P (f x)) : Heads P (m.map f) := fun l hl => by
  obtain ⟨x, hx, rfl⟩ := List.mem_map.1 hl; exact h x hx
theorem heads_append {a b : List VCardLine} (ha : Heads P a) (hb : Heads P b) : Heads P (a ++ b) := fun l hl =>
  (List.mem_append.1 hl).elim (ha l) (hb l)

theorem text_ok (hP : HeadClass P) {id s : QString} (h1 : plainLit id = true) (h2 : nameLit id = true) : HeadOk P (textLine id s) := headOk_lit hP (.str s) h1 h2

theorem pair_lit (hP : HeadClass P) {k s : QString} (h1 : plainLit k = true) (h2 : P s) : PairHead P (k, s) := ⟨hP.lit _ h1, Or.inl h2⟩
theorem pair_lits (hP : HeadClass P) {k s : QString} (h1 : plainLit k = true) (h2 : plainLit s = true) : PairHead P (k, s) := ⟨hP.lit _ h1, Or.inl (hP.lit _ h2)⟩

theorem pair_inQuotes (hP : HeadClass P) {k w : QString} (h1 : plainLit k = true) (h2 : (k.all fun u => (65 ≤ u.toNat && u.toNat ≤ 90) || u.toNat = 45) = true) (h3 : P w) :
    PairHead P (k, qc! '"' :: (w ++ [qc! '"'])) := ⟨hP.lit _ h1, Or.inr ⟨h2, w, rfl, h3⟩⟩

theorem headOk_ite {Q : Prop} [Decidable Q] {a b : VCardLine} (ha : Q → HeadOk P a) (hb : ¬ Q → HeadOk P b) : HeadOk P (if Q then a else b) := by
  split
  · rename_i h; exact ha h
  · rename_i h; exact hb h

theorem headOk_value {l : VCardLine} (x : QVariant) (h : HeadOk P l) : HeadOk P { l with value := x } := ⟨h.group, h.name, h.start, h.b64, h.params⟩

/-! ### the sections -/

theorem heads_address (hP : HeadClass P) (a : Address) (ha : v = .v4_0 → ∀ t ∈ addressTexts E a, P t) : Heads P (addressLines E v a) := by
  have htypes : ∀ t ∈ typeNames addressTypes a.type, P t := by
    intro t ht
    unfold typeNames at ht
    obtain ⟨i, hi, rfl⟩ := List.mem_map.1 ht
    have : ∀ i ∈ addressTypes, plainLit i.1 = true := by decide
    exact hP.lit _ (this i (List.mem_filter.1 hi).1)
  unfold addressLines
  refine heads_append (heads_ite (fun _ => heads_one ?_) fun _ => heads_nil) (heads_ite (fun _ => heads_nil) fun _ => heads_one ?_)
  · exact headOk_tool hP (hP.lit _ (by decide)) (fun _ => by decide) htypes (headOk_encoded (text_ok hP (by decide) (by decide)))
  · refine headOk_tool hP (hP.lit _ (by decide)) (fun _ => by decide) htypes ?_
    have h0 : HeadOk P (encoded v (joinEscaped (qc! ';') [a.postOfficeBox, a.extended, a.street, a.locality, a.region, a.postalCode, a.country])
        (textLine (q! "ADR") (joinEscaped (qc! ';') [a.postOfficeBox, a.extended, a.street, a.locality, a.region, a.postalCode, a.country]))) :=
      headOk_encoded (text_ok hP (by decide) (by decide))
    have h1 := headOk_ite (P := P) (Q := (decide (v = .v4_0) && !a.label.isEmpty) = true) (fun h =>
      headOk_add (k := q! "LABEL") (v := qc! '"' :: (a.label ++ [qc! '"'])) h0 (pair_inQuotes hP (by decide) (by decide)
        (ha (by simp at h; exact h.1) _ (by simp [addressTexts])))) (fun _ => h0)
    have e : q! "\"geo:" ++ E.fmt6 a.geo.latitude ++ qc! ',' :: (E.fmt6 a.geo.longitude ++ [qc! '"']) =
        qc! '"' :: ((q! "geo:" ++ E.fmt6 a.geo.latitude ++ qc! ',' :: E.fmt6 a.geo.longitude) ++ [qc! '"']) := by simp
    refine headOk_ite (fun h => headOk_add h1 (e ▸ pair_inQuotes hP (by decide) (by decide) ?_)) fun _ => h1
    have h4 : v = .v4_0 ∧ a.geo.isValid = true := by simpa using h
    have p1 : P (E.fmt6 a.geo.latitude) := ha h4.1 _ (by simp [addressTexts, h4.2])
    have p2 : P (E.fmt6 a.geo.longitude) := ha h4.1 _ (by simp [addressTexts, h4.2])
    exact hP.comma _ _ (hP.pre _ _ (by decide) p1) p2

theorem heads_email (hP : HeadClass P) (e : Email) (he : ∀ t ∈ paramTexts e.params, P t) : HeadOk P (emailLine v e) := by
  unfold emailLine
  refine headOk_foldl _ _ (text_ok hP (by decide) (by decide)) fun l p hp hl => ?_
  have hk : ∀ t ∈ p.1 :: p.2, P t := fun t ht => he t (List.mem_flatMap.2 ⟨p, hp, ht⟩)
  refine headOk_ite (fun h => ?_) fun _ => headOk_joined hP _ he p hp hl
  have hv : v = .v2_1 := by simp at h; exact h.1
  have h1 : HeadOk P (if (p.2.filter (· ≠ q! "PREF")).isEmpty then l else toolAddParameter l v p.1 (p.2.filter (· ≠ q! "PREF"))) :=
    headOk_ite (fun _ => hl) fun _ => headOk_tool hP (hk _ (by simp)) (fun e => by rw [hv] at e; cases e) (fun t ht => hk t (by
      simp only [List.mem_filter] at ht
      simp [ht.1])) hl
  exact headOk_ite (fun _ => headOk_add h1 (pair_lits hP (by decide) rfl)) fun _ => h1

theorem heads_phone (hP : HeadClass P) (p : PhoneNumber) (h : ∀ t ∈ paramTexts p.params, P t) : HeadOk P (phoneLine v p) := by
  unfold phoneLine
  have h1 : HeadOk P (p.params.foldl (fun line q => if toUpperQ q.1 ≠ q! "TYPE" then addJoined line q else line) (textLine (q! "TEL") p.number)) :=
    headOk_foldl _ _ (text_ok hP (by decide) (by decide)) fun l q hq hl => headOk_ite (fun _ => headOk_joined hP _ h q hq hl) fun _ => hl
  refine headOk_ite (fun _ => h1) fun _ => headOk_tool hP (hP.lit _ (by decide)) (fun _ => by decide) ?_ h1
  have hn : ∀ i ∈ phoneTypes, plainLit i.1 = true ∧ plainLit (toLowerQ i.1) = true := by decide
  have hn' : ∀ t ∈ typeNames phoneTypes p.type, plainLit t = true ∧ plainLit (toLowerQ t) = true := by
    intro t ht
    unfold typeNames at ht
    obtain ⟨i, hi, rfl⟩ := List.mem_map.1 ht
    exact hn i (List.mem_filter.1 hi).1
  intro t ht
  split at ht
  · obtain ⟨s, hs, rfl⟩ := List.mem_map.1 ht
    exact hP.lit _ (hn' s hs).2
  · exact hP.lit _ (hn' t ht).1

theorem heads_key (hP : HeadClass P) (k : Key) (h : P k.customTypeString) : HeadOk P (createKey k v) := by
  have h0 : ∀ x, HeadOk P { identifier := q! "KEY", value := x } := fun x => headOk_lit hP x (by decide) (by decide)
  unfold createKey
  have h1 : HeadOk P (if k.isBinary then
      if !k.binaryData.isEmpty then
        if v = .v2_1 then ({ identifier := q! "KEY", value := .bytes k.binaryData } : VCardLine).addParameter (q! "ENCODING") (q! "BASE64")
        else ({ identifier := q! "KEY", value := .bytes k.binaryData } : VCardLine).addParameter (q! "encoding") (q! "b")
      else { identifier := q! "KEY" }
    else if !k.textData.isEmpty then { identifier := q! "KEY", value := .str k.textData } else { identifier := q! "KEY" }) :=
    headOk_ite (fun _ => headOk_ite (fun _ => headOk_ite (fun _ => headOk_add (h0 _) (pair_lits hP (by decide) (by decide)))
      fun _ => headOk_add (h0 _) (pair_lits hP (by decide) (by decide))) fun _ => h0 _) fun _ => headOk_ite (fun _ => h0 _) fun _ => h0 _
  refine headOk_ite (fun _ => headOk_add h1 (pair_lit hP (by decide) ?_)) fun _ => headOk_add h1 (pair_lit hP (by decide) ?_)
  · cases k.type
    · exact hP.lit (q! "application/x-x509-ca-cert") (by decide)
    · exact hP.lit (q! "application/pgp-keys") (by decide)
    · exact h
  · cases k.type
    · exact hP.lit (q! "X509") (by decide)
    · exact hP.lit (q! "PGP") (by decide)
    · exact h

theorem embedded_start {id : QString} (hid : id = q! "LOGO" ∨ id = q! "PHOTO") (t : QString) (sep : UInt8) (rest : QByteArray) :
    GoodStart (toLatin1 (id ++ q! ":data" ++ q! ":image/" ++ t) ++ sep :: rest) := by
  rcases hid with rfl | rfl
  · have e : toLatin1 (q! "LOGO" ++ q! ":data" ++ q! ":image/" ++ t) ++ sep :: rest = b! "LOGO:data:image/" ++ (toLatin1 t ++ sep :: rest) := by
      simp [toLatin1]
    rw [e]
    exact ⟨⟨c! 'L', rfl, by decide, by decide⟩, by simp [startsWithCI]; decide, by simp [startsWithCI]; decide⟩
  · have e : toLatin1 (q! "PHOTO" ++ q! ":data" ++ q! ":image/" ++ t) ++ sep :: rest = b! "PHOTO:data:image/" ++ (toLatin1 t ++ sep :: rest) := by
      simp [toLatin1]
    rw [e]
    exact ⟨⟨c! 'P', rfl, by decide, by decide⟩, by simp [startsWithCI]; decide, by simp [startsWithCI]; decide⟩

theorem base64_plain (s : QByteArray) : (10 : UInt8) ∉ toBase64 s ∧ (13 : UInt8) ∉ toBase64 s ∧ (58 : UInt8) ∉ toBase64 s := by
  refine ⟨fun h => ?_, fun h => ?_, fun h => ?_⟩ <;> have := C10_base64_alphabet s _ h <;> revert this <;> decide

theorem heads_picture (hP : HeadClass P) {id : QString} (hid : id = q! "LOGO" ∨ id = q! "PHOTO") (p : Picture) (extra : List Picture) (h : ∀ x ∈ p :: extra, P x.type) :
    Heads P (pictureLines E v id p extra) := by
  have hlit : plainLit id = true ∧ nameLit id = true := by rcases hid with rfl | rfl <;> decide
  have h0 : ∀ x, HeadOk P { identifier := id, value := x } := fun x => headOk_lit hP x hlit.1 hlit.2
  have h4 : ∀ x, P x.type → HeadOk P (createPicturev4 E id x) := by
    intro x hx
    unfold createPicturev4
    refine headOk_ite (fun _ => ?_) fun _ => h0 _
    have hn : P (id ++ q! ":data" ++ q! ":image/" ++ x.type) := hP.pre _ _ (by rcases hid with rfl | rfl <;> decide) hx
    have h1 : HeadOk P (({ identifier := id ++ q! ":data" ++ q! ":image/" ++ x.type } : VCardLine).addParameter (q! "type") x.type) :=
      headOk_add ⟨rfl, hn, fun sep _ rest => embedded_start hid x.type sep rest, ⟨by simp, by simp, by simp⟩, [], [], rfl, Or.inl rfl, by simp⟩ (pair_lit hP (by decide) hx)
    exact ⟨h1.group, h1.name, h1.start, base64_plain _, h1.params⟩
  have h3 : ∀ x, P x.type → HeadOk P (createPicture E id x v) := by
    intro x hx
    unfold createPicture
    refine headOk_ite (fun _ => h0 _) fun _ => headOk_ite (fun _ => ?_) fun _ => headOk_add (h0 _) (pair_lits hP (by decide) (by decide))
    cases v
    · exact headOk_add (headOk_add (h0 _) (pair_lits hP (by decide) (by decide))) ⟨hx, Or.inl (hP.lit [] rfl)⟩
    · exact headOk_add (headOk_add (h0 _) (pair_lits hP (by decide) (by decide))) (pair_lit hP (by decide) hx)
    · exact h0 _
  unfold pictureLines
  refine heads_ite (fun _ => ?_) fun _ => ?_
  · intro l hl
    rcases List.mem_cons.1 hl with rfl | hl
    · exact h4 _ (h _ (by simp))
    · obtain ⟨x, hx, rfl⟩ := List.mem_map.1 hl
      exact h4 _ (h _ (by simp [hx]))
  · intro l hl
    rcases List.mem_cons.1 hl with rfl | hl
    · exact h3 _ (h _ (by simp))
    · obtain ⟨x, hx, rfl⟩ := List.mem_map.1 hl
      exact h3 _ (h _ (by simp [hx]))

theorem heads_sound (hP : HeadClass P) (s : Sound) : HeadOk P (createSound s v) := by
  have h0 : ∀ x, HeadOk P { identifier := q! "SOUND", value := x } := fun x => headOk_lit hP x (by decide) (by decide)
  unfold createSound
  exact headOk_ite (fun _ => headOk_ite (fun _ => headOk_ite (fun _ => headOk_add (h0 _) (pair_lits hP (by decide) (by decide)))
    fun _ => headOk_add (h0 _) (pair_lits hP (by decide) (by decide))) fun _ => h0 _) fun _ =>
      headOk_ite (fun _ => headOk_add (h0 _) (pair_lits hP (by decide) (by decide))) fun _ => h0 _

theorem x_start (n : QString) (sep : UInt8) (rest : QByteArray) (h : q! "X-" <+: n) : GoodStart (toLatin1 n ++ sep :: rest) := by
  obtain ⟨t, rfl⟩ := h
  have e : toLatin1 (q! "X-" ++ t) ++ sep :: rest = b! "X-" ++ (toLatin1 t ++ sep :: rest) := by simp [toLatin1]
  rw [e]
  exact ⟨⟨c! 'X', rfl, by decide, by decide⟩, by simp [startsWithCI, toLowerB, lowerB], by simp [startsWithCI, toLowerB, lowerB]⟩

/-- the name of a field group in front of a line -/
theorem group_start {n : QString} (h : GroupName n) (sep : UInt8) (hsep : sep = c! ';' ∨ sep = c! ':') (rest : QByteArray) : GoodStart (toLatin1 n ++ sep :: rest) := by
  have n1 : (c! ';') ∉ toLatin1 n := latin1_avoid (by decide) h.sep.1
  have n2 : (c! ':') ∉ toLatin1 n := latin1_avoid (by decide) h.sep.2
  have low : ∀ m : List Nat, (∀ x ∈ m, x < 128 ∧ x ≠ 63) → toLowerB (toLatin1 n) = m.map UInt8.ofNat → n.map (fun u => if 65 ≤ u.toNat ∧ u.toNat ≤ 90 then u.toNat + 32 else u.toNat) = m := by
    intro m
    generalize n = s
    induction s generalizing m with
    | nil => intro _ e; cases m <;> simp_all [toLatin1, toLowerB]
    | cons u s ih =>
      intro hm e
      cases m with
      | nil => simp [toLatin1, toLowerB] at e
      | cons x m =>
        simp only [toLatin1, toLowerB, List.map_cons, List.cons.injEq] at e
        rw [List.map_cons, ih m (fun y hy => hm y (by simp [hy])) (by simpa [toLatin1, toLowerB] using e.2)]
        congr 1
        have hx := hm x (by simp)
        have e1 := congrArg UInt8.toNat e.1
        rw [UInt8.toNat_ofNat', Nat.mod_eq_of_lt (by omega)] at e1
        split at e1
        · rename_i hlt
          unfold lowerB at e1
          have hb : (UInt8.ofNat u.toNat).toNat = u.toNat := by rw [UInt8.toNat_ofNat']; omega
          simp only [UInt8.le_iff_toNat_le, hb] at e1
          have c1 : (65 : UInt8).toNat = 65 := rfl
          have c2 : (90 : UInt8).toNat = 90 := rfl
          rw [c1, c2] at e1
          split at e1
          · rename_i hr
            rw [if_pos hr, ← e1, UInt8.toNat_add, hb]
            show u.toNat + 32 = (u.toNat + 32) % 256
            omega
          · rename_i hr
            rw [if_neg hr, ← e1, hb]
        · exact absurd e1.symm (by rw [show (lowerB 63).toNat = 63 from rfl]; exact hx.2)
  refine ⟨?_, ?_, ?_⟩
  · cases hn : n with
    | nil => refine ⟨sep, by simp [toLatin1], ?_, ?_⟩ <;> rcases hsep with rfl | rfl <;> decide
    | cons u s =>
      have hu := h.start u (by rw [hn]; rfl)
      refine ⟨if u.toNat < 256 then UInt8.ofNat u.toNat else 63, by simp [toLatin1], ?_, ?_⟩
      · split
        · intro e
          have := congrArg UInt8.toNat e
          rw [UInt8.toNat_ofNat'] at this
          have h32 : (32 : UInt8).toNat = 32 := rfl
          omega
        · decide
      · split
        · rw [UInt8.le_iff_toNat_le, UInt8.le_iff_toNat_le, UInt8.toNat_ofNat']
          have h9 : (9 : UInt8).toNat = 9 := rfl
          have h13 : (13 : UInt8).toNat = 13 := rfl
          omega
        · decide
  · cases hb : startsWithCI (b! "begin:vcard") (toLatin1 n ++ sep :: rest) with
    | false => rfl
    | true =>
      have := marker_name (b! "begin") (b! "vcard") _ _ _ hsep ⟨n1, n2⟩ (by decide) hb
      exact absurd (low [98, 101, 103, 105, 110] (by decide) this) fun e => h.enclosing (by rw [e]; simp)
  · cases hb : startsWithCI (b! "end:vcard") (toLatin1 n ++ sep :: rest) with
    | false => rfl
    | true =>
      have := marker_name (b! "end") (b! "vcard") _ _ _ hsep ⟨n1, n2⟩ (by decide) hb
      exact absurd (low [101, 110, 100] (by decide) this) fun e => h.enclosing (by rw [e]; simp)

theorem exportNames_plain : ∀ p ∈ exportNames, plainLit p.2 = true := by decide +kernel

theorem toLowerQ_append (a b : QString) : toLowerQ (a ++ b) = toLowerQ a ++ toLowerQ b := by simp [toLowerQ]

theorem exportNames_spouse : ∀ p ∈ exportNames, toLowerQ p.2 ≠ q! "x-kaddressbook-x-spousesname" := by decide +kernel

private theorem split_first {α : Type} [DecidableEq α] (x : α) : ∀ (s : List α), x ∈ s → ∃ a b, s = a ++ x :: b ∧ x ∉ a
  | [], h => by cases h
  | y :: s, h => by
    by_cases e : y = x
    · exact ⟨[], s, by rw [e]; rfl, by simp⟩
    · rcases List.mem_cons.1 h with h | h
      · exact (e h.symm).elim
      · obtain ⟨a, b, rfl, hn⟩ := split_first x s h
        exact ⟨y :: a, b, rfl, by rw [List.mem_cons]; rintro (h' | h'); exacts [e h'.symm, hn h']⟩

theorem heads_custom (hP : HeadClass P) (ex : Bool) (p : QString × QString) (hn : P p.1)
    (hs : v = .v4_0 → q! "kaddressbook-x-spousesname" <+: toLowerQ p.1 → P p.2) : Heads P (customLine E v ex (p.1 ++ qc! ':' :: p.2)) := by
  -- where the name ends
  have hsplit : ∃ a b, p.1 ++ qc! ':' :: p.2 = a ++ qc! ':' :: b ∧ qc! ':' ∉ a ∧ a <+: p.1 ∧ P a ∧ (P p.2 → P b) := by
    by_cases hm : qc! ':' ∈ p.1
    · obtain ⟨a, d, e, ha⟩ := split_first _ _ hm
      rw [e] at hn
      have h1 := hP.sub _ _ hn
      have h2 := hP.sub [qc! ':'] d h1.2
      exact ⟨a, d ++ qc! ':' :: p.2, by rw [e]; simp, ha, ⟨_, e.symm⟩, h1.1, fun h => hP.colon _ _ h2.2 h⟩
    · exact ⟨p.1, p.2, rfl, hm, List.prefix_rfl, hn, id⟩
  obtain ⟨a, b, e, ha, hpre, pa, pb⟩ := hsplit
  rw [e]
  unfold customLine
  have hi : (indexOf? (qc! ':') (a ++ qc! ':' :: b)).getD (a ++ qc! ':' :: b).length = a.length := by rw [indexOf?_append _ _ _ ha]; rfl
  have hd : (a ++ qc! ':' :: b).drop (a.length + 1) = b := by
    have : a ++ qc! ':' :: b = (a ++ [qc! ':']) ++ b := by simp
    rw [this, List.drop_append_of_le_length (by simp)]
    simp
  have ht : (a ++ qc! ':' :: b).take a.length = a := by simp
  simp only [hi, hd, ht]
  -- the name of the line
  have hname : ∀ n : QString, n = (if ex = true then (renamed exportNames (q! "X-" ++ a)).getD (q! "X-" ++ a) else q! "X-" ++ a) →
      P n ∧ q! "X-" <+: n ∧ (toLowerQ n = q! "x-kaddressbook-x-spousesname" → n = q! "X-" ++ a) := by
    intro n hnm
    have h0 : P (q! "X-" ++ a) ∧ q! "X-" <+: q! "X-" ++ a := ⟨hP.pre _ _ (by decide) pa, List.prefix_append _ _⟩
    split at hnm
    · unfold renamed at hnm
      cases hf : exportNames.find? fun p => decide (p.1 = q! "X-" ++ a) with
      | none => rw [hf] at hnm; simp only [Option.map_none, Option.getD_none] at hnm; subst hnm; exact ⟨h0.1, h0.2, fun _ => rfl⟩
      | some x =>
        rw [hf] at hnm
        simp only [Option.map_some, Option.getD_some] at hnm
        subst hnm
        have hx := List.mem_of_find?_eq_some hf
        exact ⟨hP.lit _ (exportNames_plain x hx), exportNames_x x hx, fun h => absurd h (exportNames_spouse x hx)⟩
    · subst hnm; exact ⟨h0.1, h0.2, fun _ => rfl⟩
  generalize (if ex = true then (renamed exportNames (q! "X-" ++ a)).getD (q! "X-" ++ a) else q! "X-" ++ a) = n at hname
  obtain ⟨n1, n2, n3⟩ := hname n rfl
  refine heads_ite (fun _ => heads_nil) fun _ => heads_ite (fun _ => heads_one ?_) fun _ => heads_ite (fun h => heads_one ?_) fun _ => heads_one ?_
  · exact headOk_value _ (headOk_add (headOk_lit hP _ (by decide) (by decide)) (pair_lits hP (by decide) (by decide)))
  · have h' : toLowerQ n = q! "x-kaddressbook-x-spousesname" ∧ v = .v4_0 := by simpa using h
    refine headOk_add (headOk_add (text_ok hP (by decide) (by decide)) (pair_lits hP (by decide) (by decide))) (pair_lit hP (by decide) (pb (hs h'.2 ?_)))
    have e1 := h'.1
    rw [n3 h'.1, toLowerQ_append, show toLowerQ (q! "X-") = q! "x-" by decide, show q! "x-kaddressbook-x-spousesname" = q! "x-" ++ q! "kaddressbook-x-spousesname" by decide] at e1
    rw [← List.append_cancel_left e1]
    obtain ⟨d, e2⟩ := hpre
    rw [← e2, toLowerQ_append]
    exact List.prefix_append _ _
  · exact headOk_encoded (headOk_text hP n1 fun sep _ rest => x_start n sep rest n2)

/-- every line of a contact has a head of the class -/
theorem heads_all (hP : HeadClass P) (ex : Bool) (h : HeadsIn P E v c) : Heads P (contactLines E v ex c) := by
  have hh := h.heads
  have part : ∀ part ∈ [(paramMaps c).flatMap paramTexts, c.customs.map (·.1), c.fieldGroups.map (·.fieldGroupName), c.keys.map (·.customTypeString),
      (c.logo :: c.extraLogos ++ c.photo :: c.extraPhotos).map (·.type),
      if v = .v4_0 then c.addresses.flatMap (addressTexts E) ++ c.sortString :: spouseTexts c else []], ∀ t ∈ part, P t :=
    fun part hp t ht => hh t (List.mem_flatten.2 ⟨part, hp, ht⟩)
  have hpar : ∀ (ms : List ParameterMap) (m : ParameterMap), ms ∈ [c.emails.map (·.params), c.organizations.map (·.params), c.roles.map (·.params), c.titles.map (·.params),
      c.nickNames.map (·.params), c.relationships.map (·.params), c.langs.map (·.params), c.clientPidMaps.map (·.params), c.phoneNumbers.map (·.params),
      c.extraUrls.map (·.params), c.calendarUrls.map (·.params), c.impps.map (·.params), c.fieldGroups.map (·.params)] → m ∈ ms → ∀ t ∈ paramTexts m, P t :=
    fun ms m h1 h2 t ht => part ((paramMaps c).flatMap paramTexts) List.mem_cons_self t (List.mem_flatMap.2 ⟨m, List.mem_flatten.2 ⟨ms, h1, h2⟩, ht⟩)
  have hcust : ∀ p ∈ c.customs, P p.1 := fun p hp => part (c.customs.map (·.1)) (by simp) _ (List.mem_map_of_mem (f := (·.1)) hp)
  have hgrp : ∀ g ∈ c.fieldGroups, P g.fieldGroupName := fun g hg => part (c.fieldGroups.map (·.fieldGroupName)) (by simp) _ (List.mem_map_of_mem (f := (·.fieldGroupName)) hg)
  have hkey : ∀ k ∈ c.keys, P k.customTypeString := fun k hk => part (c.keys.map (·.customTypeString)) (by simp) _ (List.mem_map_of_mem (f := (·.customTypeString)) hk)
  have hpic : ∀ x ∈ c.logo :: c.extraLogos ++ c.photo :: c.extraPhotos, P x.type := fun x hx =>
    part ((c.logo :: c.extraLogos ++ c.photo :: c.extraPhotos).map (·.type)) (by simp) _ (List.mem_map_of_mem (f := (·.type)) hx)
  have h4 : v = .v4_0 → ∀ t ∈ c.addresses.flatMap (addressTexts E) ++ c.sortString :: spouseTexts c, P t := fun e t ht =>
    part (if v = .v4_0 then c.addresses.flatMap (addressTexts E) ++ c.sortString :: spouseTexts c else []) (by simp) t (by rw [if_pos e]; exact ht)
  clear part
  have T : ∀ {id s : QString}, plainLit id = true → nameLit id = true → HeadOk P (textLine id s) := text_ok hP
  have PT : ∀ {id : QString} {x : ParamText}, plainLit id = true → nameLit id = true → (∀ t ∈ paramTexts x.params, P t) → HeadOk P (paramTextLine id x) :=
    fun h1 h2 h3 => headOk_adds hP _ h3 (T h1 h2)
  have hsec : ∀ sec ∈ contactSections E v ex c, Heads P sec := by
    intro sec hsec
    simp only [contactSections, List.mem_cons, List.not_mem_nil, or_false] at hsec
    rcases hsec with rfl | rfl | rfl | rfl | rfl | rfl | rfl | rfl | rfl | rfl | rfl | rfl | rfl | rfl | rfl | rfl | rfl | rfl | rfl | rfl | rfl | rfl | rfl | rfl | rfl | rfl | rfl | rfl | rfl | rfl | rfl | rfl | rfl | rfl | rfl | rfl | rfl | rfl | rfl
    · exact heads_one (T (by decide) (by decide))
    · intro l hl
      obtain ⟨a, ha, hl⟩ := List.mem_flatMap.1 hl
      exact heads_address hP a (fun e t ht => h4 e t (List.mem_append_left _ (List.mem_flatMap.2 ⟨a, ha, ht⟩))) l hl
    · exact heads_one (headOk_ite (fun _ => headOk_add (T (by decide) (by decide)) (pair_lits hP (by decide) (by decide))) fun _ => T (by decide) (by decide))
    · exact heads_ite (fun _ => heads_one (T (by decide) (by decide))) fun _ => heads_nil
    · exact heads_ite (fun _ => heads_one (T (by decide) (by decide))) fun _ => heads_nil
    · exact heads_ite (fun _ => heads_map fun x _ => T (by decide) (by decide)) fun _ => heads_nil
    · exact heads_map fun x _ => T (by decide) (by decide)
    · exact heads_map fun x hx => PT (by decide) (by decide) (hpar _ _ (by simp) (List.mem_map_of_mem (f := (·.params)) hx))
    · refine heads_ite (fun _ => heads_one ?_) fun _ => heads_nil
      cases c.secrecy
      · exact T (by decide) (by decide)
      · exact T (by decide) (by decide)
      · exact T (by decide) (by decide)
      · exact headOk_lit hP _ (by decide) (by decide)
    · exact heads_ite (fun _ => heads_map fun x hx => PT (by decide) (by decide) (hpar _ _ (by simp) (List.mem_map_of_mem (f := (·.params)) hx))) fun _ => heads_nil
    · exact heads_ite (fun _ => heads_map fun x hx => PT (by decide) (by decide) (hpar _ _ (by simp) (List.mem_map_of_mem (f := (·.params)) hx))) fun _ => heads_nil
    · exact heads_map fun x hx => heads_email hP x (hpar _ _ (by simp) (List.mem_map_of_mem (f := (·.params)) hx))
    · exact heads_one (headOk_encoded (T (by decide) (by decide)))
    · exact heads_ite (fun _ => heads_one (T (by decide) (by decide))) fun _ => heads_nil
    · exact heads_map fun k hk => heads_key hP k (hkey k hk)
    · exact heads_picture hP (Or.inl rfl) _ _ fun x hx => hpic x (List.mem_append_left _ hx)
    · exact heads_ite (fun _ => heads_nil) fun _ => heads_one (headOk_encoded (T (by decide) (by decide)))
    · refine heads_one (headOk_ite (fun h => headOk_add (headOk_encoded (T (by decide) (by decide))) (pair_lit hP (by decide) (h4 ?_ _ (by simp)))) fun _ =>
        headOk_encoded (T (by decide) (by decide)))
      simp at h; exact h.1
    · exact heads_ite (fun _ => heads_nil) fun _ => heads_one (headOk_encoded (T (by decide) (by decide)))
    · exact heads_ite (fun _ => heads_map fun x hx => PT (by decide) (by decide) (hpar _ _ (by simp) (List.mem_map_of_mem (f := (·.params)) hx))) fun _ => heads_nil
    · exact heads_one (headOk_encoded (T (by decide) (by decide)))
    · exact heads_map fun x hx => headOk_adds hP _ (hpar _ _ (by simp) (List.mem_map_of_mem (f := (·.params)) hx)) (headOk_encoded (T (by decide) (by decide)))
    · exact heads_picture hP (Or.inr rfl) _ _ fun x hx => hpic x (List.mem_append_right _ hx)
    · exact heads_ite (fun _ => heads_one (T (by decide) (by decide))) fun _ => heads_nil
    · exact heads_one (T (by decide) (by decide))
    · exact heads_map fun x hx => headOk_adds hP _ (hpar _ _ (by simp) (List.mem_map_of_mem (f := (·.params)) hx)) (headOk_encoded (T (by decide) (by decide)))
    · exact heads_ite (fun _ => heads_one (T (by decide) (by decide))) fun _ => heads_nil
    · refine heads_ite (fun _ => heads_nil) fun _ l hl => ?_
      rcases List.mem_cons.1 hl with rfl | hl
      · exact heads_sound hP _
      · obtain ⟨x, _, rfl⟩ := List.mem_map.1 hl
        exact heads_sound hP _
    · exact heads_map fun x hx => heads_phone hP x (hpar _ _ (by simp) (List.mem_map_of_mem (f := (·.params)) hx))
    · exact heads_map fun x hx => headOk_adds hP _ (hpar _ _ (by simp) (List.mem_map_of_mem (f := (·.params)) hx)) (headOk_encoded (T (by decide) (by decide)))
    · exact heads_ite (fun _ => heads_one (T (by decide) (by decide))) fun _ => heads_nil
    · exact heads_one (T (by decide) (by decide))
    · exact heads_map fun x hx => headOk_adds hP _ (hpar _ _ (by simp) (List.mem_map_of_mem (f := (·.params)) hx)) (T (by decide) (by decide))
    · exact heads_ite (fun _ => heads_one (T (by decide) (by decide))) fun _ => heads_nil
    · exact heads_ite (fun _ => heads_one (T (by decide) (by decide))) fun _ => heads_nil
    · refine heads_ite (fun _ => heads_map fun x hx => ?_) fun _ => heads_nil
      have hx' := List.mem_filter.1 hx
      refine headOk_adds hP _ (hpar _ _ (by simp) (List.mem_map_of_mem (f := (·.params)) hx'.1)) ?_
      unfold calendarName
      split
      · exact T (by decide) (by decide)
      · split
        · exact T (by decide) (by decide)
        · split
          · exact T (by decide) (by decide)
          · exact T (by decide) (by decide)
    · exact heads_map fun g hg => headOk_adds hP _ (hpar _ _ (by simp) (List.mem_map_of_mem (f := (·.params)) hg)) (headOk_text hP (hgrp g hg) fun sep hs rest => group_start (h.groups g hg) sep hs rest)
    · exact heads_map fun u hu => headOk_foldl _ _ (T (by decide) (by decide)) fun l q hq hl =>
        headOk_ite (fun _ => headOk_joined hP _ (hpar _ _ (by simp) (List.mem_map_of_mem (f := (·.params)) hu)) q hq hl) fun _ => hl
    · intro l hl
      unfold customLines at hl
      obtain ⟨s, hs, hl⟩ := List.mem_flatMap.1 hl
      unfold Contact.customsList at hs
      obtain ⟨p, hp, rfl⟩ := List.mem_map.1 hs
      exact heads_custom hP ex p (hcust p hp) (fun e hx => h4 e _ (List.mem_append_right _ (List.mem_cons_of_mem _ (List.mem_map.2 ⟨p, List.mem_filter.2 ⟨hp, by simpa using hx⟩, rfl⟩)))) l hl
  intro l hl
  obtain ⟨sec, hs, hl⟩ := List.mem_flatten.1 hl
  exact hsec sec hs l hl

end KC
