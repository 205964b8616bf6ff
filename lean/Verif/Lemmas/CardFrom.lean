import Verif.Spec.Foreign
import Verif.Lemmas.Built
import Verif.Lemmas.Content
import Verif.Props.C79
/-
  Contacts read from a card whose properties can all be carried (`CardFits`) can be carried (`Readable`).
-/
namespace KC
open KC.Spec

section
variable (E : ToolEnv) (ids : IdKind → Nat → QString) (s0 : RState) (L : List VCardLine)

private theorem fold_given {X : Type} (P : X → Prop) (g : X → VCardLine → X) (l : List VCardLine) (x : X) (hx : P x) (h : ∀ x, P x → ∀ y ∈ l, P (g x y)) : P (l.foldl g x) := by
  induction l generalizing x with
  | nil => exact hx
  | cons a l ih => exact ih _ (h x hx a (by simp)) fun x hx y hy => h x hx y (List.mem_cons_of_mem _ hy)

theorem given_deathDate (h0 : s0.c.deathDate = none) : (L.foldl (readLine E ids) s0).c.deathDate = none ∨
    ∃ l ∈ named L [q! "deathdate"], (L.foldl (readLine E ids) s0).c.deathDate = (parseDateTime (valueText l)).1 := by
  have := read_part E ids (fun s => s.c.deathDate) [.deathdate]
    (fun x l => if QDateTime.eq E.toQtEnv (parseDateTime (valueText l)).1 x = true then x else (parseDateTime (valueText l)).1)
    (by other_lines (fun s : RState => s.c.deathDate))
    (by
      intro s l ht
      replace ht : tagOf l = .deathdate := by simpa using ht
      simp only [readLine, ht, Contact.setDeathDate]
      unfold valueText
      split <;> rfl) L s0
  rw [this, show named L [q! "deathdate"] = _ from named_eq_tags L [(q! "deathdate", .deathdate)] (by decide +kernel)]
  apply fold_given (fun x => x = none ∨ ∃ l ∈ _, x = (parseDateTime (valueText l)).1) _ _ _ (.inl h0)
  intro x hx y hy
  split
  · exact hx
  · exact .inr ⟨y, hy, rfl⟩

theorem given_revision (h0 : s0.c.revision = none) : (L.foldl (readLine E ids) s0).c.revision = none ∨
    ∃ l ∈ named L [q! "rev"], (L.foldl (readLine E ids) s0).c.revision = (parseDateTime (valueText l)).1 := by
  have := read_part E ids (fun s => s.c.revision) [.rev]
    (fun x l => if QDateTime.eq E.toQtEnv (parseDateTime (valueText l)).1 x = true then x else (parseDateTime (valueText l)).1)
    (by other_lines (fun s : RState => s.c.revision))
    (by
      intro s l ht
      replace ht : tagOf l = .rev := by simpa using ht
      simp only [readLine, ht, Contact.setRevision]
      unfold valueText
      split <;> rfl) L s0
  rw [this, show named L [q! "rev"] = _ from named_eq_tags L [(q! "rev", .rev)] (by decide +kernel)]
  apply fold_given (fun x => x = none ∨ ∃ l ∈ _, x = (parseDateTime (valueText l)).1) _ _ _ (.inl h0)
  intro x hx y hy
  split
  · exact hx
  · exact .inr ⟨y, hy, rfl⟩

theorem given_birthday (h0 : s0.c.birthday = none) : (L.foldl (readLine E ids) s0).c.birthday = none ∨
    ∃ l ∈ named L [q! "bday"], ((L.foldl (readLine E ids) s0).c.birthday, (L.foldl (readLine E ids) s0).c.birthdayWithTime) = parseDateTime (valueText l) := by
  have := read_part E ids (fun s => (s.c.birthday, s.c.birthdayWithTime)) [.bday]
    (fun x l => if (QDateTime.eq E.toQtEnv (parseDateTime (valueText l)).1 x.1 && x.2 = (parseDateTime (valueText l)).2) = true then x else parseDateTime (valueText l))
    (by other_lines (fun s : RState => (s.c.birthday, s.c.birthdayWithTime)))
    (by
      intro s l ht
      replace ht : tagOf l = .bday := by simpa using ht
      simp only [readLine, ht, Contact.setBirthday]
      unfold valueText
      split
      · rfl
      · show (_, _) = _
        rw [Prod.ext_iff]
        refine ⟨?_, rfl⟩
        show (if (parseDateTime l.value.toString).2 = true then _ else _) = _
        split
        · rfl
        · rename_i h
          exact parse_midnight _ (by simpa using h)) L s0
  rw [this, show (L.foldl (readLine E ids) s0).c.birthday = _ from congrArg Prod.fst this, show named L [q! "bday"] = _ from named_eq_tags L [(q! "bday", .bday)] (by decide +kernel)]
  apply fold_given (fun x => x.1 = none ∨ ∃ l ∈ _, x = parseDateTime (valueText l)) _ _ _ (.inl h0)
  intro x hx y hy
  split
  · exact hx
  · exact .inr ⟨y, hy, rfl⟩

theorem given_geo (h0 : s0.c.geo = {}) : (L.foldl (readLine E ids) s0).c.geo = {} ∨
    ∃ l ∈ named L [q! "geo"], positionOf E l = some (L.foldl (readLine E ids) s0).c.geo := by
  have := read_part E ids (fun s => s.c.geo) [.geo]
    (fun x l => (readGeo E l.value.toString).elim x fun g => if g.eq x = true then x else g)
    (by other_lines (fun s : RState => s.c.geo))
    (by
      intro s l ht
      replace ht : tagOf l = .geo := by simpa using ht
      simp only [readLine, ht]
      cases readGeo E l.value.toString with
      | none => rfl
      | some g =>
        simp only [Contact.setGeo, Option.elim]
        split <;> rfl) L s0
  rw [this, show named L [q! "geo"] = _ from named_eq_tags L [(q! "geo", .geo)] (by decide +kernel)]
  apply fold_given (fun x => x = {} ∨ ∃ l ∈ _, positionOf E l = some x) _ _ _ (.inl h0)
  intro x hx y hy
  cases hp : readGeo E y.value.toString with
  | none => simpa [hp] using hx
  | some g =>
    simp only [Option.elim]
    split
    · exact hx
    · exact .inr ⟨y, hy, by rw [positionOf_eq, hp]⟩

theorem given_photo (h0 : s0.c.photo = {}) : (L.foldl (readLine E ids) s0).c.photo = {} ∨
    ∃ l ∈ named L [q! "photo"], parsePicture l = some (L.foldl (readLine E ids) s0).c.photo := by
  have := read_part E ids (fun s => s.c.photo) [.photo]
    (fun x l => (parsePicture l).elim x fun p => if x.isEmpty = true then (if p.eq E.toQtEnv x = true then x else p) else x)
    (by other_lines (fun s : RState => s.c.photo))
    (by
      intro s l ht
      replace ht : tagOf l = .photo := by simpa using ht
      simp only [readLine, ht, Contact.setPhoto, Contact.insertExtraPhoto]
      cases parsePicture l with
      | none => rfl
      | some p =>
        simp only [Option.elim]
        split
        · split <;> rfl
        · rfl) L s0
  rw [this, show named L [q! "photo"] = _ from named_eq_tags L [(q! "photo", .photo)] (by decide +kernel)]
  apply fold_given (fun x => x = {} ∨ ∃ l ∈ _, parsePicture l = some x) _ _ _ (.inl h0)
  intro x hx y hy
  cases hp : parsePicture y with
  | none => simpa [hp] using hx
  | some p =>
    simp only [hp, Option.elim]
    split
    · split
      · exact hx
      · exact .inr ⟨y, hy, hp⟩
    · exact hx

theorem given_logo (h0 : s0.c.logo = {}) : (L.foldl (readLine E ids) s0).c.logo = {} ∨
    ∃ l ∈ named L [q! "logo"], parsePicture l = some (L.foldl (readLine E ids) s0).c.logo := by
  have := read_part E ids (fun s => s.c.logo) [.logo]
    (fun x l => (parsePicture l).elim x fun p => if x.isEmpty = true then (if p.eq E.toQtEnv x = true then x else p) else x)
    (by other_lines (fun s : RState => s.c.logo))
    (by
      intro s l ht
      replace ht : tagOf l = .logo := by simpa using ht
      simp only [readLine, ht, Contact.setLogo, Contact.insertExtraLogo]
      cases parsePicture l with
      | none => rfl
      | some p =>
        simp only [Option.elim]
        split
        · split <;> rfl
        · rfl) L s0
  rw [this, show named L [q! "logo"] = _ from named_eq_tags L [(q! "logo", .logo)] (by decide +kernel)]
  apply fold_given (fun x => x = {} ∨ ∃ l ∈ _, parsePicture l = some x) _ _ _ (.inl h0)
  intro x hx y hy
  cases hp : parsePicture y with
  | none => simpa [hp] using hx
  | some p =>
    simp only [hp, Option.elim]
    split
    · split
      · exact hx
      · exact .inr ⟨y, hy, hp⟩
    · exact hx

end

/-! ### lists -/

theorem of_last {α : Type} {P : α → Prop} {d : α} {l : List α} (hd : P d) (hl : ∀ x ∈ l, P x) : P (l.getLast?.getD d) := by
  cases h : l.getLast? with
  | none => exact hd
  | some x => exact hl x (List.mem_of_getLast? h)

theorem of_lastText {P : QString → Prop} {L : List VCardLine} {n : QString} (hd : P []) (hl : ∀ l ∈ named L [n], P (valueText l)) : P (lastText L n) := by
  apply of_last hd
  intro x hx
  obtain ⟨l, hl', rfl⟩ := List.mem_map.1 hx
  exact hl l hl'

theorem of_lastComponent {P : QString → Prop} {L : List VCardLine} {n : QString} {i : Nat} (hd : P []) (hl : ∀ l ∈ named L [n], ∀ s, valueComponent l i = some s → P s) :
    P (lastComponent L n i) := by
  apply of_last hd
  intro x hx
  obtain ⟨l, hl', h⟩ := List.mem_filterMap.1 hx
  exact hl l hl' x h

theorem of_allTexts {P : ParamText → Prop} {L : List VCardLine} {n : QString} (hl : ∀ l ∈ named L [n], valueText l ≠ [] → P (paramText l)) : ∀ t ∈ allTexts L n, P t := by
  intro t ht
  obtain ⟨h1, h2⟩ := List.mem_filter.1 ht
  obtain ⟨l, hl', rfl⟩ := List.mem_map.1 h1
  exact hl l hl' (of_decide_eq_true h2)

theorem mem_named_sub {L : List VCardLine} {a b : List QString} (hab : ∀ x ∈ a, x ∈ b) {l : VCardLine} (h : l ∈ named L a) : l ∈ named L b := by
  unfold named at h ⊢
  simp only [List.mem_filter, decide_eq_true_eq] at h ⊢
  exact ⟨h.1, hab _ h.2.1, h.2.2⟩

theorem lastOfEach_mem {α : Type} {key : α → QString} {l : List α} {keys : List QString} {x : α} (h : x ∈ lastOfEach key l keys) : x ∈ l := by
  obtain ⟨k, _, hk⟩ := List.mem_filterMap.1 h
  exact List.mem_of_mem_filter (List.mem_of_getLast? hk)

theorem lastOfEach_keys {α : Type} (key : α → QString) (l : List α) (keys : List QString) (h : ∀ k ∈ keys, k ∈ l.map key) : (lastOfEach key l keys).map key = keys := by
  unfold lastOfEach
  induction keys with
  | nil => rfl
  | cons k keys ih =>
    obtain ⟨x, hx, hk⟩ := List.mem_map.1 (h k (by simp))
    cases hg : (l.filter fun x => decide (key x = k)).getLast? with
    | none =>
      rw [List.getLast?_eq_none_iff] at hg
      have : x ∈ l.filter fun x => decide (key x = k) := by simp [hx, hk]
      rw [hg] at this
      cases this
    | some y =>
      rw [List.filterMap_cons_some (f := fun k => (l.filter fun x => decide (key x = k)).getLast?) hg, List.map_cons, ih fun k' hk' => h k' (List.mem_cons_of_mem _ hk')]
      have := List.mem_of_getLast? hg
      simp only [List.mem_filter, decide_eq_true_eq] at this
      rw [this.2]

theorem distinct_same {l : List QString} {m : QString} (h : ∀ x ∈ l, x = m) : distinct l = [] ∨ distinct l = [m] := by
  have hm : ∀ x ∈ distinct l, x = m := fun x hx => h x ((mem_distinct l x).1 hx)
  have hn := nodup_distinct l
  revert hm hn
  generalize distinct l = d
  intro hm hn
  match d, hm, hn with
  | [], _, _ => exact .inl rfl
  | [x], hm, _ => exact .inr (by rw [hm x (by simp)])
  | x :: y :: r, hm, hn =>
    have h1 := hm x (by simp)
    have h2 := hm y (by simp)
    rw [h1, h2] at hn
    simp at hn

theorem mailOrder_nodup (l : List Email) : (mailOrder l).Nodup := by
  unfold mailOrder
  refine List.nodup_append.2 ⟨nodup_distinct _, (nodup_distinct _).filter _, ?_⟩
  intro a ha b hb hab
  subst hab
  simp only [List.mem_filter, decide_eq_true_eq] at hb
  exact hb.2 ((mem_distinct _ _).1 ha)

theorem mail_order_tail (l : List Email) (h : ∀ a ∈ l, ∀ b ∈ l, a.isPreferred = true → b.isPreferred = true → a.mail = b.mail) :
    ∀ e ∈ (lastOfEach (·.mail) l (mailOrder l)).tail, e.isPreferred = false := by
  intro e he
  cases hp : e.isPreferred with
  | false => rfl
  | true =>
    exfalso
    have hk := lastOfEach_keys (·.mail) l (mailOrder l) fun k hk => (mem_mailOrder l k).1 hk
    have h1 : e ∈ l := lastOfEach_mem (List.mem_of_mem_tail he)
    have h2 : e.mail ∈ (mailOrder l).tail := by
      rw [← hk, ← List.map_tail]
      exact List.mem_map_of_mem he
    have hall : ∀ x ∈ ((l.filter (·.isPreferred)).map (·.mail)).reverse, x = e.mail := by
      intro x hx
      obtain ⟨y, hy, rfl⟩ := List.mem_map.1 (List.mem_reverse.1 hx)
      obtain ⟨hy, hyp⟩ := List.mem_filter.1 hy
      exact h y hy e h1 hyp hp
    have hin : e.mail ∈ ((l.filter (·.isPreferred)).map (·.mail)).reverse := List.mem_reverse.2 (List.mem_map_of_mem (List.mem_filter.2 ⟨h1, hp⟩))
    unfold mailOrder at h2
    rcases distinct_same hall with hd | hd
    · exact absurd ((mem_distinct _ _).2 hin) (by rw [hd]; simp)
    · simp only [hd, List.singleton_append, List.tail_cons, List.mem_filter, decide_eq_true_eq] at h2
      exact h2.2 hin

theorem firstAndRest_mem {α : Type} {isEmpty : α → Bool} {l : List α} {first : α} {rest : List α} (h : FirstAndRest isEmpty l first rest) :
    (isEmpty first = true ∨ first ∈ l) ∧ ∀ x ∈ rest, x ∈ l := by
  unfold FirstAndRest at h
  have hs : ∀ x ∈ l.dropWhile isEmpty, x ∈ l := fun x hx => List.dropWhile_subset _ hx
  split at h
  · exact ⟨.inl h.1, by rw [h.2]; nofun⟩
  · rename_i a r hd
    rw [hd] at hs
    rw [h.1, h.2]
    exact ⟨.inr (hs a (by simp)), fun x hx => hs x (by simp [hx])⟩

theorem simplified_twice (s : QString) : simplified (simplified s) = simplified s := by
  show join _ (words isSpaceQ (simplified s)) = join _ (words isSpaceQ s)
  rw [words_simplified]

/-- A contact read from a card that fits. -/
theorem card_readable (E : ToolEnv) (v : Version) (ids : IdKind → Nat → QString) (hids : ∀ k i j, ids k i = ids k j → i = j) (L : List VCardLine) (u : QString)
    (a p k : Nat) (hu : SafeText u ∧ u ≠ []) (hf : CardFits E v L) :
    Readable E v (L.foldl (readLine E ids) { c := Contact.new u, addresses := a, phones := p, keys := k }).c := by
  have h := card_says E ids hids L u a p k
  have hb := given_birthday E ids { c := Contact.new u, addresses := a, phones := p, keys := k } L rfl
  have hr := given_revision E ids { c := Contact.new u, addresses := a, phones := p, keys := k } L rfl
  have hd := given_deathDate E ids { c := Contact.new u, addresses := a, phones := p, keys := k } L rfl
  have hg := given_geo E ids { c := Contact.new u, addresses := a, phones := p, keys := k } L rfl
  have hph := given_photo E ids { c := Contact.new u, addresses := a, phones := p, keys := k } L rfl
  have hlo := given_logo E ids { c := Contact.new u, addresses := a, phones := p, keys := k } L rfl
  revert h hb hr hd hg hph hlo
  generalize (L.foldl (readLine E ids) { c := Contact.new u, addresses := a, phones := p, keys := k }).c = c
  intro h hb hr hd hg hph hlo
  have n0 : CodedText E.toCodecs v [] := coded_easy (easy_nil v)
  have s0 : SafeText [] := (easy_nil v).safe
  have hdep : EasyText v c.department := by rw [h.department]; exact of_lastComponent (easy_nil v) hf.departments
  have hname : ∀ s ∈ c.nameParts, EasyText v s := by
    intro s hs
    unfold Contact.nameParts at hs
    rw [h.familyName, h.givenName, h.additionalName, h.prefix_, h.suffix] at hs
    simp only [List.mem_cons, List.not_mem_nil, or_false] at hs
    rcases hs with rfl | rfl | rfl | rfl | rfl <;> exact of_lastComponent (easy_nil v) fun l hl => hf.names l hl _
  have hpic : ∀ q : Picture, q = {} → PictureFits E v q := by
    rintro q rfl
    have h : PictureOK E v {} := ⟨nofun, fun _ => ⟨s0, fun _ => by decide⟩⟩
    unfold PictureFits
    split
    · exact h
    · exact fun _ => h
  constructor
  case uid =>
    rw [h.uid]
    apply of_last (P := fun x => SafeText x ∧ x ≠ []) hu
    intro x hx
    obtain ⟨l, hl, rfl⟩ := List.mem_map.1 hx
    exact hf.uid l hl
  case formattedName => rw [h.formattedName]; exact of_lastText n0 fun l hl => hf.texts l (mem_named_sub (by simp) hl)
  case note => rw [h.note]; exact of_lastText n0 fun l hl => hf.texts l (mem_named_sub (by simp) hl)
  case mailer => intro hv; rw [h.mailer]; exact of_lastText n0 fun l hl => hf.oldTexts hv l (mem_named_sub (by simp) hl)
  case name => intro hv; rw [h.name]; exact of_lastText n0 fun l hl => hf.oldTexts hv l (mem_named_sub (by simp) hl)
  case nameParts => exact compound_easy hname
  case sortString =>
    intro hv
    rw [h.sortString]
    apply of_last s0
    intro x hx
    obtain ⟨l, hl, hx⟩ := List.mem_filterMap.1 hx
    exact (hf.sorting l hl x hx).1 hv
  case sortAs =>
    intro hv
    rw [h.sortString]
    apply of_last (P := fun x => x ≠ [] → ParamOK (q! "sort-as") x) (fun h => absurd rfl h)
    intro x hx
    obtain ⟨l, hl, hx⟩ := List.mem_filterMap.1 hx
    exact (hf.sorting l hl x hx).2 hv
  case productId => intro hv; rw [h.productId]; exact of_lastText s0 (hf.productId hv)
  case birthday =>
    intro x hx
    rcases hb with hb | ⟨l, hl, hb⟩
    · rw [hb] at hx; cases hx
    · obtain ⟨h1, h2⟩ := Prod.ext_iff.1 hb
      dsimp only at h1 h2
      have := hf.birthday l hl x (by rw [← h1, hx])
      exact ⟨this.1, fun hw => this.2 (by rw [← h2, hw])⟩
  case revision =>
    rcases hr with hr | ⟨l, hl, hr⟩
    · rw [hr]; nofun
    · rw [hr]; exact hf.revision l hl
  case deathDate =>
    intro hv
    rcases hd with hd | ⟨l, hl, hd⟩
    · rw [hd]; nofun
    · rw [hd]; exact hf.deathDate hv l hl
  case timeZone =>
    rw [h.timeZone]
    apply of_last (d := ({} : TimeZone)) (P := fun t : TimeZone => t.isValid = true → -6000 < t.offset ∧ t.offset < 6000) nofun
    intro x hx _
    obtain ⟨l, hl, hx⟩ := List.mem_filterMap.1 hx
    exact hf.timeZone l hl x hx
  case geo =>
    rcases hg with hg | ⟨l, hl, hg⟩
    · rw [hg]; nofun
    · exact hf.geo l hl _ hg
  case categories =>
    intro hv
    have hc : ∀ s ∈ c.categories, CategoryFits v s := by
      rw [h.categories]
      apply of_last (d := ([] : List QString)) (P := fun l : List QString => ∀ s ∈ l, CategoryFits v s) nofun
      intro x hx
      obtain ⟨l, hl, rfl⟩ := List.mem_map.1 hx
      exact hf.categories hv l hl
    exact ⟨fun h' => (hc [] (by rw [h']; simp)).2 rfl, compound_easy fun s hs => (hc s hs).1⟩
  case addresses =>
    intro x hx
    have := hf.addresses { x with id := [] } (by rw [← h.addresses]; exact List.mem_map_of_mem (f := fun a : Address => { a with id := [] }) hx)
    exact ⟨this.some, this.parts, this.label, this.label4, this.geo⟩
  case labels =>
    intro hv
    have := hf.labels hv
    rw [← h.addresses, List.pairwise_map] at this
    exact this
  case phoneNumbers =>
    intro x hx
    have : { x with id := [] } ∈ ((named L [q! "tel"]).map phoneOf).filter fun p => decide (p.number ≠ []) := by
      rw [← h.phoneNumbers]; exact List.mem_map_of_mem (f := fun p : PhoneNumber => { p with id := [] }) hx
    obtain ⟨h1, h2⟩ := List.mem_filter.1 this
    obtain ⟨l, hl, h1⟩ := List.mem_map.1 h1
    have e1 : simplified (valueText l) = x.number := congrArg PhoneNumber.number h1
    have e2 : l.params = x.params := congrArg PhoneNumber.params h1
    have hn : x.number ≠ [] := of_decide_eq_true h2
    have := hf.phoneNumbers l hl (by rw [e1]; exact hn)
    rw [e1, e2] at this
    exact ⟨⟨this.1, hn, by rw [← e1, simplified_twice]⟩, this.2⟩
  case emails =>
    rw [h.emails]
    refine ⟨?_, ?_, ?_⟩
    · intro e he
      obtain ⟨l, hl, rfl⟩ := List.mem_map.1 (lastOfEach_mem he)
      exact hf.emails l hl
    · dsimp only
      rw [lastOfEach_keys _ _ _ fun k hk => (mem_mailOrder _ k).1 hk]
      exact mailOrder_nodup _
    · apply mail_order_tail
      intro x hx y hy h1 h2
      obtain ⟨l, hl, rfl⟩ := List.mem_map.1 hx
      obtain ⟨l', hl', rfl⟩ := List.mem_map.1 hy
      exact hf.preferred l hl l' hl' h1 h2
  case organizations =>
    intro o ho
    rw [h.organizations] at ho
    obtain ⟨h1, h2⟩ := List.mem_filter.1 ho
    obtain ⟨l, hl, rfl⟩ := List.mem_map.1 h1
    have hne : (valueComponent l 0).getD [] ≠ [] := of_decide_eq_true h2
    cases hc : valueComponent l 0 with
    | none => rw [hc] at hne; exact absurd rfl hne
    | some s =>
      rw [hc] at hne
      have := hf.organizations l hl s hc hne
      exact ⟨this.1, this.2.2, compound_org this.2.1 hdep, fun hv => ⟨this.2.1.plain hv, hdep.plain hv⟩⟩
  case titles => rw [h.titles]; exact of_allTexts hf.titles
  case roles => rw [h.roles]; exact of_allTexts hf.roles
  case nickNames => intro hv; rw [h.nickNames]; exact of_allTexts fun l hl hne => hf.nickNames l hl hne hv
  case relationships =>
    rw [h.relationships]
    refine ⟨?_, nodup_distinct _⟩
    intro t ht
    obtain ⟨l, hl, rfl⟩ := List.mem_map.1 ((mem_distinct _ _).1 ht)
    exact hf.relationships l hl
  case langs =>
    intro hv
    rw [h.langs]
    refine ⟨?_, ?_⟩
    · intro t ht
      obtain ⟨h1, h2⟩ := List.mem_filter.1 (lastOfEach_mem ht)
      obtain ⟨l, hl, rfl⟩ := List.mem_map.1 h1
      exact ⟨hf.langs hv l hl (of_decide_eq_true h2), of_decide_eq_true h2⟩
    · dsimp only
      rw [lastOfEach_keys _ _ _ fun k hk => (mem_distinct _ k).1 hk]
      exact nodup_distinct _
  case clientPidMaps => intro hv; rw [h.clientPidMaps]; exact of_allTexts (hf.clientPidMaps hv)
  case members =>
    intro hv
    rw [h.members]
    refine ⟨?_, nodup_distinct _⟩
    intro t ht
    obtain ⟨l, hl, rfl⟩ := List.mem_map.1 ((mem_distinct _ _).1 ht)
    exact hf.members hv l hl
  case sources =>
    intro x hx
    rw [h.sources] at hx
    obtain ⟨l, hl, rfl⟩ := List.mem_map.1 hx
    exact hf.sources l hl
  case extraUrls =>
    intro x hx
    rw [h.extraUrls] at hx
    obtain ⟨h1, h2⟩ := List.mem_filter.1 hx
    obtain ⟨l, hl, rfl⟩ := List.mem_map.1 h1
    have := hf.urls l hl h2
    exact ⟨this.1, this.2, h2⟩
  case impps =>
    intro x hx
    rw [h.impps] at hx
    obtain ⟨h1, h2⟩ := List.mem_filter.1 hx
    obtain ⟨l, hl, h1⟩ := List.mem_flatMap.1 h1
    have h2 := of_decide_eq_true h2
    have := hf.messaging l hl x h1 h2.1 h2.2
    exact ⟨this.1, this.2.1, this.2.2, h2.2⟩
  case calendarUrls =>
    intro hv x hx
    rw [h.calendarUrls] at hx
    obtain ⟨h1, h2⟩ := List.mem_filter.1 hx
    obtain ⟨l, hl, rfl⟩ := List.mem_map.1 h1
    have := hf.calendars hv l hl h2
    refine ⟨this.1, ?_, this.2⟩
    simp only [CalendarUrl.isValid, calendarOf] at h2 ⊢
    rw [h2]
    split
    · rfl
    · split <;> rfl
  case gender =>
    intro hv
    rw [h.gender]
    apply of_last (d := ({} : Gender)) (P := fun g : Gender => g.gender.length ≤ 1 ∧ g.gender ≠ [qc! ';'] ∧ SafeText g.gender ∧ SafeText (g.gender ++ qc! ';' :: g.comment))
      ⟨Nat.zero_le _, nofun, s0, asciiSafe_safe (s := [qc! ';']) (by decide)⟩
    intro x hx
    obtain ⟨l, hl, hx⟩ := List.mem_filterMap.1 hx
    exact hf.gender hv l hl x hx
  case kind => intro hv; rw [h.kind]; exact of_lastText s0 (hf.kind hv)
  case keys =>
    intro x hx hdat
    have : { x with id := [] } ∈ (named L [q! "key"]).map keyOf := by
      rw [← h.keys]; exact List.mem_map_of_mem (f := fun p : Key => { p with id := [] }) hx
    obtain ⟨l, hl, h1⟩ := List.mem_map.1 this
    have := hf.keys l hl (by rw [h1]; exact hdat)
    rw [h1] at this
    exact ⟨this.binary, this.text, this.type⟩
  case pictures =>
    have hall : ∀ n first rest, (∀ x ∈ [n], x ∈ [q! "photo", q! "logo"]) → FirstAndRest (·.isEmpty) ((named L [n]).filterMap parsePicture) first rest →
        (first = {} ∨ ∃ l ∈ named L [n], parsePicture l = some first) → ∀ q ∈ first :: rest, PictureFits E v q := by
      intro n first rest hn h1 h2 q hq
      rcases List.mem_cons.1 hq with rfl | hq
      · rcases h2 with h2 | ⟨l, hl, h2⟩
        · exact hpic _ h2
        · exact hf.pictures l (mem_named_sub hn hl) _ h2
      · obtain ⟨l, hl, h2⟩ := List.mem_filterMap.1 ((firstAndRest_mem h1).2 q hq)
        exact hf.pictures l (mem_named_sub hn hl) _ h2
    intro q hq
    rcases List.mem_append.1 hq with hq | hq
    · exact hall (q! "logo") _ _ (by simp) h.logo hlo q hq
    · exact hall (q! "photo") _ _ (by simp) h.photo hph q hq
  case sounds =>
    intro x hx he
    obtain ⟨h1, h2⟩ := firstAndRest_mem h.sound
    have : x ∈ (named L [q! "sound"]).map soundOf := by
      rcases List.mem_cons.1 hx with rfl | hx
      · rcases h1 with h1 | h1
        · rw [h1] at he; cases he
        · exact h1
      · exact h2 x hx
    obtain ⟨l, hl, rfl⟩ := List.mem_map.1 this
    exact hf.sounds l hl he
  case fieldGroups =>
    intro x hx
    rw [h.fieldGroups] at hx
    obtain ⟨l, hl, hx⟩ := List.mem_filterMap.1 hx
    exact hf.fieldGroups l hl x hx
  case customs =>
    refine ⟨h.customNames, ?_⟩
    intro x hx
    have h1 := find_of_mem (SMap.sorted_iff_keys.2 (h.customNames.imp fun {a b} h => (qlt_iff_less a b).2 h)) hx
    rw [h.customs] at h1
    obtain ⟨y, hy, h2⟩ := Option.map_eq_some_iff.1 h1
    obtain ⟨h3, h4⟩ := List.mem_filter.1 (List.mem_of_getLast? hy)
    have := hf.customs y h3
    rw [of_decide_eq_true h4, h2] at this
    exact this

end KC
