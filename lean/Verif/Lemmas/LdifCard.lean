import Verif.Spec.LdifCard
import Verif.Lemmas.CardFrom
import Verif.Props.C16
import Verif.Props.C73
import Verif.Props.C76
/-
  Contacts imported from LDIF entries that fit (`RecordFits`) can be carried by a vCard (`Readable`).
-/
namespace KC
open KC.Spec

theorem fold_digits (d : QString) (h : ∀ c ∈ d, c.toNat ≤ 57) (n : Nat) : d.foldl (fun n c => 10 * n + (c.toNat - 48)) n + 1 ≤ (n + 1) * 10 ^ d.length := by
  induction d generalizing n with
  | nil => simp
  | cons c d ih =>
    have h1 := ih (fun x hx => h x (by simp [hx])) (10 * n + (c.toNat - 48))
    have h2 := h c (by simp)
    rw [List.foldl_cons, List.length_cons, Nat.pow_succ]
    refine Nat.le_trans h1 ?_
    rw [Nat.mul_comm (10 ^ d.length) 10, ← Nat.mul_assoc]
    exact Nat.mul_le_mul_right _ (by omega)

/-- A number of at most four characters without a minus sign. -/
theorem toIntQ_year (s : QString) (h : s.length ≤ 4) (hm : qc! '-' ∉ s) : 0 ≤ toIntQ s ∧ toIntQ s ≤ 9999 := by
  have hl := Nat.le_trans (trimmedQ_length s) h
  have hsub : ∀ c ∈ trimmedQ s, c ∈ s := by
    intro c hc
    unfold trimmedQ trim at hc
    exact List.dropWhile_subset _ (List.mem_reverse.1 (List.dropWhile_subset _ (List.mem_reverse.1 hc)))
  have digits : ∀ d : QString, d.length ≤ 4 → ∀ n, (if (d.isEmpty || d.any (fun c => c < 48 || 57 < c)) = true then none else
      some (d.foldl (fun n c => 10 * n + (c.toNat - 48)) 0)) = some n → n ≤ 9999 := by
    intro d hd n hn
    split at hn
    · cases hn
    rename_i hn'
    have hn := Option.some.inj hn
    simp only [Bool.or_eq_true, List.isEmpty_iff, List.any_eq_true, not_or, not_exists, not_and, decide_eq_true_eq] at hn'
    have hc : ∀ c ∈ d, c.toNat ≤ 57 := by
      intro c hc
      have := (hn'.2 c hc).2
      simp only [UInt16.lt_iff_toNat_lt, Nat.not_lt] at this
      exact this
    have := fold_digits d hc 0
    have h4 : 10 ^ d.length ≤ 10 ^ 4 := Nat.pow_le_pow_right (by omega) hd
    rw [hn] at this
    omega
  unfold toIntQ
  simp only
  cases ht : trimmedQ s with
  | nil => simp
  | cons c t =>
    rw [ht] at hl hsub
    simp only
    have h1 := digits t (by simp at hl; omega)
    have h2 := digits (c :: t) hl
    have hc : c ≠ qc! '-' := fun e => hm (e ▸ hsub c (by simp))
    rw [if_neg hc]
    split
    · split
      · rename_i n hn; have := h1 n hn; omega
      · omega
    · split
      · rename_i n hn; have := h2 n hn; omega
      · omega

/-- Every time stamp read from LDIF can be written. -/
theorem stamp_ok (s : QString) : DateTimeOK (vCardStringToDate s) := by
  intro x hx
  obtain ⟨h1, h2, h3, h4, h5, h6⟩ := C73_real_ldif s x hx
  refine ⟨⟨.inr ?_, h1⟩, ⟨h2, h3, h4, h5, fun o ho => by rw [h6] at ho; cases ho⟩⟩
  have h0 := h1.1
  have hy : 0 ≤ x.date.1 ∧ x.date.1 ≤ 9999 := by
    unfold vCardStringToDate at hx
    simp only at hx
    split at hx
    · split at hx
      · cases hx
        apply toIntQ_year
        · unfold midQ; simp
        · intro h
          have : qc! '-' ∈ removeChar (qc! ':') (removeChar (qc! '-') s) := List.mem_of_mem_drop (List.mem_of_mem_take h)
          simp [removeChar] at this
      · cases hx
    · cases hx
  omega

theorem values_sub {r : LdifRecord} {a b : List QString} (hab : ∀ x ∈ a, x ∈ b) {s : QString} (h : s ∈ r.values a) : s ∈ r.values b := by
  unfold LdifRecord.values at h ⊢
  obtain ⟨x, hx, rfl⟩ := List.mem_map.1 h
  simp only [List.mem_filter, decide_eq_true_eq] at hx
  exact List.mem_map.2 ⟨x, List.mem_filter.2 ⟨hx.1, decide_eq_true (hab _ hx.2)⟩, rfl⟩

theorem of_single {P : ParamText → Prop} {r : LdifRecord} {names : List QString} (h : ∀ s ∈ r.values names, P { text := s }) : ∀ t ∈ r.single names, P t := by
  intro t ht
  unfold LdifRecord.single at ht
  obtain ⟨s, hs, rfl⟩ := List.mem_map.1 ht
  exact h s (List.dropWhile_subset _ (List.mem_of_getLast? (Option.mem_toList.1 hs)))

theorem record_readable {E : LdifEnv} {v : Version} {ids : Nat → QString} {now : QDateTime} {r : LdifRecord} {c : Contact} (h : LdifImported E ids now r c)
    (hf : RecordFits E v r) (hu : SafeText (ids 0) ∧ ids 0 ≠ []) (hnow : DateTimeOK now) : Readable E.toToolEnv v c := by
  have n0 : CodedText E.toCodecs v [] := coded_easy (easy_nil v)
  have s0 : SafeText [] := (easy_nil v).safe
  have rest := h.rest
  have hdep : EasyText v c.department := by rw [h.department]; exact of_last (easy_nil v) hf.department
  have hadr : ∀ a ∈ c.addresses, AddressOK E.toToolEnv v a ∧ a.label = [] := by
    intro a ha
    rw [h.addresses] at ha
    rcases List.mem_append.1 ha with ha | ha
    · split at ha
      · cases ha
      · rename_i hne
        rw [List.mem_singleton.1 ha]
        have := hf.home hne
        exact ⟨⟨this.some, this.parts, this.label, this.label4, this.geo⟩, rfl⟩
    · split at ha
      · cases ha
      · rename_i hne
        rw [List.mem_singleton.1 ha]
        have := hf.work hne
        exact ⟨⟨this.some, this.parts, this.label, this.label4, this.geo⟩, rfl⟩
  constructor
  case uid => rw [h.uid]; exact of_last (P := fun x => SafeText x ∧ x ≠ []) hu hf.uid
  case formattedName => rw [h.formattedName]; exact of_last n0 hf.formattedName
  case note => rw [h.note]; exact hf.note
  case mailer => intro _; rw [show c.mailer = [] from congrArg (·.mailer) rest]; exact n0
  case name => intro _; rw [show c.name = [] from congrArg (·.name) rest]; exact n0
  case nameParts =>
    apply compound_easy
    unfold Contact.nameParts
    rw [h.familyName, h.givenName, h.prefix_, show c.additionalName = [] from congrArg (·.additionalName) rest, show c.suffix = [] from congrArg (·.suffix) rest]
    intro s hs
    simp only [List.mem_cons, List.not_mem_nil, or_false] at hs
    rcases hs with rfl | rfl | rfl | rfl | rfl
    · exact of_last (easy_nil v) fun s hs => hf.nameParts s (values_sub (by simp) hs)
    · exact of_last (easy_nil v) fun s hs => hf.nameParts s (values_sub (by simp) hs)
    · exact easy_nil v
    · exact of_last (easy_nil v) fun s hs => hf.nameParts s (values_sub (by simp) hs)
    · exact easy_nil v
  case sortString => intro _; rw [show c.sortString = [] from congrArg (·.sortString) rest]; exact s0
  case sortAs => intro _ hne; exact absurd (show c.sortString = [] from congrArg (·.sortString) rest) hne
  case productId => intro _; rw [show c.productId = [] from congrArg (·.productId) rest]; exact s0
  case birthday =>
    intro x hx
    rw [h.birthday] at hx
    obtain ⟨d, hd, rfl⟩ := Option.map_eq_some_iff.1 hx
    have hr : RealDay d := by
      unfold LdifRecord.birthDate at hd
      dsimp only at hd
      split at hd
      · cases hd; assumption
      · obtain ⟨s, _, hs⟩ := List.mem_filterMap.1 (List.mem_of_getLast? hd)
        unfold eightDigits at hs
        dsimp only at hs
        split at hs
        · cases hs; assumption
        · cases hs
    refine ⟨⟨.inr (hf.birthYear d hd), hr⟩, fun hw => ?_⟩
    rw [show c.birthdayWithTime = false from congrArg (·.birthdayWithTime) rest] at hw
    cases hw
  case revision =>
    rcases h.revisionFrom with e | ⟨s, _, e⟩ <;> rw [e]
    · exact hnow
    · exact stamp_ok s
  case deathDate => intro _; rw [show c.deathDate = none from congrArg (·.deathDate) rest]; intro x hx; cases hx
  case timeZone => rw [show c.timeZone = {} from congrArg (·.timeZone) rest]; nofun
  case geo => rw [show c.geo = {} from congrArg (·.geo) rest]; nofun
  case categories => intro _; rw [show c.categories = [] from congrArg (·.categories) rest]; exact ⟨nofun, compound_easy nofun⟩
  case addresses => exact fun a ha => (hadr a ha).1
  case labels =>
    intro _
    refine List.Pairwise.imp_of_mem (R := fun _ _ => True) (fun _ hb _ _ => (hadr _ hb).2) ?_
    exact List.pairwise_of_forall fun _ _ => trivial
  case phoneNumbers =>
    intro p hp
    have hin : (p.type, p.number) ∈ ((r.kinded ldifPhoneKinds).map fun p => (p.1, simplified p.2)).filter fun p => decide (p.2 ≠ []) := by
      rw [← h.phones]; exact List.mem_map_of_mem (f := fun p : PhoneNumber => (p.type, p.number)) hp
    obtain ⟨h1, h2⟩ := List.mem_filter.1 hin
    obtain ⟨q, hq, he⟩ := List.mem_map.1 h1
    have e : simplified q.2 = p.number := congrArg Prod.snd he
    refine ⟨⟨e ▸ hf.phones q hq, of_decide_eq_true h2, by rw [← e, KC.simplified_twice]⟩, ?_⟩
    rw [h.phoneParams p hp]
    exact .nil
  case emails =>
    rw [h.emails]
    refine ⟨?_, ?_, ?_⟩
    · intro e he
      obtain ⟨m, hm, rfl⟩ := List.mem_map.1 he
      exact ⟨hf.emails m ((mem_distinct _ _).1 hm), .nil, nofun⟩
    · rw [List.map_map]
      exact (List.map_id _).symm ▸ nodup_distinct _
    · intro e he
      obtain ⟨m, hm, rfl⟩ := List.mem_map.1 (List.mem_of_mem_tail he)
      rfl
  case organizations =>
    intro o ho
    rw [h.organizations] at ho
    have := of_single (P := EntryFits v .organization) hf.organizations o ho
    exact ⟨this.1, this.2.2, compound_org this.2.1 hdep, fun hv => ⟨this.2.1.plain hv, hdep.plain hv⟩⟩
  case titles => rw [h.titles]; exact of_single (P := EntryFits v .title) hf.titles
  case roles => rw [h.roles]; exact of_single (P := EntryFits v .role) hf.roles
  case nickNames => intro hv t ht; rw [h.nickNames] at ht; exact of_single (P := EntryFits v .nickName) hf.nickNames t ht hv
  case relationships => rw [show c.relationships = [] from congrArg (·.relationships) rest]; exact ⟨nofun, .nil⟩
  case langs => intro _; rw [show c.langs = [] from congrArg (·.langs) rest]; exact ⟨nofun, .nil⟩
  case clientPidMaps => intro _; rw [show c.clientPidMaps = [] from congrArg (·.clientPidMaps) rest]; nofun
  case members => intro _; rw [show c.members = [] from congrArg (·.members) rest]; exact ⟨nofun, .nil⟩
  case sources => rw [show c.sources = [] from congrArg (·.sources) rest]; nofun
  case extraUrls =>
    intro u hu
    rw [h.urls] at hu
    obtain ⟨w, hw, rfl⟩ := List.mem_map.1 hu
    obtain ⟨h1, h2⟩ := List.mem_filter.1 (List.mem_of_mem_take hw)
    obtain ⟨s, hs, rfl⟩ := List.mem_map.1 h1
    exact ⟨hf.urls s hs h2, .nil, h2⟩
  case impps => rw [show c.impps = [] from congrArg (·.impps) rest]; nofun
  case calendarUrls => intro _; rw [show c.calendarUrls = [] from congrArg (·.calendarUrls) rest]; nofun
  case gender => intro _; rw [show c.gender = {} from congrArg (·.gender) rest]; exact ⟨Nat.zero_le _, nofun, s0, asciiSafe_safe (s := [qc! ';']) (by decide)⟩
  case kind => intro _; rw [show c.kind = [] from congrArg (·.kind) rest]; exact s0
  case keys => rw [show c.keys = [] from congrArg (·.keys) rest]; nofun
  case pictures =>
    rw [show c.logo = {} from congrArg (·.logo) rest, show c.photo = {} from congrArg (·.photo) rest, show c.extraLogos = [] from congrArg (·.extraLogos) rest,
      show c.extraPhotos = [] from congrArg (·.extraPhotos) rest]
    intro p hp
    have : p = {} := by simpa using hp
    subst this
    have h : PictureOK E.toToolEnv v {} := ⟨nofun, fun _ => ⟨s0, fun _ => by decide⟩⟩
    split
    · exact h
    · exact fun _ => h
  case sounds =>
    rw [show c.sound = {} from congrArg (·.sound) rest, show c.extraSounds = [] from congrArg (·.extraSounds) rest]
    intro s hs _
    have : s = {} := by simpa using hs
    subst this
    exact ⟨nofun, fun _ => s0⟩
  case fieldGroups => rw [show c.fieldGroups = [] from congrArg (·.fieldGroups) rest]; nofun
  case customs => rw [show c.customs = [] from congrArg (·.customs) rest]; exact ⟨.nil, nofun⟩

end KC
