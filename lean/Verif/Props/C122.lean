import Verif.Props.C48
/-
  C122. What an address is printed as depends on its parts alone, and on those only that the format shows: how the country is written, the id, the type, the
  label and the position of the address do not matter; in the domestic styles it does not matter whether the country is given at all, if it is the user's own.
-/
namespace KC
open Spec

/-- The addresses have the same parts, the country aside. -/
def Spec.sameParts (a b : Address) : Prop :=
  a.postOfficeBox = b.postOfficeBox ∧ a.extended = b.extended ∧ a.street = b.street ∧ a.locality = b.locality ∧ a.region = b.region
    ∧ a.postalCode = b.postalCode

/-- The country of an address, as the user means it: given by a code of two letters, or else by a name, and if it is neither the user's own. -/
def Spec.meansCountry (E : FormatEnv) (a : Address) (code : QString) : Prop :=
  if a.country.length = 2 ∧ (E.fromAlpha2 a.country).isSome then E.fromAlpha2 a.country = some code
  else if (E.fromName a.country).isSome then E.fromName a.country = some code
  else E.ownCountry = code

private theorem means_countryFor (E : FormatEnv) (a : Address) (code : QString) (h : meansCountry E a code) : E.countryFor a = code := by
  unfold meansCountry at h
  unfold FormatEnv.countryFor
  by_cases h2 : a.country.length = 2
  · cases ha : E.fromAlpha2 a.country with
    | some x => simp [h2, ha] at h ⊢; exact h
    | none =>
      cases hn : E.fromName a.country with
      | some y => simp [h2, ha, hn] at h ⊢; exact h
      | none => simp [h2, ha, hn] at h ⊢; exact h
  · cases hn : E.fromName a.country with
    | some y => simp [h2, hn] at h ⊢; exact h
    | none => simp [h2, hn] at h ⊢; exact h

private theorem detect_same (E : FormatEnv) (a b : Address) (hs : a.street = b.street) (hl : a.locality = b.locality) : E.detect a = E.detect b := by
  unfold FormatEnv.detect; rw [hs, hl]

/-- Two calls that agree on the format, the style and on what the elements of the format look at. -/
private structure SameShown (A B : FormatArgs) : Prop where
  env : A.E = B.E
  format : A.format = B.format
  style : A.style = B.style
  street : A.a.street = B.a.street
  extended : A.a.extended = B.a.extended
  locality : A.a.locality = B.a.locality
  empties : ∀ f, FormatElem.field f ∈ A.format.elements → A.isFieldEmpty f = B.isFieldEmpty f
  values : ∀ f, FormatElem.field f ∈ A.format.elements → A.included f = true → A.fieldValue f = B.fieldValue f
  add : A.addCountry = B.addCountry
  country : A.addCountry = true → A.countryName = B.countryName

private theorem walkBack_same {A B : FormatArgs} (h : SameShown A B) : ∀ l : List FormatElem, (∀ e ∈ l, e ∈ A.format.elements) → A.walkBack l = B.walkBack l
  | [], _ => rfl
  | .sep :: _, _ => rfl
  | .lit t :: r, hl => by
    simp only [FormatArgs.walkBack, FormatArgs.hasContent]
    rw [walkBack_same h r fun e he => hl e (List.mem_cons_of_mem _ he)]
  | .field f :: r, hl => by
    simp only [FormatArgs.walkBack, FormatArgs.hasContent]
    rw [walkBack_same h r fun e he => hl e (List.mem_cons_of_mem _ he), h.empties f (hl _ List.mem_cons_self)]

private theorem nextEmpty_same {A B : FormatArgs} (h : SameShown A B) : ∀ l : List FormatElem, (∀ e ∈ l, e ∈ A.format.elements) → A.nextEmpty l = B.nextEmpty l
  | [], _ => rfl
  | .sep :: _, _ => rfl
  | .lit _ :: _, _ => rfl
  | .field f :: _, hl => h.empties f (hl _ List.mem_cons_self)

private theorem step_same {A B : FormatArgs} (h : SameShown A B) (prev : List FormatElem) (e : FormatElem) (next : List FormatElem) (s : FormatState)
    (hp : ∀ x ∈ prev, x ∈ A.format.elements) (he : e ∈ A.format.elements) (hn : ∀ x ∈ next, x ∈ A.format.elements) :
    A.step prev e next s = B.step prev e next s := by
  have hw := walkBack_same h (e :: prev) (by
    intro x hx
    rcases List.mem_cons.1 hx with rfl | hx
    · exact he
    · exact hp x hx)
  have hx := nextEmpty_same h next hn
  unfold FormatArgs.step
  rw [hw, hx, ← h.style, ← h.format, ← h.street, ← h.extended]
  cases e with
  | sep => rfl
  | lit l => rfl
  | field f =>
    have hi : B.included f = A.included f := by unfold FormatArgs.included; rw [h.style]
    by_cases hf : A.included f = true
    · simp only [hi, hf, h.values f he hf]
    · simp only [hi, hf, Bool.false_eq_true, if_false]

private theorem loop_same {A B : FormatArgs} (h : SameShown A B) : ∀ (next prev : List FormatElem) (s : FormatState), (∀ x ∈ prev, x ∈ A.format.elements) →
    (∀ x ∈ next, x ∈ A.format.elements) → A.loop prev next s = B.loop prev next s
  | [], _, _, _, _ => rfl
  | e :: next, prev, s, hp, hn => by
    have he := hn e List.mem_cons_self
    have hn' : ∀ x ∈ next, x ∈ A.format.elements := fun x hx => hn x (List.mem_cons_of_mem _ hx)
    rw [FormatArgs.loop, FormatArgs.loop, step_same h prev e next s hp he hn']
    refine loop_same h next (e :: prev) _ (fun x hx => ?_) hn'
    rcases List.mem_cons.1 hx with rfl | hx
    · exact he
    · exact hp x hx

private theorem text_same {A B : FormatArgs} (h : SameShown A B) : A.text = B.text := by
  have hb : A.bodyLines = B.bodyLines := by
    unfold FormatArgs.bodyLines
    rw [← h.format, loop_same h A.format.elements [] {} (by simp) (fun _ hx => hx)]
  have hs : A.separatorText = B.separatorText := by
    unfold FormatArgs.separatorText
    rw [h.style, h.env, detect_same B.E _ _ h.street h.locality]
  have ha : A.allLines = B.allLines := by
    unfold FormatArgs.allLines
    rw [← h.add, hb, ← h.style, ← h.format, ← h.env]
    by_cases hc : A.addCountry = true
    · rw [h.country hc]
    · simp only [hc, Bool.false_eq_true, if_false]
  unfold FormatArgs.text
  rw [hs, ha]

private theorem format_same (E : FormatEnv) (a b : Address) (business : Bool) (hs : a.street = b.street) (hl : a.locality = b.locality)
    (hc : E.countryFor a = E.countryFor b) : E.formatForAddress a business = E.formatForAddress b business := by
  unfold FormatEnv.formatForAddress
  rw [hc, detect_same E a b hs hl]

/-- Addresses with the same parts that mean the same country, in whatever way it is written, are printed as the same text in every style. The id, the type,
    the label and the position of the addresses may differ. -/
theorem C122 (E : FormatEnv) (a b : Address) (code : QString) (h : sameParts a b) (ha : meansCountry E a code) (hb : meansCountry E b code)
    (he : a.country = [] ↔ b.country = []) (style : AStyle) (name org : QString) : a.formatted E style name org = b.formatted E style name org := by
  obtain ⟨h1, h2, h3, h4, h5, h6⟩ := h
  have he' : a.country.isEmpty = b.country.isEmpty := by
    rw [Bool.eq_iff_iff, List.isEmpty_iff, List.isEmpty_iff]; exact he
  have hf := format_same E a b (!(org.isEmpty || style != .postal)) h3 h4 ((means_countryFor E a code ha).trans (means_countryFor E b code hb).symm)
  unfold Address.formatted
  have hc : FormatArgs.countryName ⟨E, a, name, org, E.formatForAddress a (!(org.isEmpty || style != .postal)), style⟩
      = FormatArgs.countryName ⟨E, b, name, org, E.formatForAddress b (!(org.isEmpty || style != .postal)), style⟩ := by
    simp only [FormatArgs.countryName, hf, he']
  refine text_same ⟨rfl, hf, rfl, h3, h2, h4, fun f _ => ?_, fun f _ _ => ?_, ?_, fun _ => hc⟩
  · cases f <;> simp only [FormatArgs.isFieldEmpty, FormatArgs.included, h1, h2, h3, h4, h5, h6, he'] <;> rfl
  · cases f <;> simp only [FormatArgs.fieldValue, FormatArgs.countryName, h1, h2, h3, h4, h5, h6, he', hf]
  · simp only [FormatArgs.addCountry, hf, he']

/-- In the domestic styles it does not matter whether the country is written at all. -/
theorem C122_domestic (E : FormatEnv) (a b : Address) (code : QString) (h : sameParts a b) (ha : meansCountry E a code) (hb : meansCountry E b code)
    (style : AStyle) (hd : style = .multiLineDomestic ∨ style = .singleLineDomestic) (name org : QString) :
    a.formatted E style name org = b.formatted E style name org := by
  obtain ⟨h1, h2, h3, h4, h5, h6⟩ := h
  have hf := format_same E a b (!(org.isEmpty || style != .postal)) h3 h4 ((means_countryFor E a code ha).trans (means_countryFor E b code hb).symm)
  have hi : hasField style.data.includeFields .country = false := by rcases hd with rfl | rfl <;> decide
  have hn : style.data.forceCountry = false := by rcases hd with rfl | rfl <;> rfl
  unfold Address.formatted
  refine text_same ⟨rfl, hf, rfl, h3, h2, h4, fun f _ => ?_, fun f _ hx => ?_, ?_, fun hx => ?_⟩
  · cases f <;> simp only [FormatArgs.isFieldEmpty, FormatArgs.included, h1, h2, h3, h4, h5, h6, hi, Bool.not_false, if_true] <;> rfl
  · cases f
    case country => exact absurd hx (by simp [FormatArgs.included, hi])
    all_goals simp only [FormatArgs.fieldValue, h1, h2, h3, h4, h5, h6, hf]
  · simp only [FormatArgs.addCountry, hn, Bool.false_and]
  · simp [FormatArgs.addCountry, hn] at hx

/-- What a field of the format stands for. -/
def Spec.partOf (a : Address) (name org : QString) : AField → QString
  | .name => name
  | .organization => org
  | .postOfficeBox => a.postOfficeBox
  | .postalCode => a.postalCode
  | .region => a.region
  | _ => []

/-- A name, an organization, a post office box, a postal code or a region that the format of the country does not show has no influence on what is printed
    of the rest. (An organization decides in a postal address whether the business format is used.) -/
theorem C122_hidden (E : FormatEnv) (a b : Address) (name org name' org' : QString) (style : AStyle) (hc : a.country = b.country) (hs : a.street = b.street)
    (he : a.extended = b.extended) (hl : a.locality = b.locality) (ho : style = .postal → (org = [] ↔ org' = []))
    (hp : ∀ f, FormatElem.field f ∈ (E.formatForAddress a (decide (style = .postal ∧ org ≠ []))).elements → partOf a name org f = partOf b name' org' f) :
    a.formatted E style name org = b.formatted E style name' org' := by
  have hbu : ∀ o : QString, (!(o.isEmpty || style != .postal)) = decide (style = .postal ∧ o ≠ []) := by
    intro o; cases o <;> cases style <;> rfl
  have hb : decide (style = .postal ∧ org ≠ []) = decide (style = .postal ∧ org' ≠ []) := by
    rw [decide_eq_decide]
    exact and_congr_right fun x => not_congr (ho x)
  have hcf : E.countryFor a = E.countryFor b := by unfold FormatEnv.countryFor; rw [hc]
  unfold Address.formatted
  simp only [hbu, ← hb]
  have hf := format_same E a b (decide (style = .postal ∧ org ≠ [])) hs hl hcf
  have hcn : FormatArgs.countryName ⟨E, a, name, org, E.formatForAddress a (decide (style = .postal ∧ org ≠ [])), style⟩
      = FormatArgs.countryName ⟨E, b, name', org', E.formatForAddress b (decide (style = .postal ∧ org ≠ [])), style⟩ := by
    simp only [FormatArgs.countryName, hf, hc]
  refine text_same ⟨rfl, hf, rfl, hs, he, hl, fun f hm => ?_, fun f hm _ => ?_, ?_, fun _ => hcn⟩
  · have hpf := hp f hm
    cases f <;> simp only [partOf] at hpf <;> simp only [FormatArgs.isFieldEmpty, FormatArgs.included, hc, hs, he, hl, hpf] <;> rfl
  · have hpf := hp f hm
    cases f <;> simp only [partOf] at hpf <;> simp only [FormatArgs.fieldValue, FormatArgs.countryName, hf] <;>
      simp only [hc, hs, he, hl, hpf]
  · simp only [FormatArgs.addCountry, hf, hc]

/-- Whether the country is given does matter in the other styles. -/
theorem C122_given_false :
    let a := { sampleAddress with country := [] }
    sameParts a sampleAddress ∧ meansCountry sampleFormatEnv a (q! "DE") ∧ meansCountry sampleFormatEnv sampleAddress (q! "DE")
      ∧ a.formatted sampleFormatEnv .multiLineInternational (q! "Ann") [] = q! "Ann\nc/o Bo\nRing 1\n89073 Ulm"
      ∧ sampleAddress.formatted sampleFormatEnv .multiLineInternational (q! "Ann") [] = q! "Ann\nc/o Bo\nRing 1\n89073 Ulm\nGermany" := by
  refine ⟨⟨rfl, rfl, rfl, rfl, rfl, rfl⟩, ?_, ?_, ?_, ?_⟩
  · unfold meansCountry; decide +kernel
  · unfold meansCountry; decide +kernel
  · decide +kernel
  · decide +kernel

/-- Witnesses: the country by name and by code, with another id, type and label; the same without a country in a domestic style; and a post office box and a
    region, which the German format does not have. -/
example : sampleAddress.formatted sampleFormatEnv .postal (q! "Ann") []
    = { sampleAddress with country := q! "DE", id := q! "b", type := 64, label := q! "x" }.formatted sampleFormatEnv .postal (q! "Ann") [] :=
  C122 _ _ _ (q! "DE") ⟨rfl, rfl, rfl, rfl, rfl, rfl⟩ (by unfold meansCountry; decide +kernel) (by unfold meansCountry; decide +kernel) (by decide) _ _ _

example : sampleAddress.formatted sampleFormatEnv .singleLineDomestic (q! "Ann") []
    = { sampleAddress with country := [] }.formatted sampleFormatEnv .singleLineDomestic (q! "Ann") [] :=
  C122_domestic _ _ _ (q! "DE") ⟨rfl, rfl, rfl, rfl, rfl, rfl⟩ (by unfold meansCountry; decide +kernel) (by unfold meansCountry; decide +kernel) _ (.inr rfl) _ _

example : sampleAddress.formatted sampleFormatEnv .multiLineInternational (q! "Ann") []
    = { sampleAddress with postOfficeBox := q! "17", region := q! "BW" }.formatted sampleFormatEnv .multiLineInternational (q! "Ann") [] := by
  have he : (sampleFormatEnv.formatForAddress sampleAddress (decide (AStyle.multiLineInternational = .postal ∧ ([] : QString) ≠ []))).elements
      = [.field .name, .sep, .field .organization, .sep, .field .streetAddress, .sep, .field .postalCode, .lit (q! " "), .field .locality] := by decide +kernel
  refine C122_hidden _ _ _ _ _ _ _ _ rfl rfl rfl rfl (fun h => by simp at h) fun f hf => ?_
  rw [he] at hf
  cases f <;> first | rfl | (exact absurd hf (by decide))

end KC
