import Verif.Model.ShippedFormats
import Verif.Props.C48
/-
  C74: what an address printed with the formats of the library shows, for every country.
-/
namespace KC
open Spec

namespace Spec

/-- The library is used with its own formats, in some list of languages. -/
def Shipped (E : FormatEnv) : Prop := ∃ languages, E.config = shippedEntry languages

/-- A part is shown as it is or, in the postal style, in upper case. -/
def ShowsPart (E : FormatEnv) (style : AStyle) (part text : QString) : Prop := part <:+: text ∨ style = .postal ∧ E.upper part <:+: text

end Spec

/-- the part of a key before the language -/
private def plainKey (k : QString) : QString := k.takeWhile (· ≠ qc! '[')

private def formatKeys : List QString :=
  [q! "LatinBusinessAddressFormat", q! "LatinAddressFormat", q! "BusinessAddressFormat", q! "AddressFormat"]

private theorem plainKey_self (k : QString) (h : qc! '[' ∉ k) : plainKey k = k := by
  unfold plainKey
  have := List.takeWhile_append_of_pos (p := fun x => decide (x ≠ qc! '[')) (l₁ := k) (l₂ := []) (by
    intro c hc
    have : c ≠ qc! '[' := fun e => h (e ▸ hc)
    simpa using this)
  simpa using this

private theorem plainKey_lang (k l : QString) (h : qc! '[' ∉ k) : plainKey (k ++ q! "[" ++ l ++ q! "]") = k := by
  unfold plainKey
  rw [List.append_assoc, List.append_assoc, List.takeWhile_append_of_pos]
  · simp
  · intro c hc
    have : c ≠ qc! '[' := fun e => h (e ▸ hc)
    simpa using this

private theorem entry_mem (languages : List QString) (code key v : QString) (hk : qc! '[' ∉ key) (h : shippedEntry languages code key = some v) :
    ∃ k, (k, v) ∈ shippedGroup code ∧ plainKey k = key := by
  unfold shippedEntry at h
  obtain ⟨k, hk', h⟩ := List.exists_of_findSome?_eq_some h
  rw [Option.map_eq_some_iff] at h
  obtain ⟨e, he, rfl⟩ := h
  have hp := List.find?_some he
  have hm := List.mem_of_find?_eq_some he
  simp only [decide_eq_true_eq] at hp
  refine ⟨e.1, hm, ?_⟩
  rw [hp]
  rcases List.mem_append.1 hk' with h' | h'
  · obtain ⟨l, _, rfl⟩ := List.mem_map.1 h'
    exact plainKey_lang key l hk
  · rw [List.mem_singleton.1 h']; exact plainKey_self key hk

private theorem group_mem (code : QString) (e : QString × QString) (h : e ∈ shippedGroup code) : (code, shippedGroup code) ∈ shippedGroups := by
  unfold shippedGroup at h ⊢
  cases hf : shippedGroups.find? fun g => g.1 = code with
  | none => rw [hf] at h; simp at h
  | some g =>
    have hp := List.find?_some hf
    have hm := List.mem_of_find?_eq_some hf
    simp only [decide_eq_true_eq] at hp
    simp only [Option.map_some, Option.getD_some]
    rw [← hp]; exact hm

/-- The chosen format is the default one or one of the country's group. -/
private theorem chosen (E : FormatEnv) (h : Shipped E) (code : QString) (latin business : Bool) :
    (E.formatString code latin business = defaultFormat ∧ ∀ v, (q! "AddressFormat", v) ∉ shippedGroup code) ∨
      ∃ k, (k, E.formatString code latin business) ∈ shippedGroup code ∧ plainKey k ∈ formatKeys := by
  obtain ⟨langs, hE⟩ := h
  have key : ∀ k ∈ formatKeys, E.entry code k ≠ [] → ∃ k', (k', E.entry code k) ∈ shippedGroup code ∧ plainKey k' ∈ formatKeys := by
    intro k hk hne
    unfold FormatEnv.entry at hne ⊢
    rw [hE] at hne ⊢
    cases hs : shippedEntry langs code k with
    | none => rw [hs] at hne; simp at hne
    | some v =>
      obtain ⟨k', h1, h2⟩ := entry_mem langs code k v ((by decide : ∀ k ∈ formatKeys, qc! '[' ∉ k) k hk) hs
      exact ⟨k', h1, h2 ▸ hk⟩
  have last : (E.config code (q! "AddressFormat")).getD defaultFormat = defaultFormat ∧ (∀ v, (q! "AddressFormat", v) ∉ shippedGroup code) ∨
      ∃ k, (k, (E.config code (q! "AddressFormat")).getD defaultFormat) ∈ shippedGroup code ∧ plainKey k ∈ formatKeys := by
    rw [hE]
    cases hs : shippedEntry langs code (q! "AddressFormat") with
    | none =>
      refine .inl ⟨rfl, fun v hv => ?_⟩
      unfold shippedEntry at hs
      rw [List.findSome?_eq_none_iff] at hs
      have := hs (q! "AddressFormat") (List.mem_append_right _ (List.mem_singleton.2 rfl))
      rw [Option.map_eq_none_iff, List.find?_eq_none] at this
      exact this _ hv (by simp)
    | some v =>
      obtain ⟨k', h1, h2⟩ := entry_mem langs code _ v (by decide) hs
      exact .inr ⟨k', h1, h2 ▸ by decide⟩
  unfold FormatEnv.formatString
  by_cases h1 : (latin && business) = true ∧ E.entry code (q! "LatinBusinessAddressFormat") ≠ []
  · have := key _ (by decide) h1.2
    have e : (E.entry code (q! "LatinBusinessAddressFormat")).isEmpty = false := by simpa using h1.2
    simp only [h1.1, if_true, e, Bool.false_and, Bool.false_eq_true, if_false]
    exact .inr this
  · have e1 : (if (latin && business) = true then E.entry code (q! "LatinBusinessAddressFormat") else []) = [] := by
      by_cases hb : (latin && business) = true
      · rw [if_pos hb]; by_contra hc; exact h1 ⟨hb, hc⟩
      · rw [if_neg hb]
    simp only [e1, List.isEmpty_nil, Bool.true_and]
    by_cases h2 : latin = true ∧ E.entry code (q! "LatinAddressFormat") ≠ []
    · have := key _ (by decide) h2.2
      have e : (E.entry code (q! "LatinAddressFormat")).isEmpty = false := by simpa using h2.2
      simp only [h2.1, if_true, e, Bool.false_and, Bool.false_eq_true, if_false]
      exact .inr this
    · have e2 : (if latin = true then E.entry code (q! "LatinAddressFormat") else []) = [] := by
        by_cases hb : latin = true
        · rw [if_pos hb]; by_contra hc; exact h2 ⟨hb, hc⟩
        · rw [if_neg hb]
      simp only [e2, List.isEmpty_nil, Bool.true_and]
      by_cases h3 : business = true ∧ E.entry code (q! "BusinessAddressFormat") ≠ []
      · have := key _ (by decide) h3.2
        have e : (E.entry code (q! "BusinessAddressFormat")).isEmpty = false := by simpa using h3.2
        simp only [h3.1, if_true, e, Bool.false_eq_true, if_false]
        exact .inr this
      · have e3 : (if business = true then E.entry code (q! "BusinessAddressFormat") else []) = [] := by
          by_cases hb : business = true
          · rw [if_pos hb]; by_contra hc; exact h3 ⟨hb, hc⟩
          · rw [if_neg hb]
        simp only [e3, List.isEmpty_nil, if_true]
        exact last

/-- What holds of the default format (for codes without a group) and of all formats in the table holds of the chosen format. -/
private theorem table (p : QString → List FormatElem → Prop) [∀ c es, Decidable (p c es)]
    (ht : ∀ g ∈ shippedGroups, ∀ e ∈ g.2, plainKey e.1 ∈ formatKeys → p g.1 (parseElements e.2))
    (hd : ∀ code, (∀ g ∈ shippedGroups, g.1 ≠ code) → p code (parseElements defaultFormat))
    (hall : ∀ g ∈ shippedGroups, (g.2.any fun e => e.1 = q! "AddressFormat") = true)
    (E : FormatEnv) (h : Shipped E) (code : QString) (latin business : Bool) :
    p code (E.formatForCountry code latin business).elements := by
  show p code (parseElements (E.formatString code latin business))
  rcases chosen E h code latin business with ⟨h1, h2⟩ | ⟨k, h1, h2⟩
  · rw [h1]
    apply hd
    intro g hg he
    have hs : shippedGroup code ≠ [] := by
      intro hn
      unfold shippedGroup at hn
      cases hf : shippedGroups.find? fun g => g.1 = code with
      | none =>
        rw [List.find?_eq_none] at hf
        exact hf g hg (by simpa using he)
      | some g' =>
        rw [hf] at hn
        have := hall g' (List.mem_of_find?_eq_some hf)
        simp only [Option.map_some, Option.getD_some] at hn
        rw [hn] at this; simp at this
    obtain ⟨e, he'⟩ := List.exists_mem_of_ne_nil _ hs
    have := hall _ (group_mem code e he')
    rw [List.any_eq_true] at this
    obtain ⟨x, hx, hx'⟩ := this
    obtain ⟨a, b⟩ := x
    have : a = q! "AddressFormat" := by simpa using hx'
    subst this
    exact h2 b hx
  · exact ht _ (group_mem code _ h1) _ h1 h2

private theorem every_group : ∀ g ∈ shippedGroups, (g.2.any fun e => e.1 = q! "AddressFormat") = true := by decide +kernel

/-- Every format, for every country code, mentions name, organization and street. -/
theorem C74_mentions (E : FormatEnv) (h : Shipped E) (code : QString) (latin business : Bool) :
    ∀ f ∈ [AField.name, .organization, .streetAddress], FormatElem.field f ∈ (E.formatForCountry code latin business).elements := by
  refine table (fun _ es => ∀ f ∈ [AField.name, .organization, .streetAddress], FormatElem.field f ∈ es) ?_ ?_ every_group E h code latin business
  · decide +kernel
  · intro _ _; decide

/-- An address of any country, printed in any style but a geo query, shows the name, the organization, the street and the extended address. -/
theorem C74_shown_partial (E : FormatEnv) (h : Shipped E) (hu : ∀ s, E.upper s = [] ↔ s = []) (a : Address) (style : AStyle) (hs : style ≠ .geoUriQuery)
    (name org : QString) :
    ∀ part ∈ [name, org, a.street, a.extended], ShowsPart E style part (a.formatted E style name org) := by
  let business := !(org.isEmpty || style != .postal)
  let A : FormatArgs := ⟨E, a, name, org, E.formatForAddress a business, style⟩
  have ht : a.formatted E style name org = A.text := rfl
  have hm := C74_mentions E h (E.countryFor a) (decide (E.detect a = 0)) business
  have hshow : ∀ f ∈ [AField.name, .organization, .streetAddress], ShowsPart E style (content A f) A.text := by
    intro f hf
    have hp : printsField style f = true := by
      simp only [List.mem_cons, List.not_mem_nil, or_false] at hf
      rcases hf with rfl | rfl | rfl <;> cases style <;> first | rfl | exact absurd rfl hs
    have := C48_fields_printed A hu f (hm f hf) hp
    unfold value at this
    split at this
    · rename_i hc
      refine .inr ⟨?_, this⟩
      simp only [printsUpper, Bool.and_eq_true, Bool.or_eq_true, decide_eq_true_eq] at hc
      exact hc.1.resolve_right hs
    · exact .inl this
  rw [ht]
  have hstreet := hshow .streetAddress (by simp)
  have hnil : ShowsPart E style [] A.text := .inl (List.nil_infix)
  intro part hp
  simp only [List.mem_cons, List.not_mem_nil, or_false] at hp
  rcases hp with rfl | rfl | rfl | rfl
  · exact hshow .name (by simp)
  · exact hshow .organization (by simp)
  · by_cases h0 : a.street = []
    · rw [h0]; exact hnil
    · have : content A .streetAddress = a.street := by simp [content, A, h0]
      rwa [this] at hstreet
  · by_cases h0 : a.extended = []
    · rw [h0]; exact hnil
    · by_cases h1 : a.street = []
      · have : content A .streetAddress = a.extended := by simp [content, A, h1]
        rwa [this] at hstreet
      · have := C48_extended_printed A hu (hm .streetAddress (by simp)) hs h1 h0
        exact .inl (infix_join this)

/-- Where a format is known to need a field (`requiredFields`), the field is part of the format. -/
theorem C74_required (E : FormatEnv) (h : Shipped E) (code : QString) (latin business : Bool) (f : AField)
    (hr : hasField (E.formatForCountry code latin business).required f = true) :
    FormatElem.field f ∈ (E.formatForCountry code latin business).elements := by
  have hreq : ∃ v, (v = [] ∨ ∃ k, (k, v) ∈ shippedGroup code ∧ plainKey k = q! "Required") ∧ hasField (parseFields v) f = true := by
    refine ⟨E.entry code (q! "Required"), ?_, hr⟩
    obtain ⟨langs, hE⟩ := h
    unfold FormatEnv.entry
    rw [hE]
    cases hs : shippedEntry langs code (q! "Required") with
    | none => exact .inl rfl
    | some v => exact .inr (entry_mem langs code _ v (by decide) hs)
  obtain ⟨v, hv, hf⟩ := hreq
  rcases hv with rfl | ⟨k, hk, hk'⟩
  · exact absurd hf (by simp [parseFields, hasField])
  · have hin := group_mem code _ hk
    -- the format belongs to the same group
    rcases chosen E h code latin business with ⟨_, h2⟩ | ⟨k2, h1, h2⟩
    · have := every_group _ hin
      rw [List.any_eq_true] at this
      obtain ⟨⟨x, y⟩, hx, hx'⟩ := this
      have : x = q! "AddressFormat" := by simpa using hx'
      subst this
      exact absurd hx (h2 y)
    · have all : ∀ g ∈ shippedGroups, ∀ r ∈ g.2, plainKey r.1 = q! "Required" → ∀ e ∈ g.2, plainKey e.1 ∈ formatKeys →
          ∀ f ∈ [AField.country, .region, .locality, .dependentLocality, .sortingCode, .postalCode, .streetAddress, .organization, .name, .postOfficeBox],
          hasField (parseFields r.2) f = true → FormatElem.field f ∈ parseElements e.2 := by decide +kernel
      exact all _ hin _ hk hk' _ h1 h2 f (by cases f <;> decide) hf

/-- No format mentions a field twice (the sorting code, for which addresses have nothing, aside). -/
theorem C74_once (E : FormatEnv) (h : Shipped E) (code : QString) (latin business : Bool) (f : AField) (hf : f ≠ .sortingCode) :
    (E.formatForCountry code latin business).elements.count (.field f) ≤ 1 := by
  have := table (fun _ es => ∀ f ∈ [AField.country, .region, .locality, .dependentLocality, .postalCode, .streetAddress, .organization, .name, .postOfficeBox],
    es.count (.field f) ≤ 1) (by decide +kernel) (by intro _ _; decide) every_group E h code latin business
  exact this f (by cases f <;> first | decide | exact absurd rfl hf)

/-- The locality is part of the format for every country but these six. -/
theorem C74_locality (E : FormatEnv) (h : Shipped E) (code : QString) (latin business : Bool) :
    FormatElem.field .locality ∈ (E.formatForCountry code latin business).elements ↔
      code ∉ [q! "AE", q! "GI", q! "KY", q! "MO", q! "NR", q! "SG"] := by
  refine table (fun code es => FormatElem.field .locality ∈ es ↔ code ∉ [q! "AE", q! "GI", q! "KY", q! "MO", q! "NR", q! "SG"])
    (by decide +kernel) ?_ every_group E h code latin business
  intro code hc
  refine iff_of_true (by decide) ?_
  intro hm
  have : ∀ c ∈ [q! "AE", q! "GI", q! "KY", q! "MO", q! "NR", q! "SG"], ∃ g ∈ shippedGroups, g.1 = c := by decide +kernel
  obtain ⟨g, hg, he⟩ := this code hm
  exact hc g hg he

/-- The postal code is part of the format for every country but these. -/
theorem C74_postal_code (E : FormatEnv) (h : Shipped E) (code : QString) (latin business : Bool) :
    FormatElem.field .postalCode ∈ (E.formatForCountry code latin business).elements ↔
      code ∉ [q! "AE", q! "BF", q! "BS", q! "CI", q! "HK", q! "JM", q! "KI", q! "KN", q! "MO", q! "MW", q! "NR", q! "PA", q! "SC", q! "SR", q! "TV"] := by
  refine table (fun code es => FormatElem.field .postalCode ∈ es ↔
      code ∉ [q! "AE", q! "BF", q! "BS", q! "CI", q! "HK", q! "JM", q! "KI", q! "KN", q! "MO", q! "MW", q! "NR", q! "PA", q! "SC", q! "SR", q! "TV"])
    (by decide +kernel) ?_ every_group E h code latin business
  intro code hc
  refine iff_of_true (by decide) ?_
  intro hm
  have : ∀ c ∈ [q! "AE", q! "BF", q! "BS", q! "CI", q! "HK", q! "JM", q! "KI", q! "KN", q! "MO", q! "MW", q! "NR", q! "PA", q! "SC", q! "SR", q! "TV"],
      ∃ g ∈ shippedGroups, g.1 = c := by decide +kernel
  obtain ⟨g, hg, he⟩ := this code hm
  exact hc g hg he

/-! ### Examples and counterexamples -/

/-- The shipped formats for a user in Germany. -/
def shippedEnv : FormatEnv :=
  { sampleFormatEnv with
    config := shippedEntry [q! "de"]
    fromAlpha2 := fun c => some c
    fromName := fun _ => none }

example : Shipped shippedEnv ∧ (∀ s, shippedEnv.upper s = [] ↔ s = []) :=
  ⟨⟨_, rfl⟩, fun s => by simp [shippedEnv, sampleFormatEnv, toUpperQ]⟩

/-- The property fails for other parts of an address: the town of an address in the Emirates, and the post office box of one in Poland, are not shown. -/
theorem C74_false :
    ({ id := [], street := q! "Ring 1", locality := q! "Dubai", country := q! "AE" } : Address).formatted shippedEnv .multiLineDomestic (q! "Ann") []
      = q! "Ann\nRing 1" ∧
    ({ id := [], postOfficeBox := q! "17", postalCode := q! "00-950", locality := q! "Warszawa", country := q! "PL" } : Address).formatted shippedEnv
      .multiLineDomestic (q! "Ann") [] = q! "Ann\n00-950 Warszawa" := by
  decide +kernel

/-- A Swiss address for a user who reads German: the entry for the language is used. -/
example :
    ({ id := [], postOfficeBox := q! "17", postalCode := q! "3000", locality := q! "Bern", country := q! "CH" } : Address).formatted shippedEnv
      .multiLineDomestic (q! "Ann") [] = q! "Ann\nPostfach 17\n3000 Bern" := by
  decide +kernel

end KC
