import Verif.Lemmas.AddressFormatter
/-
  C48. Formatting an address by any address format prints each included non-empty field the format mentions, prints nothing for empty fields,
  and never prints an empty line unless the format asks for one.
  (`Spec/AddressFormat`: `printsField`, `present`, `value`, `lineText`, `linesFrom`.)

  Every argument of the formatter is arbitrary: address, name, organization, format, style, and the outside world (countries, scripts,
  upper-casing); of upper-casing only `UpperKeeps` is assumed.

  Not true as stated:
  * a country that is not known makes the formatter print the user's own country, or an empty line (`C48_wrong_country_false`,
    `C48_blank_line_false`);
  * a geo query prints the extended address for an empty street although it counts as empty (`C48_geo_extended_false`).
-/
namespace KC
open Spec

/-- What is printed, line by line of the format (without the country that some styles add). -/
theorem C48_lines (A : FormatArgs) (hu : UpperKeeps A) : A.bodyLines = linesFrom A true (splitOn .sep A.format.elements) :=
  bodyLines_spec A hu

/-- Every field the format mentions and the style prints is in the text, in upper case where the style and the format say so. -/
theorem C48_fields_printed (A : FormatArgs) (hu : UpperKeeps A) (f : AField) (hm : FormatElem.field f ∈ A.format.elements)
    (hp : printsField A.style f = true) : value A f <:+: A.text := value_infix hu hm hp

/-- The extended address gets a line of its own, if there is a street as well and the format mentions the street. (Without a street it is printed
    in the street's place, by `C48_fields_printed`.) -/
theorem C48_extended_printed (A : FormatArgs) (hu : UpperKeeps A) (hm : FormatElem.field .streetAddress ∈ A.format.elements)
    (hs : A.style ≠ .geoUriQuery) (h1 : A.a.street ≠ []) (h2 : A.a.extended ≠ []) : A.a.extended ∈ A.allLines := by
  have hp : printsField A.style .streetAddress = true := by cases h : A.style <;> first | rfl | exact absurd h hs
  exact extended_mem hu hm hp (by simp [twoStreetLines, h1, h2, hs])

/-- The styles with a country print it, whether the format mentions it or not. -/
theorem C48_country_printed (A : FormatArgs) (hu : UpperKeeps A) (hc : A.a.country ≠ [])
    (hs : A.style ∈ [AStyle.multiLineInternational, .singleLineInternational, .geoUriQuery]) : value A .country <:+: A.text := by
  by_cases hm : FormatElem.field .country ∈ A.format.elements
  · refine value_infix hu hm ?_
    simp only [List.mem_cons, List.not_mem_nil, or_false] at hs
    rcases hs with h | h | h <;> rw [h] <;> rfl
  · have ha : A.addCountry = true := (addCountry_iff A).2 ⟨hc, .inr ⟨hs, hm⟩⟩
    have hp : A.style ≠ .postal := by intro h; rw [h] at hs; simp at hs
    refine infix_join (ls := A.allLines) ?_
    rw [allLines_country A ha hp]
    simp

/-- It is printed once more as the last line only if the format does not mention it; the domestic styles do not print it. -/
theorem C48_country_lines (A : FormatArgs) (hs : A.style ≠ .postal) :
    A.allLines = A.bodyLines ++ (if A.a.country ≠ [] ∧ A.style ∈ [AStyle.multiLineInternational, .singleLineInternational, .geoUriQuery]
      ∧ FormatElem.field .country ∉ A.format.elements then [value A .country] else []) := by
  cases h : A.addCountry with
  | true =>
    have := (addCountry_iff A).1 h
    rw [allLines_country A h hs, if_pos ⟨this.1, (this.2.resolve_left hs).1, (this.2.resolve_left hs).2⟩]
  | false =>
    rw [allLines_eq A h, if_neg, List.append_nil]
    rintro ⟨h1, h2, h3⟩
    have := (addCountry_iff A).2 ⟨h1, .inr ⟨h2, h3⟩⟩
    rw [h] at this
    cases this

/-- A postal address has the country apart, after a blank line, or first where the sender's country writes it first. -/
theorem C48_postal_country (A : FormatArgs) (hs : A.style = .postal) :
    let source := A.E.formatForCountry A.E.ownCountry false false
    let c := if hasField source.upper .country then A.E.upper (countryText A) else countryText A
    A.allLines = if A.a.country = [] then A.bodyLines else if A.bodyLines = [] then [c]
      else if countryFirst source then [c, []] ++ A.bodyLines else A.bodyLines ++ [[], c] := by
  intro source c
  rw [countryFirst_eq]
  by_cases hc : A.a.country = []
  · rw [if_pos hc]
    refine allLines_eq A ?_
    cases h : A.addCountry with
    | false => rfl
    | true => exact absurd hc ((addCountry_iff A).1 h).1
  · have h := (addCountry_iff A).2 ⟨hc, .inl hs⟩
    rw [if_neg hc]
    have hup : A.style.data.honorUpper = true := by rw [hs]; rfl
    simp only [FormatArgs.allLines, h, if_true, hs, hup, Bool.true_and, countryName_eq]
    rw [show AStyle.postal.data.honorUpper = true from rfl, Bool.true_and]
    by_cases hb : A.bodyLines = []
    · rw [hb]; cases hr : source.isReverseOrder <;> simp [c, source]
    · have hb' : A.bodyLines.isEmpty = false := by cases h : A.bodyLines <;> simp_all
      rw [hb']
      cases hr : source.isReverseOrder <;> simp_all [c, source]

/-- Nothing is printed for fields that are empty: a line of the format with fields all of which are absent (empty, or not printed by the style)
    is left out altogether, with its literals. A literal that begins such a line has to be directly before a field (as in all formats of
    addressformatrc), and in a geo query the extended address must not stand in for the street. -/
theorem C48_absent_fields_partial (A : FormatArgs) (hu : UpperKeeps A) (hg : A.style = .geoUriQuery → A.a.street = [] → A.a.extended = [])
    (seg : List FormatElem) (hf : ∃ f, FormatElem.field f ∈ seg) (ha : ∀ f, FormatElem.field f ∈ seg → present A f = false)
    (hl : ∀ l r, seg = .lit l :: r → ∃ f r', r = .field f :: r') : segmentLines A false seg = [] :=
  segment_absent hu hg hf ha hl

/-- And an absent field in a line with other fields prints nothing itself. -/
theorem C48_absent_field_partial (A : FormatArgs) (hu : UpperKeeps A) (hg : A.style = .geoUriQuery → A.a.street = [] → A.a.extended = [])
    (pre post : List FormatElem) (f : AField) (ha : present A f = false) : piece A pre (.field f) post = [] := by
  rw [piece]
  split
  · exact absent_value hu hg ‹_› ha
  · rfl

/-- No line of the body is empty unless the format has two separators in a row and the style has several lines. -/
theorem C48_no_empty_line (A : FormatArgs) (hu : UpperKeeps A) (hs : multiLine A.style = false ∨ ¬ [FormatElem.sep, .sep] <:+: A.format.elements) :
    ∀ l ∈ A.bodyLines, l ≠ [] := fun _ hl => bodyLines_ne hu hs hl

/-- The text of a multi-line style has no empty line, when the format asks for none, no field has a line break, and the country (if it is added) has
    a name. For postal addresses with a country see `C48_postal_country`. -/
theorem C48_no_blank_line_partial (A : FormatArgs) (hu : UpperKeeps A) (hm : multiLine A.style = true)
    (hs : ¬ [FormatElem.sep, .sep] <:+: A.format.elements) (hp : A.style = .postal → A.a.country = [])
    (hc : A.a.country ≠ [] → countryText A ≠ [])
    (hv : ∀ f, 10 ∉ value A f) (he : 10 ∉ A.a.extended) (hl : ∀ l, FormatElem.lit l ∈ A.format.elements → 10 ∉ l) (hn : A.text ≠ []) :
    ∀ l ∈ splitOn 10 A.text, l ≠ [] := by
  have hsep : A.separatorText = [10] := by
    unfold FormatArgs.separatorText
    rw [of_decide_eq_true ((newline_eq A.style).trans hm)]
  have hb := C48_no_empty_line A hu (.inr hs)
  have hchars : ∀ l ∈ A.bodyLines, 10 ∉ l := by
    intro l h1 h2
    rcases bodyLines_chars hu h1 h2 with ⟨f, h⟩ | ⟨l, h, h'⟩ | h
    · exact hv f h
    · exact hl l h h'
    · exact he h
  have hall : ∀ l ∈ A.allLines, l ≠ [] ∧ 10 ∉ l := by
    cases h : A.addCountry with
    | false => rw [allLines_eq A h]; exact fun l h' => ⟨hb l h', hchars l h'⟩
    | true =>
      have hco := ((addCountry_iff A).1 h).1
      rw [allLines_country A h (fun hps => hco (hp hps))]
      intro l h'
      rcases List.mem_append.1 h' with h' | h'
      · exact ⟨hb l h', hchars l h'⟩
      · rw [List.mem_singleton.1 h']
        exact ⟨value_ne hu (hc hco), hv .country⟩
  have hne : A.allLines ≠ [] := by intro h; apply hn; rw [FormatArgs.text, h, join]
  rw [FormatArgs.text, hsep, splitOn_join hne (fun v h => (hall v h).2)]
  exact fun l h => (hall l h).1

/-- An address whose country is not known is printed with the user's own country. -/
theorem C48_unknown_country (E : FormatEnv) (hu : ∀ s, E.upper s = [] ↔ s = []) (a : Address) (name org : QString) (h1 : E.fromAlpha2 a.country = none)
    (h2 : E.fromName a.country = none) (hc : a.country ≠ []) : E.countryName E.ownCountry <:+: a.formatted E .multiLineInternational name org := by
  have hf : E.countryFor a = E.ownCountry := by simp [FormatEnv.countryFor, h1, h2]
  have := C48_country_printed ⟨E, a, name, org, E.formatForAddress a (!(org.isEmpty || AStyle.multiLineInternational != .postal)), .multiLineInternational⟩
    hu hc (by simp)
  have hv : value ⟨E, a, name, org, E.formatForAddress a (!(org.isEmpty || AStyle.multiLineInternational != .postal)), .multiLineInternational⟩ .country
      = E.countryName E.ownCountry := by
    simp [value, printsUpper, content, countryText, hc, FormatEnv.formatForAddress, FormatEnv.formatForCountry, hf]
  rw [hv] at this
  exact this

/-! ### Where it fails, and witnesses -/

/-- A small world: two countries, the second of them the user's. -/
def sampleFormatEnv : FormatEnv where
  config code key :=
    if code = q! "DE" ∧ key = q! "AddressFormat" then some (q! "%N%n%O%n%A%n%Z %C")
    else if code = q! "JP" ∧ key = q! "AddressFormat" then some (q! "%R%n#%Z%n%S%C%A%n%O%n%N")
    else if code = q! "DE" ∧ key = q! "Upper" then some (q! "CR")
    else none
  fromAlpha2 c := if c = q! "DE" ∨ c = q! "JP" then some c else none
  fromName n := if n = q! "Germany" then some (q! "DE") else if n = q! "Japan" then some (q! "JP") else none
  ownCountry := q! "DE"
  countryName c := if c = q! "DE" then q! "Germany" else if c = q! "JP" then q! "Japan" else []
  upper := toUpperQ
  script _ := 0

/-- The same world for a user without a country. -/
def stateless : FormatEnv := { sampleFormatEnv with ownCountry := [] }

def sampleAddress : Address :=
  { id := q! "a", street := q! "Ring 1", extended := q! "c/o Bo", locality := q! "Ulm", postalCode := q! "89073", country := q! "Germany" }

example : sampleAddress.formatted sampleFormatEnv .multiLineInternational (q! "Ann") [] = q! "Ann\nc/o Bo\nRing 1\n89073 Ulm\nGermany"
    ∧ sampleAddress.formatted sampleFormatEnv .postal (q! "Ann") [] = q! "Ann\nc/o Bo\nRing 1\n89073 ULM\n\nGERMANY"
    ∧ sampleAddress.formatted sampleFormatEnv .geoUriQuery (q! "Ann") [] = q! "Ring 1,89073 ULM,DE"
    ∧ { sampleAddress with country := q! "Japan", postalCode := [] }.formatted sampleFormatEnv .singleLineInternational (q! "Ann") []
      = q! "Japan, UlmRing 1, c/o Bo, Ann" := by
  decide +kernel

/-- An unknown country: the address says Nowhere, the text says Germany. -/
theorem C48_wrong_country_false :
    { sampleAddress with country := q! "Nowhere" }.formatted sampleFormatEnv .multiLineInternational (q! "Ann") []
      = q! "Ann\nc/o Bo\nRing 1\n89073 Ulm\nGermany" := by
  decide +kernel

/-- The lines are separated by line breaks, in a geo query by commas, and on a single line by what is usual in the script of the address: comma and space, the
    Arabic comma and a space, nothing for Han, a space for Hangul and Thai. -/
theorem C48_separators (A : FormatArgs) : A.text = join (if multiLine A.style then [10] else if A.style = .geoUriQuery then q! "," else
    [q! ", ", [0x60c, qc! ' '], [], q! " "].getD (A.E.detect A.a).val []) A.allLines := by
  unfold FormatArgs.text FormatArgs.separatorText
  have hn : ∀ i : Fin 4, nativeSeparator i = [q! ", ", [0x60c, qc! ' '], [], q! " "].getD i.val [] := by decide
  cases h : A.style <;> first | rfl | exact congrArg (fun x => join x A.allLines) (hn _)

/-- The business format is used for a postal address with an organization. -/
theorem C48_business (E : FormatEnv) (a : Address) (style : AStyle) (name org : QString) :
    a.formatted E style name org = FormatArgs.text ⟨E, a, name, org, E.formatForAddress a (decide (style = .postal ∧ org ≠ [])), style⟩ := by
  unfold Address.formatted
  have : (!(org.isEmpty || style != .postal)) = decide (style = .postal ∧ org ≠ []) := by cases org <;> cases style <;> rfl
  rw [this]

/-- An unknown country of a user without a country: the text ends in an empty line, which the format does not ask for. -/
theorem C48_blank_line_false :
    { sampleAddress with country := q! "Nowhere" }.formatted stateless .multiLineInternational [] []
      = q! "c/o Bo\nRing 1\nUlm 89073\n" := by
  decide +kernel

/-- A geo query prints the extended address if there is no street, although the literal before it is left out as before an empty field. -/
theorem C48_geo_extended_false :
    let A : FormatArgs := ⟨sampleFormatEnv, { sampleAddress with street := [] }, [], [],
      { elements := parseElements (q! "at %A"), required := 0, upper := 0, postalCodeFormat := [], country := q! "DE" }, .geoUriQuery⟩
    present A .streetAddress = false ∧ A.bodyLines = [q! "c/o Bo"] := by
  decide +kernel

/-- The extended address is printed before what is already on the street's line. -/
example :
    let A : FormatArgs := ⟨sampleFormatEnv, sampleAddress, q! "Ann", [],
      { elements := parseElements (q! "%N, %A"), required := 0, upper := 0, postalCodeFormat := [], country := q! "DE" }, .multiLineDomestic⟩
    A.text = q! "c/o Bo\nAnn, Ring 1" := by
  decide +kernel

/-- A format that asks for an empty line gets one in the multi-line styles only. -/
example :
    let A : AStyle → FormatArgs := fun style => ⟨sampleFormatEnv, sampleAddress, q! "Ann", [],
      { elements := parseElements (q! "%N%n%n%C"), required := 0, upper := 0, postalCodeFormat := [], country := q! "DE" }, style⟩
    (A .multiLineDomestic).text = q! "Ann\n\nUlm" ∧ (A .singleLineDomestic).text = q! "Ann, Ulm" := by
  decide +kernel

theorem sample_upperKeeps (a : Address) (n o : QString) (F : AddressFormat) (st : AStyle) : UpperKeeps ⟨sampleFormatEnv, a, n, o, F, st⟩ := by
  intro s
  simp [sampleFormatEnv, toUpperQ]

end KC
