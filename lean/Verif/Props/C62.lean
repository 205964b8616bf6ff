import Verif.Lemmas.AddressFormat
/-
  C62. The address format of a country is the most specific one that is configured for the requested script and kind of address, with a usable default
  for every country; its required and upper-case fields are those listed for the country; the format for an address is that of the country it
  names, by code or by name, or else of the user's country.
-/
namespace KC
open Spec

/-- The entries looked at, most specific first. -/
def Spec.formatEntries (latin business : Bool) : List QString :=
  (if latin && business then [q! "LatinBusinessAddressFormat"] else []) ++ (if latin then [q! "LatinAddressFormat"] else [])
    ++ (if business then [q! "BusinessAddressFormat"] else [])

/-- The format string is the first non-empty entry among those; if there is none, the general entry, and if that is missing, the default. -/
theorem C62_format_string (E : FormatEnv) (code : QString) (latin business : Bool) :
    E.formatString code latin business
      = (((formatEntries latin business).map (E.entry code)).find? (· ≠ [])).getD ((E.config code (q! "AddressFormat")).getD defaultFormat) := by
  have hi : ∀ s : QString, s.isEmpty = decide (s = []) := fun s => by cases s <;> rfl
  unfold FormatEnv.formatString formatEntries
  simp only [hi]
  cases latin <;> cases business
  · simp
  · by_cases h : E.entry code (q! "BusinessAddressFormat") = [] <;> simp [h]
  · by_cases h : E.entry code (q! "LatinAddressFormat") = [] <;> simp [h]
  · by_cases h1 : E.entry code (q! "LatinBusinessAddressFormat") = [] <;> by_cases h2 : E.entry code (q! "LatinAddressFormat") = [] <;>
      by_cases h3 : E.entry code (q! "BusinessAddressFormat") = [] <;> simp [h1, h2, h3]

/-- A country without entries gets a format with name, organization, street, post office box, locality, region and postal code. -/
theorem C62_default (E : FormatEnv) (code : QString) (latin business : Bool) (h : ∀ key, E.config code key = none) :
    (E.formatForCountry code latin business).elements
      = [.field .name, .sep, .field .organization, .sep, .field .streetAddress, .sep, .lit (q! "PO BOX "), .field .postOfficeBox, .sep,
         .field .locality, .lit (q! " "), .field .region, .lit (q! " "), .field .postalCode]
    ∧ (E.formatForCountry code latin business).required = 0 ∧ (E.formatForCountry code latin business).upper = 0 := by
  have he : ∀ key, E.entry code key = [] := fun key => by simp [FormatEnv.entry, h]
  have hs : E.formatString code latin business = defaultFormat := by
    rw [C62_format_string]
    have : ((formatEntries latin business).map (E.entry code)).find? (· ≠ []) = none := by
      rw [List.find?_eq_none]
      intro x hx
      obtain ⟨k, _, hk⟩ := List.mem_map.1 hx
      rw [← hk, he]; simp
    rw [this, h]; rfl
  refine ⟨?_, ?_, ?_⟩
  · show parseElements (E.formatString code latin business) = _
    rw [hs]; decide
  · show parseFields (E.entry code _) = 0
    rw [he]; rfl
  · show parseFields (E.entry code _) = 0
    rw [he]; rfl

/-- The required and the upper-case fields are the listed ones, the country is the one asked for and the
    postal code format the configured one. -/
theorem C62_required_upper (E : FormatEnv) (code : QString) (latin business : Bool) (f : AField) :
    (hasField (E.formatForCountry code latin business).required f = true ↔ f.letter ∈ (E.config code (q! "Required")).getD [])
    ∧ (hasField (E.formatForCountry code latin business).upper f = true ↔ f.letter ∈ (E.config code (q! "Upper")).getD [])
    ∧ (E.formatForCountry code latin business).country = code
    ∧ (E.formatForCountry code latin business).postalCodeFormat = (E.config code (q! "PostalCodeFormat")).getD [] :=
  ⟨parseFields_iff _ f, parseFields_iff _ f, rfl, rfl⟩

/-- The country of an address: its two-letter code if that is one, otherwise its name, otherwise the user's country. -/
theorem C62_country (E : FormatEnv) (a : Address) :
    (∀ c, a.country.length = 2 → E.fromAlpha2 a.country = some c → E.countryFor a = c)
    ∧ (∀ c, (a.country.length = 2 → E.fromAlpha2 a.country = none) → E.fromName a.country = some c → E.countryFor a = c)
    ∧ ((a.country.length = 2 → E.fromAlpha2 a.country = none) → E.fromName a.country = none → E.countryFor a = E.ownCountry) := by
  refine ⟨fun c h1 h2 => by simp [FormatEnv.countryFor, h1, h2], fun c h1 h2 => ?_, fun h1 h2 => ?_⟩
  · by_cases h : a.country.length = 2
    · simp [FormatEnv.countryFor, h1 h, h2]
    · simp [FormatEnv.countryFor, h, h2]
  · by_cases h : a.country.length = 2
    · simp [FormatEnv.countryFor, h1 h, h2]
    · simp [FormatEnv.countryFor, h, h2]

/-- The script of an address is Latin-like exactly if no character of its street and locality is of another class. -/
theorem C62_script (E : FormatEnv) (a : Address) : E.detect a = 0 ↔ (∀ c ∈ a.street, E.script c = 0) ∧ ∀ c ∈ a.locality, E.script c = 0 := by
  have hd : ∀ s : QString, E.detectText s = 0 ↔ ∀ c ∈ s, E.script c = 0 := by
    intro s
    induction s with
    | nil => simp [FormatEnv.detectText]
    | cons c r ih =>
      rw [FormatEnv.detectText]
      by_cases h : E.script c = 0
      · simp [h, ih]
      · simp [h]
  rw [← hd, ← hd]
  unfold FormatEnv.detect
  split
  · rename_i h
    constructor
    · intro h0; rw [h0] at h; exact absurd h (by simp)
    · exact fun h0 => h0.2
  · rename_i h
    constructor
    · intro h0
      refine ⟨h0, ?_⟩
      rw [h0] at h
      simpa using h
    · exact fun h0 => h0.1

/-- The format for an address: that of its country, in Latin script exactly if no character of its street and locality is of another class. -/
theorem C62_address (E : FormatEnv) (a : Address) (business latin : Bool)
    (hl : latin = true ↔ ∀ c ∈ a.street ++ a.locality, E.script c = 0) : E.formatForAddress a business = E.formatForCountry (E.countryFor a) latin business := by
  have h : decide (E.detect a = 0) = latin := by
    rw [Bool.eq_iff_iff, decide_eq_true_iff, C62_script, hl]
    simp only [List.mem_append]
    exact ⟨fun h c hc => hc.elim (h.1 c) (h.2 c), fun h => ⟨fun c hc => h c (.inl hc), fun c hc => h c (.inr hc)⟩⟩
  rw [FormatEnv.formatForAddress, h]

/-- The class of an address' script: that of the first character of the street that is not Latin-like, or of the locality, whichever is later in the list
    Latin-like, Arabic, Han, Hangul and Thai. -/
theorem C62_script_class (E : FormatEnv) (a : Address) :
    (E.detect a).val = max (((a.street.map E.script).find? (· ≠ 0)).getD 0).val (((a.locality.map E.script).find? (· ≠ 0)).getD 0).val := by
  have hd : ∀ s : QString, E.detectText s = ((s.map E.script).find? (· ≠ 0)).getD 0 := by
    intro s
    induction s with
    | nil => rfl
    | cons c r ih =>
      rw [FormatEnv.detectText, List.map_cons, List.find?_cons]
      by_cases h : E.script c = 0
      · simpa [h] using ih
      · simp [h]
  rw [← hd, ← hd]
  unfold FormatEnv.detect
  split
  · rename_i h; rw [Fin.lt_def] at h; omega
  · rename_i h; rw [Fin.lt_def] at h; omega

/-- Witness: a country with a general and a Latin format. -/
def sampleConfig : FormatEnv where
  config code key :=
    if code ≠ q! "JP" then none
    else if key = q! "AddressFormat" then some (q! "%R%n%Z%n%S")
    else if key = q! "LatinAddressFormat" then some (q! "%N%n%S, %Z")
    else if key = q! "Required" then some (q! "ASZ")
    else none
  fromAlpha2 c := if c = q! "JP" then some c else none
  fromName n := if n = q! "Japan" then some (q! "JP") else none
  ownCountry := q! "DE"
  countryName _ := []
  upper := id
  script c := if c = 0x6771 then 2 else 0

example : sampleConfig.formatString (q! "JP") true true = q! "%N%n%S, %Z" ∧ sampleConfig.formatString (q! "JP") false true = q! "%R%n%Z%n%S"
    ∧ sampleConfig.formatString (q! "DE") true true = defaultFormat := by decide

example : sampleConfig.countryFor { id := [], country := q! "JP" } = q! "JP" ∧ sampleConfig.countryFor { id := [], country := q! "Japan" } = q! "JP"
    ∧ sampleConfig.countryFor { id := [], country := q! "XX" } = q! "DE"
    ∧ sampleConfig.detect { id := [], street := q! "a", locality := [0x6771] } = 2 := by decide

/-- An address in Latin script, and one with a Han character in its locality. -/
example : sampleConfig.formatForAddress { id := [], street := q! "a", country := q! "Japan" } false = sampleConfig.formatForCountry (q! "JP") true false
    ∧ sampleConfig.formatForAddress { id := [], street := q! "a", locality := [0x6771], country := q! "Japan" } false
      = sampleConfig.formatForCountry (q! "JP") false false :=
  ⟨C62_address sampleConfig _ false true (by decide), C62_address sampleConfig _ false false (by decide)⟩

end KC
