import Verif.Lemmas.GeoLink
import Verif.Props.C50
import Verif.Props.C74
/-
  C88: the map link of an address leads to its place.
-/
namespace KC
open Spec

private theorem fin_notTiny (n : Int) : NotTiny (.fin n) ↔ (n = 0 ∨ 1999999 * 2 ^ 149 ≤ 20000000000 * n.natAbs) := by
  have hd : (0 : ℚ) < 2 ^ 149 := by positivity
  unfold NotTiny degrees
  refine or_congr ?_ ?_
  · rw [div_eq_zero_iff]
    constructor
    · rintro (h | h)
      · exact_mod_cast h
      · exact absurd h hd.ne'
    · rintro rfl; simp
  · rw [abs_div, abs_of_pos hd, le_div_iff₀ hd, ← Int.cast_abs, ← Nat.cast_natAbs]
    have e : (1 / 10000 - 1 / 20000000000 : ℚ) = 1999999 / 20000000000 := by norm_num
    rw [e, div_mul_eq_mul_div, div_le_iff₀ (by norm_num)]
    constructor
    · intro h
      have : (1999999 * 2 ^ 149 : ℚ) ≤ 20000000000 * n.natAbs := by rw [mul_comm (20000000000 : ℚ)]; exact h
      exact_mod_cast this
    · intro h
      have : (1999999 * 2 ^ 149 : ℚ) ≤ 20000000000 * n.natAbs := by exact_mod_cast h
      rw [mul_comm (20000000000 : ℚ)] at this
      exact this

/-- The link of an address with a position: latitude, comma, longitude; whatever else the address says is not used. -/
theorem C88_position (E : FormatEnv) (a : Address) (h : a.geo.isValid = true) :
    (a.geoUri E).scheme = q! "geo" ∧ (a.geoUri E).query = [] ∧ (a.geoUri E).path = a.geo.latitude.numberText ++ q! "," ++ a.geo.longitude.numberText := by
  unfold Address.geoUri
  rw [if_pos h]
  exact ⟨rfl, rfl, rfl⟩

/-- Both coordinates of a position, however it came to be, are in the link as numbers right to six digits, provided they are not tiny. -/
theorem C88_coordinates_partial (E : FormatEnv) (a : Address) (ops : List GeoOp) (hg : a.geo = geoHistory ops) (h : a.geo.isValid = true)
    (h1 : NotTiny a.geo.latitude) (h2 : NotTiny a.geo.longitude) :
    ∃ s t x y, (a.geoUri E).scheme = q! "geo" ∧ (a.geoUri E).query = [] ∧ (a.geoUri E).path = s ++ q! "," ++ t ∧
      WritesNumber s x ∧ CloseTo x (degrees a.geo.latitude) ∧ |degrees a.geo.latitude| ≤ 90 ∧
      WritesNumber t y ∧ CloseTo y (degrees a.geo.longitude) ∧ |degrees a.geo.longitude| ≤ 180 := by
  obtain ⟨hs, hq, hp⟩ := C88_position E a h
  rw [hg] at h
  obtain ⟨⟨m, hm, hm1, hm2⟩, ⟨n, hn, hn1, hn2⟩⟩ := C50_valid_in_range ops h
  rw [← hg] at hm hn
  rw [hm] at h1 ⊢
  rw [hn] at h2 ⊢
  obtain ⟨x, hx, hx'⟩ := numberText_writes m ((fin_notTiny m).1 h1)
  obtain ⟨y, hy, hy'⟩ := numberText_writes n ((fin_notTiny n).1 h2)
  have bound : ∀ (k b : Int), -b * 2 ^ 149 ≤ k → k ≤ b * 2 ^ 149 → |(k : ℚ) / 2 ^ 149| ≤ (b : ℚ) := by
    intro k b hb1 hb2
    have hd : (0 : ℚ) < 2 ^ 149 := by positivity
    rw [abs_div, abs_of_pos hd, div_le_iff₀ hd, abs_le]
    have hb1' : (-b * 2 ^ 149 : ℚ) ≤ k := by exact_mod_cast hb1
    have hb2' : (k : ℚ) ≤ b * 2 ^ 149 := by exact_mod_cast hb2
    constructor <;> linarith
  refine ⟨numberText m, numberText n, x, y, hs, hq, ?_, hx, hx', ?_, hy, hy', ?_⟩
  · rw [hp, hm, hn]; rfl
  · simpa [degrees] using bound m 90 hm1 hm2
  · simpa [degrees] using bound n 180 hn1 hn2

/-- Exactly the coordinates that are not tiny are numbers as links have them. -/
theorem C88_number_iff (n : Int) : (∃ x, WritesNumber (Flt.fin n).numberText x) ↔ NotTiny (.fin n) := by
  constructor
  · rintro ⟨x, hx⟩
    by_contra hc
    exact numberText_exponent n (fun h => hc ((fin_notTiny n).2 h)) x hx
  · intro h
    obtain ⟨x, hx, _⟩ := numberText_writes n ((fin_notTiny n).1 h)
    exact ⟨x, hx⟩

/-- The float nearest to 0.00001 is written with an exponent, which a link to a place does not allow. -/
theorem C88_exponent_false :
    let x : Flt := .fin (10995116 * 2 ^ 109)
    let a : Address := { id := [], geo := (({} : Geo).setLatitude x).setLongitude (.ofInt 10) }
    a.geo.isValid = true ∧ (a.geoUri sampleFormatEnv).path = q! "1e-05,10" ∧ ∀ y, ¬ WritesNumber x.numberText y := by
  refine ⟨by decide +kernel, by decide +kernel, fun y hy => ?_⟩
  have hn : ¬ NotTiny (.fin (10995116 * 2 ^ 109)) := by
    rw [fin_notTiny]
    decide +kernel
  exact hn ((C88_number_iff _).1 ⟨y, hy⟩)

/-- Without a position the link is a search. With the formats shipped, for any country: the search has the street (or, without a street, the extended address),
    the locality and the postal code where the country's format has them, and the code of the country. -/
theorem C88_search_partial (E : FormatEnv) (hE : Shipped E) (hu : ∀ s, E.upper s = [] ↔ s = []) (a : Address) (h : a.geo.isValid = false) (he : a.empty = false) :
    ∃ text, a.geoUri E = { scheme := q! "geo", path := q! "0,0", query := [(q! "q", text)] } ∧
      SearchShows E (if a.street = [] then a.extended else a.street) text ∧
      (E.countryFor a ∉ [q! "AE", q! "GI", q! "KY", q! "MO", q! "NR", q! "SG"] → SearchShows E a.locality text) ∧
      (E.countryFor a ∉ [q! "AE", q! "BF", q! "BS", q! "CI", q! "HK", q! "JM", q! "KI", q! "KN", q! "MO", q! "MW", q! "NR", q! "PA", q! "SC", q! "SR", q! "TV"] →
        SearchShows E a.postalCode text) ∧
      (a.country ≠ [] → SearchShows E (E.countryFor a) text) := by
  let A : FormatArgs := ⟨E, a, [], [], E.formatForAddress a false, .geoUriQuery⟩
  have hshow : ∀ f, value A f <:+: A.text → SearchShows E (content A f) A.text := by
    intro f hf
    unfold value at hf
    split at hf
    · exact .inr hf
    · exact .inl hf
  refine ⟨A.text, ?_, ?_, ?_, ?_, ?_⟩
  · unfold Address.geoUri
    rw [if_neg (by simp [h]), if_pos (by simp [he])]
    rfl
  · exact hshow .streetAddress (C48_fields_printed A hu _ (C74_mentions E hE _ _ _ _ (by simp)) rfl)
  · intro hc
    exact hshow .locality (C48_fields_printed A hu _ ((C74_locality E hE _ _ _).2 hc) rfl)
  · intro hc
    exact hshow .postalCode (C48_fields_printed A hu _ ((C74_postal_code E hE _ _ _).2 hc) rfl)
  · intro hc
    have := hshow .country (C48_country_printed A hu hc (by simp [A]))
    have e : content A .country = E.countryFor a := by
      show countryText A = _
      unfold countryText
      rw [if_neg hc, if_pos rfl]
      rfl
    rwa [e] at this

/-- An empty address has no link. -/
theorem C88_nothing (E : FormatEnv) (a : Address) (h : a.geo.isValid = false) (he : a.empty = true) : a.geoUri E = {} := by
  unfold Address.geoUri
  rw [if_neg (by simp [h]), if_neg (by simp [he])]

/-- Addresses of the same place, with the same position, have the same link: the post office box, the label, the type and the id of an address do not get to
    the map service. -/
theorem C88_private (E : FormatEnv) (a b : Address) (h : samePlace a b) (hg : a.geo = b.geo) (he : a.empty = b.empty) : a.geoUri E = b.geoUri E := by
  unfold Address.geoUri
  rw [geo_formatted E a b h, hg, he]

/-- Without street the locality is searched; with a position only the coordinates are sent. -/
example :
    ({ id := [], empty := false, street := q! "Ring 1", locality := q! "Ulm", postalCode := q! "89073", country := q! "DE", postOfficeBox := q! "17" } : Address).geoUri
      shippedEnv = { scheme := q! "geo", path := q! "0,0", query := [(q! "q", q! "Ring 1,89073 Ulm,DE")] } := by
  decide +kernel

example : Shipped shippedEnv ∧ (∀ s, shippedEnv.upper s = [] ↔ s = []) ∧ ({ id := [], empty := false, street := q! "Ring 1" } : Address).geo.isValid = false :=
  ⟨⟨_, rfl⟩, fun s => by simp [shippedEnv, sampleFormatEnv, toUpperQ], rfl⟩

/-- 48.4 degrees north (as a float), 9.5 degrees west. -/
example :
    let a : Address := { id := [], geo := geoHistory [.latitude (.fin (12687770 * 2 ^ 131)), .longitude (.fin (-19 * 2 ^ 148))] }
    a.geo.isValid = true ∧ NotTiny a.geo.latitude ∧ NotTiny a.geo.longitude ∧ (a.geoUri sampleFormatEnv).path = q! "48.4,-9.5" := by
  refine ⟨by decide +kernel, ?_, ?_, by decide +kernel⟩
  · exact (fin_notTiny _).2 (by decide +kernel)
  · exact (fin_notTiny _).2 (by decide +kernel)

/-- The number in that link. -/
example : WritesNumber (q! "-9.5") (-19 / 2) := by
  refine ⟨true, q! "9", q! "5", by decide, by decide, by decide, ?_⟩
  have : digitsNumber (q! "9" ++ q! "5") = 95 := by decide
  rw [this]
  norm_num

example : samePlace { id := q! "a", street := q! "Ring 1", postOfficeBox := q! "17", empty := false } { id := q! "b", street := q! "Ring 1", label := q! "x", empty := false } := by
  unfold samePlace; decide

end KC
