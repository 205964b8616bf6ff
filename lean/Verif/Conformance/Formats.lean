import Verif.Model.ShippedFormats
/-
  The checks of autotests/addressformattest.cpp (testRepostory, testFormatStyles, testFormatScript, testIncompleteAddress) on the model.
  These are tests of the model, not proofs of properties.
-/
namespace KC.Conformance
set_option maxRecDepth 100000

/-- The world of the test: formats of the library, locale en_US. -/
def formatEnv : FormatEnv where
  config := shippedEntry [q! "en_US", q! "en"]
  fromAlpha2 c := some c
  fromName _ := none
  ownCountry := q! "US"
  countryName c := if c = q! "DE" then q! "Germany" else if c = q! "KR" then q! "South Korea" else []
  upper := toUpperQ
  script c := if 0x600 ≤ c.toNat ∧ c.toNat < 0x700 ∧ c.toNat ≠ 0x60c then 1 else if 0x4e00 ≤ c.toNat ∧ c.toNat < 0xa000 then 2
    else if 0xac00 ≤ c.toNat ∧ c.toNat < 0xd7b0 then 3 else 0

/-- `parseFormat` of the test, addressformattest.cpp:31-40. -/
def parseFormat (f u country : QString) : AddressFormat :=
  { elements := parseElements f, required := 0, upper := parseFields u, postalCodeFormat := [], country := country }

/-- testRepostory -/
example :
    let fmt := formatEnv.formatForCountry (q! "CA") false false
    fmt.required = AField.streetAddress.bit ||| AField.locality.bit ||| AField.postalCode.bit ||| AField.region.bit ∧
    fmt.upper = AField.streetAddress.bit ||| AField.locality.bit ||| AField.postalCode.bit ||| AField.region.bit ||| AField.name.bit
      ||| AField.organization.bit ||| AField.country.bit ∧
    fmt.usedFields = AField.streetAddress.bit ||| AField.locality.bit ||| AField.postalCode.bit ||| AField.region.bit ||| AField.name.bit
      ||| AField.organization.bit ||| AField.postOfficeBox.bit ∧
    fmt.elements.length = 14 ∧ fmt.elements[0]? = some (.field .name) ∧ fmt.elements[1]? = some .sep ∧
    fmt.elements[2]? = some (.field .organization) ∧ fmt.elements[3]? = some .sep ∧ fmt.elements[6]? = some (.lit (q! "PO BOX ")) ∧
    fmt.elements[9]? = some (.field .locality) ∧ fmt.elements[10]? = some (.lit (q! " ")) ∧ fmt.elements[11]? = some (.field .region) ∧
    fmt.elements[12]? = some (.lit (q! " ")) ∧ fmt.elements[13]? = some (.field .postalCode) ∧ fmt.postalCodeFormat ≠ [] ∧
    fmt.country = q! "CA" := by
  decide +kernel

/-- testFormatStyles, check 1 -/
example :
    FormatArgs.text ⟨formatEnv, { id := [], country := q! "DE", region := q! "BE", locality := q! "Berlin", postalCode := q! "10969", street := [80, 114, 105, 110, 122, 101, 110, 115, 116, 114, 97, 223, 101, 32, 56, 53, 32, 70], extended := q! "East wing" },
      q! "Dr. Konqi", q! "KDE e.V.", parseFormat (q! "%O%n%N%nPostfach %P%n%A%n%Z %C") (q! "R") (q! "DE"), .postal⟩ =
      [75, 68, 69, 32, 101, 46, 86, 46, 10, 68, 114, 46, 32, 75, 111, 110, 113, 105, 10, 69, 97, 115, 116, 32, 119, 105, 110, 103, 10, 80, 114, 105, 110, 122, 101, 110, 115, 116, 114, 97, 223, 101, 32, 56, 53, 32, 70, 10, 49, 48, 57, 54, 57, 32, 66, 101, 114, 108, 105, 110, 10, 10, 71, 69, 82, 77, 65, 78, 89] := by decide +kernel

/-- testFormatStyles, check 2 -/
example :
    FormatArgs.text ⟨formatEnv, { id := [], country := q! "DE", region := q! "BE", locality := q! "Berlin", postalCode := q! "10969", street := [80, 114, 105, 110, 122, 101, 110, 115, 116, 114, 97, 223, 101, 32, 56, 53, 32, 70], extended := q! "East wing" },
      q! "Dr. Konqi", q! "KDE e.V.", parseFormat (q! "%O%n%N%nPostfach %P%n%A%n%Z %C") (q! "R") (q! "DE"), .multiLineInternational⟩ =
      [75, 68, 69, 32, 101, 46, 86, 46, 10, 68, 114, 46, 32, 75, 111, 110, 113, 105, 10, 69, 97, 115, 116, 32, 119, 105, 110, 103, 10, 80, 114, 105, 110, 122, 101, 110, 115, 116, 114, 97, 223, 101, 32, 56, 53, 32, 70, 10, 49, 48, 57, 54, 57, 32, 66, 101, 114, 108, 105, 110, 10, 71, 101, 114, 109, 97, 110, 121] := by decide +kernel

/-- testFormatStyles, check 3 -/
example :
    FormatArgs.text ⟨formatEnv, { id := [], country := q! "DE", region := q! "BE", locality := q! "Berlin", postalCode := q! "10969", street := [80, 114, 105, 110, 122, 101, 110, 115, 116, 114, 97, 223, 101, 32, 56, 53, 32, 70], extended := q! "East wing" },
      q! "Dr. Konqi", q! "KDE e.V.", parseFormat (q! "%O%n%N%nPostfach %P%n%A%n%Z %C") (q! "R") (q! "DE"), .multiLineDomestic⟩ =
      [75, 68, 69, 32, 101, 46, 86, 46, 10, 68, 114, 46, 32, 75, 111, 110, 113, 105, 10, 69, 97, 115, 116, 32, 119, 105, 110, 103, 10, 80, 114, 105, 110, 122, 101, 110, 115, 116, 114, 97, 223, 101, 32, 56, 53, 32, 70, 10, 49, 48, 57, 54, 57, 32, 66, 101, 114, 108, 105, 110] := by decide +kernel

/-- testFormatStyles, check 4 -/
example :
    FormatArgs.text ⟨formatEnv, { id := [], country := q! "DE", region := q! "BE", locality := q! "Berlin", postalCode := q! "10969", street := [80, 114, 105, 110, 122, 101, 110, 115, 116, 114, 97, 223, 101, 32, 56, 53, 32, 70], extended := q! "East wing" },
      q! "Dr. Konqi", q! "KDE e.V.", parseFormat (q! "%O%n%N%nPostfach %P%n%A%n%Z %C") (q! "R") (q! "DE"), .singleLineInternational⟩ =
      [75, 68, 69, 32, 101, 46, 86, 46, 44, 32, 68, 114, 46, 32, 75, 111, 110, 113, 105, 44, 32, 69, 97, 115, 116, 32, 119, 105, 110, 103, 44, 32, 80, 114, 105, 110, 122, 101, 110, 115, 116, 114, 97, 223, 101, 32, 56, 53, 32, 70, 44, 32, 49, 48, 57, 54, 57, 32, 66, 101, 114, 108, 105, 110, 44, 32, 71, 101, 114, 109, 97, 110, 121] := by decide +kernel

/-- testFormatStyles, check 5 -/
example :
    FormatArgs.text ⟨formatEnv, { id := [], country := q! "DE", region := q! "BE", locality := q! "Berlin", postalCode := q! "10969", street := [80, 114, 105, 110, 122, 101, 110, 115, 116, 114, 97, 223, 101, 32, 56, 53, 32, 70], extended := q! "East wing" },
      q! "Dr. Konqi", q! "KDE e.V.", parseFormat (q! "%O%n%N%nPostfach %P%n%A%n%Z %C") (q! "R") (q! "DE"), .singleLineDomestic⟩ =
      [75, 68, 69, 32, 101, 46, 86, 46, 44, 32, 68, 114, 46, 32, 75, 111, 110, 113, 105, 44, 32, 69, 97, 115, 116, 32, 119, 105, 110, 103, 44, 32, 80, 114, 105, 110, 122, 101, 110, 115, 116, 114, 97, 223, 101, 32, 56, 53, 32, 70, 44, 32, 49, 48, 57, 54, 57, 32, 66, 101, 114, 108, 105, 110] := by decide +kernel

/-- testFormatStyles, check 6 -/
example :
    FormatArgs.text ⟨formatEnv, { id := [], country := q! "DE", region := q! "BE", locality := q! "Berlin", postalCode := q! "10969", street := [80, 114, 105, 110, 122, 101, 110, 115, 116, 114, 97, 223, 101, 32, 56, 53, 32, 70], extended := q! "East wing" },
      q! "Dr. Konqi", q! "KDE e.V.", parseFormat (q! "%O%n%N%nPostfach %P%n%A%n%Z %C") (q! "R") (q! "DE"), .geoUriQuery⟩ =
      [80, 114, 105, 110, 122, 101, 110, 115, 116, 114, 97, 223, 101, 32, 56, 53, 32, 70, 44, 49, 48, 57, 54, 57, 32, 66, 101, 114, 108, 105, 110, 44, 68, 69] := by decide +kernel

/-- testFormatStyles, check 7 -/
example :
    FormatArgs.text ⟨formatEnv, { id := [], country := q! "DE", region := q! "BE", locality := q! "Berlin", postalCode := q! "10969", street := [80, 114, 105, 110, 122, 101, 110, 115, 116, 114, 97, 223, 101, 32, 56, 53, 32, 70], extended := [] },
      q! "Dr. Konqi", q! "KDE e.V.", parseFormat (q! "%O%n%N%nPostfach %P%n%A%n%Z %C") (q! "R") (q! "DE"), .postal⟩ =
      [75, 68, 69, 32, 101, 46, 86, 46, 10, 68, 114, 46, 32, 75, 111, 110, 113, 105, 10, 80, 114, 105, 110, 122, 101, 110, 115, 116, 114, 97, 223, 101, 32, 56, 53, 32, 70, 10, 49, 48, 57, 54, 57, 32, 66, 101, 114, 108, 105, 110, 10, 10, 71, 69, 82, 77, 65, 78, 89] := by decide +kernel

/-- testFormatStyles, check 8 -/
example :
    FormatArgs.text ⟨formatEnv, { id := [], country := q! "DE", region := q! "BE", locality := q! "Berlin", postalCode := q! "10969", street := [80, 114, 105, 110, 122, 101, 110, 115, 116, 114, 97, 223, 101, 32, 56, 53, 32, 70], extended := [] },
      q! "Dr. Konqi", q! "KDE e.V.", parseFormat (q! "%O%n%N%nPostfach %P%n%A%n%Z %C") (q! "R") (q! "DE"), .multiLineInternational⟩ =
      [75, 68, 69, 32, 101, 46, 86, 46, 10, 68, 114, 46, 32, 75, 111, 110, 113, 105, 10, 80, 114, 105, 110, 122, 101, 110, 115, 116, 114, 97, 223, 101, 32, 56, 53, 32, 70, 10, 49, 48, 57, 54, 57, 32, 66, 101, 114, 108, 105, 110, 10, 71, 101, 114, 109, 97, 110, 121] := by decide +kernel

/-- testFormatStyles, check 9 -/
example :
    FormatArgs.text ⟨formatEnv, { id := [], country := q! "DE", region := q! "BE", locality := q! "Berlin", postalCode := q! "10969", street := [80, 114, 105, 110, 122, 101, 110, 115, 116, 114, 97, 223, 101, 32, 56, 53, 32, 70], extended := [] },
      q! "Dr. Konqi", q! "KDE e.V.", parseFormat (q! "%O%n%N%nPostfach %P%n%A%n%Z %C") (q! "R") (q! "DE"), .multiLineDomestic⟩ =
      [75, 68, 69, 32, 101, 46, 86, 46, 10, 68, 114, 46, 32, 75, 111, 110, 113, 105, 10, 80, 114, 105, 110, 122, 101, 110, 115, 116, 114, 97, 223, 101, 32, 56, 53, 32, 70, 10, 49, 48, 57, 54, 57, 32, 66, 101, 114, 108, 105, 110] := by decide +kernel

/-- testFormatStyles, check 10 -/
example :
    FormatArgs.text ⟨formatEnv, { id := [], country := q! "DE", region := q! "BE", locality := q! "Berlin", postalCode := q! "10969", street := [80, 114, 105, 110, 122, 101, 110, 115, 116, 114, 97, 223, 101, 32, 56, 53, 32, 70], extended := [] },
      q! "Dr. Konqi", q! "KDE e.V.", parseFormat (q! "%O%n%N%nPostfach %P%n%A%n%Z %C") (q! "R") (q! "DE"), .singleLineInternational⟩ =
      [75, 68, 69, 32, 101, 46, 86, 46, 44, 32, 68, 114, 46, 32, 75, 111, 110, 113, 105, 44, 32, 80, 114, 105, 110, 122, 101, 110, 115, 116, 114, 97, 223, 101, 32, 56, 53, 32, 70, 44, 32, 49, 48, 57, 54, 57, 32, 66, 101, 114, 108, 105, 110, 44, 32, 71, 101, 114, 109, 97, 110, 121] := by decide +kernel

/-- testFormatStyles, check 11 -/
example :
    FormatArgs.text ⟨formatEnv, { id := [], country := q! "DE", region := q! "BE", locality := q! "Berlin", postalCode := q! "10969", street := [80, 114, 105, 110, 122, 101, 110, 115, 116, 114, 97, 223, 101, 32, 56, 53, 32, 70], extended := [] },
      q! "Dr. Konqi", q! "KDE e.V.", parseFormat (q! "%O%n%N%nPostfach %P%n%A%n%Z %C") (q! "R") (q! "DE"), .singleLineDomestic⟩ =
      [75, 68, 69, 32, 101, 46, 86, 46, 44, 32, 68, 114, 46, 32, 75, 111, 110, 113, 105, 44, 32, 80, 114, 105, 110, 122, 101, 110, 115, 116, 114, 97, 223, 101, 32, 56, 53, 32, 70, 44, 32, 49, 48, 57, 54, 57, 32, 66, 101, 114, 108, 105, 110] := by decide +kernel

/-- testFormatStyles, check 12 -/
example :
    FormatArgs.text ⟨formatEnv, { id := [], country := q! "DE", region := q! "BE", locality := q! "Berlin", postalCode := q! "10969", street := [80, 114, 105, 110, 122, 101, 110, 115, 116, 114, 97, 223, 101, 32, 56, 53, 32, 70], extended := [] },
      q! "Dr. Konqi", q! "KDE e.V.", parseFormat (q! "%O%n%N%nPostfach %P%n%A%n%Z %C") (q! "R") (q! "DE"), .geoUriQuery⟩ =
      [80, 114, 105, 110, 122, 101, 110, 115, 116, 114, 97, 223, 101, 32, 56, 53, 32, 70, 44, 49, 48, 57, 54, 57, 32, 66, 101, 114, 108, 105, 110, 44, 68, 69] := by decide +kernel

/-- testFormatStyles, check 13 -/
example :
    FormatArgs.text ⟨formatEnv, { id := [], country := q! "DE", region := q! "BE", locality := q! "Berlin", postalCode := q! "10969", street := [], extended := [], postOfficeBox := q! "42" },
      q! "Dr. Konqi", q! "KDE e.V.", parseFormat (q! "%O%n%N%nPostfach %P%n%A%n%Z %C") (q! "R") (q! "DE"), .postal⟩ =
      q! "KDE e.V.\nDr. Konqi\nPostfach 42\n10969 Berlin\n\nGERMANY" := by decide +kernel

/-- testFormatStyles, check 14 -/
example :
    FormatArgs.text ⟨formatEnv, { id := [], country := q! "DE", region := q! "BE", locality := q! "Berlin", postalCode := q! "10969", street := [], extended := [], postOfficeBox := q! "42" },
      q! "Dr. Konqi", q! "KDE e.V.", parseFormat (q! "%O%n%N%nPostfach %P%n%A%n%Z %C") (q! "R") (q! "DE"), .multiLineInternational⟩ =
      q! "KDE e.V.\nDr. Konqi\nPostfach 42\n10969 Berlin\nGermany" := by decide +kernel

/-- testFormatStyles, check 15 -/
example :
    FormatArgs.text ⟨formatEnv, { id := [], country := q! "DE", region := q! "BE", locality := q! "Berlin", postalCode := q! "10969", street := [], extended := [], postOfficeBox := q! "42" },
      q! "Dr. Konqi", q! "KDE e.V.", parseFormat (q! "%O%n%N%nPostfach %P%n%A%n%Z %C") (q! "R") (q! "DE"), .multiLineDomestic⟩ =
      q! "KDE e.V.\nDr. Konqi\nPostfach 42\n10969 Berlin" := by decide +kernel

/-- testFormatStyles, check 16 -/
example :
    FormatArgs.text ⟨formatEnv, { id := [], country := q! "DE", region := q! "BE", locality := q! "Berlin", postalCode := q! "10969", street := [], extended := [], postOfficeBox := q! "42" },
      q! "Dr. Konqi", q! "KDE e.V.", parseFormat (q! "%O%n%N%nPostfach %P%n%A%n%Z %C") (q! "R") (q! "DE"), .singleLineInternational⟩ =
      q! "KDE e.V., Dr. Konqi, Postfach 42, 10969 Berlin, Germany" := by decide +kernel

/-- testFormatStyles, check 17 -/
example :
    FormatArgs.text ⟨formatEnv, { id := [], country := q! "DE", region := q! "BE", locality := q! "Berlin", postalCode := q! "10969", street := [], extended := [], postOfficeBox := q! "42" },
      q! "Dr. Konqi", q! "KDE e.V.", parseFormat (q! "%O%n%N%nPostfach %P%n%A%n%Z %C") (q! "R") (q! "DE"), .singleLineDomestic⟩ =
      q! "KDE e.V., Dr. Konqi, Postfach 42, 10969 Berlin" := by decide +kernel

/-- testFormatStyles, check 18 -/
example :
    FormatArgs.text ⟨formatEnv, { id := [], country := q! "DE", region := q! "BE", locality := q! "Berlin", postalCode := q! "10969", street := [], extended := [], postOfficeBox := q! "42" },
      q! "Dr. Konqi", q! "KDE e.V.", parseFormat (q! "%O%n%N%nPostfach %P%n%A%n%Z %C") (q! "R") (q! "DE"), .geoUriQuery⟩ =
      q! "10969 Berlin,DE" := by decide +kernel

/-- testFormatScript, check 1 -/
example :
    FormatArgs.text ⟨formatEnv, { id := [], country := q! "JP", region := [26481, 20140], locality := [37117, 28207, 21306], postalCode := q! "106-0047", street := [21335, 40635, 24067, 32, 52, 45, 54, 45, 50, 56] },
      [], [], parseFormat ([12306, 37, 90, 37, 110, 37, 83, 37, 67, 37, 65, 37, 110, 37, 79, 37, 110, 37, 78]) (q! "SR") (q! "JP"), .singleLineDomestic⟩ =
      [12306, 49, 48, 54, 45, 48, 48, 52, 55, 26481, 20140, 37117, 28207, 21306, 21335, 40635, 24067, 32, 52, 45, 54, 45, 50, 56] := by decide +kernel

/-- testFormatScript, check 2 -/
example :
    FormatArgs.text ⟨formatEnv, { id := [], country := q! "EG", locality := [1575, 1604, 1602, 1575, 1607, 1585, 1577], street := [50, 48, 48, 53, 1580, 32, 1603, 1608, 1585, 1606, 1610, 1588, 32, 1575, 1604, 1606, 1610, 1604, 1548, 32, 1585, 1605, 1604, 1577, 32, 1576, 1608, 1604, 1575, 1602] },
      [], [], parseFormat (q! "%N%n%O%n%A%n%C%n%S%n%Z") ([]) (q! "EG"), .singleLineDomestic⟩ =
      [50, 48, 48, 53, 1580, 32, 1603, 1608, 1585, 1606, 1610, 1588, 32, 1575, 1604, 1606, 1610, 1604, 1548, 32, 1585, 1605, 1604, 1577, 32, 1576, 1608, 1604, 1575, 1602, 1548, 32, 1575, 1604, 1602, 1575, 1607, 1585, 1577] := by decide +kernel

/-- testFormatScript, check 3 -/
example :
    FormatArgs.text ⟨formatEnv, { id := [], country := q! "KR", region := [49436, 50872, 53945, 48324, 49884], locality := [51473, 44396], postalCode := q! "04637", street := [54620, 44053, 45824, 47196, 32, 52, 49, 54] },
      [], [], parseFormat (q! "%R%n%S %C%D%n%A%n%O%n%N%n%Z") (q! "Z") (q! "KR"), .singleLineDomestic⟩ =
      [49436, 50872, 53945, 48324, 49884, 32, 51473, 44396, 32, 54620, 44053, 45824, 47196, 32, 52, 49, 54, 32, 48, 52, 54, 51, 55] := by decide +kernel

/-- testFormatScript, check 4 -/
example :
    FormatArgs.text ⟨formatEnv, { id := [], country := q! "KR", region := [49436, 50872, 53945, 48324, 49884], locality := [51473, 44396], postalCode := q! "04637", street := [54620, 44053, 45824, 47196, 32, 52, 49, 54] },
      [], [], parseFormat (q! "%R%n%S %C%D%n%A%n%O%n%N%n%Z") (q! "Z") (q! "KR"), .multiLineDomestic⟩ =
      [49436, 50872, 53945, 48324, 49884, 32, 51473, 44396, 10, 54620, 44053, 45824, 47196, 32, 52, 49, 54, 10, 48, 52, 54, 51, 55] := by decide +kernel

/-- testFormatScript, check 5 -/
example :
    FormatArgs.text ⟨formatEnv, { id := [], country := q! "KR", region := [49436, 50872, 53945, 48324, 49884], locality := [51473, 44396], postalCode := q! "04637", street := [54620, 44053, 45824, 47196, 32, 52, 49, 54] },
      [], [], parseFormat (q! "%R%n%S %C%D%n%A%n%O%n%N%n%Z") (q! "Z") (q! "KR"), .singleLineInternational⟩ =
      [83, 111, 117, 116, 104, 32, 75, 111, 114, 101, 97, 32, 49436, 50872, 53945, 48324, 49884, 32, 51473, 44396, 32, 54620, 44053, 45824, 47196, 32, 52, 49, 54, 32, 48, 52, 54, 51, 55] := by decide +kernel

/-- testFormatScript, check 6 -/
example :
    FormatArgs.text ⟨formatEnv, { id := [], country := q! "KR", region := [49436, 50872, 53945, 48324, 49884], locality := [51473, 44396], postalCode := q! "04637", street := [54620, 44053, 45824, 47196, 32, 52, 49, 54] },
      [], [], parseFormat (q! "%R%n%S %C%D%n%A%n%O%n%N%n%Z") (q! "Z") (q! "KR"), .multiLineInternational⟩ =
      [83, 111, 117, 116, 104, 32, 75, 111, 114, 101, 97, 10, 49436, 50872, 53945, 48324, 49884, 32, 51473, 44396, 10, 54620, 44053, 45824, 47196, 32, 52, 49, 54, 10, 48, 52, 54, 51, 55] := by decide +kernel

/-- testFormatScript, check 7 -/
example :
    FormatArgs.text ⟨formatEnv, { id := [], country := q! "KR", region := [49436, 50872, 53945, 48324, 49884], locality := [51473, 44396], postalCode := q! "04637", street := [54620, 44053, 45824, 47196, 32, 52, 49, 54], extended := [49436, 50872, 49828, 53272, 50612, 32, 49, 49, 52789] },
      [], [], parseFormat (q! "%R%n%S %C%D%n%A%n%O%n%N%n%Z") (q! "Z") (q! "KR"), .singleLineDomestic⟩ =
      [49436, 50872, 53945, 48324, 49884, 32, 51473, 44396, 32, 54620, 44053, 45824, 47196, 32, 52, 49, 54, 32, 49436, 50872, 49828, 53272, 50612, 32, 49, 49, 52789, 32, 48, 52, 54, 51, 55] := by decide +kernel

/-- testFormatScript, check 8 -/
example :
    FormatArgs.text ⟨formatEnv, { id := [], country := q! "KR", region := [49436, 50872, 53945, 48324, 49884], locality := [51473, 44396], postalCode := q! "04637", street := [54620, 44053, 45824, 47196, 32, 52, 49, 54], extended := [49436, 50872, 49828, 53272, 50612, 32, 49, 49, 52789] },
      [], [], parseFormat (q! "%R%n%S %C%D%n%A%n%O%n%N%n%Z") (q! "Z") (q! "KR"), .multiLineDomestic⟩ =
      [49436, 50872, 53945, 48324, 49884, 32, 51473, 44396, 10, 54620, 44053, 45824, 47196, 32, 52, 49, 54, 10, 49436, 50872, 49828, 53272, 50612, 32, 49, 49, 52789, 10, 48, 52, 54, 51, 55] := by decide +kernel

/-- testIncompleteAddress, check 1 -/
example :
    FormatArgs.text ⟨formatEnv, { id := [], locality := q! "City", postalCode := q! "XX 12345" },
      [], [], parseFormat (q! "%C, %S %Z") ([]) (q! "US"), .multiLineDomestic⟩ =
      q! "City XX 12345" := by decide +kernel

end KC.Conformance
