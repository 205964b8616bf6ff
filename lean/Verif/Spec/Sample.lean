import Verif.Model.VCardTool
/-
  A concrete environment (codecs, URLs, numbers) and concrete contacts, used only in examples and in counterexamples: they show that the
  hypotheses of theorems can be met, and that claims fail without them.
-/
namespace KC.Sample

/-- one hexadecimal digit -/
def hexDigit (n : Nat) : UInt8 := UInt8.ofNat (if n < 10 then 48 + n else 55 + n)

/-- the value of a hexadecimal digit -/
def hexValue (b : UInt8) : Nat := if b.toNat ≤ 57 then b.toNat - 48 else b.toNat - 55

/-- quoted-printable: everything but printable ASCII other than '=' is written as `=XX`. -/
def qpEncode (b : QByteArray) : QByteArray :=
  b.flatMap fun x => if 33 ≤ x.toNat ∧ x.toNat ≤ 126 ∧ x.toNat ≠ 61 then [x] else [61, hexDigit (x.toNat / 16), hexDigit (x.toNat % 16)]

/-- the reverse -/
def qpDecode : QByteArray → QByteArray
  | [] => []
  | [a] => [a]
  | [a, b] => [a, b]
  | a :: b :: c :: t => if a = 61 then UInt8.ofNat (hexValue b * 16 + hexValue c) :: qpDecode t else a :: qpDecode (b :: c :: t)

/-- whole numbers with six zeros behind the point -/
def fmt6 : Flt → QString
  | .fin k => (if k < 0 then [qc! '-'] else []) ++ dec (k.natAbs / 2 ^ 149) ++ q! ".000000"
  | _ => q! "nan"

/-- the number before the point -/
def toFloat (s : QString) : Flt :=
  let t := s.takeWhile (· ≠ qc! '.')
  .ofInt (if startsWith (q! "-") t then - toIntQ (t.drop 1) else toIntQ t)

/-- An environment: UTF-8 is the only charset, URLs are their own text, images are their own encoding. -/
def env : ToolEnv where
  urlValid u := !u.isEmpty
  urlScheme u := if qc! ':' ∈ u then u.takeWhile (· ≠ qc! ':') else []
  wideDigit _ := false
  loadImage b := if b.isEmpty then none else some b
  instant _ _ _ := 0
  decoder n := if n = b! "utf-8" then some fromUtf8 else none
  encoder n := if n = b! "UTF-8" then some toUtf8 else none
  qpEncode := qpEncode
  qpDecode := qpDecode
  fmt6 := fmt6
  toFloat := toFloat
  toDouble := toFloat
  urlOf u := u
  urlDisplay u := u
  urlSetScheme u s := s ++ qc! ':' :: (if qc! ':' ∈ u then (u.dropWhile (· ≠ qc! ':')).drop 1 else u)
  urlMake s p := s ++ qc! ':' :: p
  encodeImage px _ := px
  widePunct _ := false

/-- New ids: a letter for the kind, repeated. -/
def ids : IdKind → Nat → QString
  | .contact, n => List.replicate (n + 1) (qc! 'c')
  | .address, n => List.replicate (n + 1) (qc! 'a')
  | .phone, n => List.replicate (n + 1) (qc! 'p')
  | .key, n => List.replicate (n + 1) (qc! 'k')

theorem ids_inj (k : IdKind) (i j : Nat) (h : ids k i = ids k j) : i = j := by
  have := congrArg List.length h
  cases k <;> simpa [ids] using this

/-- A contact with something in most fields. -/
def contact : Contact :=
  { uid := q! "uid-1"
    name := q! "n"
    formattedName := q! "Dr. Ann; Lee, the \"second\""
    familyName := q! "Lee;Roe"
    givenName := q! "Ann"
    prefix_ := q! "Dr."
    birthday := some ⟨(1980, 2, 29), (8, 30, 0, 0), some (-12600)⟩
    birthdayWithTime := true
    timeZone := { offset := -210, isValid := true }
    geo := { latitude := .ofInt 52, longitude := .ofInt (-13) }
    department := q! "R,D"
    note := [qc! 'f', 0xfc, qc! 'r', 10, 0x4e2d]
    revision := some ⟨(2016, 1, 20), (8, 5, 3, 0), none⟩
    sortString := q! "lee"
    secrecy := .priv
    logo := { url := q! "http://example.org/l.png" }
    photo := { url := q! "http://example.org/p.png" }
    extraPhotos := [{ url := q! "http://example.org/q.png" }]
    sound := { url := q! "http://example.org/s.ogg" }
    deathDate := some ⟨(2040, 12, 31), (0, 0, 0, 0), some 0⟩
    phoneNumbers := [{ id := q! "old", number := q! "555 1", type := 1 ||| 8 }, { id := q! "old2", number := q! "555 2", type := 16384 }]
    addresses := [{ empty := false, id := q! "x", type := 16 ||| 64, street := q! "Main; Street", locality := q! "Town", label := q! "Main St, Town" },
      { empty := false, id := q! "y", type := 32, region := q! "R", country := q! "C" }]
    keys := [{ id := q! "z", textData := q! "key data", isBinary := false, type := .pgp }]
    emails := [{ mail := q! "ann@example.org", params := [(q! "type", [q! "HOME", q! "PREF"])] }, { mail := q! "lee@example.org" }]
    langs := [{ text := q! "en", params := [(q! "pref", [q! "1"])] }]
    impps := [{ url := q! "xmpp:ann@example.org" }]
    gender := { gender := q! "F", comment := q! "x; y" }
    kind := q! "individual"
    categories := [q! "a,b", [], q! "c"]
    customs := [(q! "APP-Name", q! "value"), (q! "KADDRESSBOOK-X-Profession", q! "writer")]
    calendarUrls := [{ url := q! "http://example.org/fb", type := 1 }, { url := q! "mailto:ann@example.org", type := 3 }]
    extraUrls := [{ url := q! "http://example.org" }]
    sources := [q! "http://example.org/card"]
    relationships := [{ text := q! "urn:uuid:1", params := [(q! "type", [q! "friend"])] }]
    fieldGroups := [{ fieldGroupName := q! "item2.X-FOO", value := q! "v2" }, { fieldGroupName := q! "item1.URL", value := q! "v1" }]
    titles := [{ text := q! "Chief" }]
    roles := [{ text := q! "Lead" }]
    organizations := [{ text := q! "Org; Inc." }]
    nickNames := [{ text := q! "A" }]
    clientPidMaps := [{ text := q! "1;urn:uuid:2" }]
    empty := false }

end KC.Sample
