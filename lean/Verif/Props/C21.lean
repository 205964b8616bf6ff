import Verif.Lemmas.Compute
import Verif.Lemmas.IsoDate
import Verif.Lemmas.CardNames
import Verif.Props.C80
/-
  C21: custom fields survive a vCard. Holds for names as described by `CustomOK`.
-/
namespace KC
open Spec

/-- C21: every query for a custom field gives the same answer after the round trip, and the list of custom fields is the same. -/
theorem C21_partial (E : ToolEnv) (v : Version) (ids : IdKind → Nat → QString) (hinj : ∀ k i j, ids k i = ids k j → i = j) (c : Contact)
    (hR : Readable E v c) (hu : ∀ i, c.uid ≠ ids .contact i) :
    ∃ c', WrittenAndRead E v ids c c' ∧ (∀ app name, c'.custom app name = c.custom app name) ∧ c'.customs = c.customs := by
  have h := C24_contact E v ids hinj c hR hu
  exact ⟨_, h, fun _ _ => rfl, rfl⟩

/-- Non-vacuity. -/
example (v : Version) : ∃ c', WrittenAndRead Sample.env v Sample.ids Sample.contact c' ∧ c'.custom (q! "APP") (q! "Name") = q! "value" := by
  obtain ⟨c', h, h1, -⟩ := C21_partial Sample.env v Sample.ids Sample.ids_inj _ (C24_sample_readable v) C24_sample_uid
  exact ⟨c', h, h1 _ _⟩

/-! ### the anniversary in version 4 -/

/-- The property ANNIVERSARY with a text. -/
def annLine (s : QString) : VCardLine :=
  { ({ identifier := q! "ANNIVERSARY" } : VCardLine).addParameter (q! "VALUE") (q! "DATE") with value := .str s }

/-- One anniversary of a contact, written in version 4.0. -/
theorem anniversary_line (E : ToolEnv) (ex : Bool) (value : QString) (hne : value ≠ []) :
    customLine E .v4_0 ex (q! "KADDRESSBOOK-X-Anniversary" ++ qc! ':' :: value) =
      [annLine (createDateTime ((isoDateOf E value).map fun d => { date := d, time := (0, 0, 0, 0), zone := none }) true true)] := by
  have hi : (indexOf? (qc! ':') (q! "KADDRESSBOOK-X-Anniversary" ++ qc! ':' :: value)).getD (q! "KADDRESSBOOK-X-Anniversary" ++ qc! ':' :: value).length =
      (q! "KADDRESSBOOK-X-Anniversary").length := by
    rw [indexOf?_append _ _ _ (by decide)]; rfl
  have hdrop : (q! "KADDRESSBOOK-X-Anniversary" ++ qc! ':' :: value).drop ((q! "KADDRESSBOOK-X-Anniversary").length + 1) = value := rfl
  have htake : (q! "KADDRESSBOOK-X-Anniversary" ++ qc! ':' :: value).take (q! "KADDRESSBOOK-X-Anniversary").length = q! "KADDRESSBOOK-X-Anniversary" := by
    rw [List.take_left]
  have he : value.isEmpty = false := by cases value with | nil => exact absurd rfl hne | cons _ _ => rfl
  have hid : (if ex = true then (renamed exportNames (q! "X-" ++ q! "KADDRESSBOOK-X-Anniversary")).getD (q! "X-" ++ q! "KADDRESSBOOK-X-Anniversary")
      else q! "X-" ++ q! "KADDRESSBOOK-X-Anniversary") = q! "X-KADDRESSBOOK-X-Anniversary" := by
    cases ex <;> decide +kernel
  have hl : (decide (toLowerQ (q! "X-KADDRESSBOOK-X-Anniversary") = q! "x-kaddressbook-x-anniversary") && decide True) = true := by decide +kernel
  unfold customLine
  simp only [hi]
  rw [hdrop, htake]
  simp only [he, Bool.false_eq_true, if_false]
  rw [hid, if_pos hl]
  rfl

/-- An anniversary whose text is a day is written in version 4.0 as that day, with a time of midnight. -/
theorem C21_anniversary (E : ToolEnv) (ex : Bool) (c : Contact) (value : QString) (hc : (q! "KADDRESSBOOK-X-Anniversary", value) ∈ c.customs)
    (d : Int × Nat × Nat) (hd : IsoText E value d) :
    b! "ANNIVERSARY;VALUE=DATE:" ++ toLatin1 (four d.1.toNat ++ two d.2.1 ++ two d.2.2) ++ b! "T000000\r\n" <:+: createContacts E .v4_0 ex [c] := by
  have hne : value ≠ [] := by
    obtain ⟨_, _, _, p, p', rest, rfl, _⟩ := hd
    intro e
    exact absurd (congrArg List.length e) (by simp [four, two])
  obtain ⟨lines, ht, hp, _⟩ := written_lines E .v4_0 ex c
  have e := anniversary_line E ex value hne
  rw [(iso_iff E value d).2 hd] at e
  have hm : annLine (createDateTime ((some d).map fun d => { date := d, time := (0, 0, 0, 0), zone := none }) true true) ∈ contactLines E .v4_0 ex c := by
    unfold contactLines
    rw [List.mem_flatten]
    refine ⟨customLines E .v4_0 ex c, by simp [contactSections], ?_⟩
    unfold customLines
    rw [List.mem_flatMap]
    refine ⟨_, List.mem_map.2 ⟨_, hc, rfl⟩, ?_⟩
    rw [e]
    exact List.mem_singleton.2 rfl
  obtain ⟨pre, post, rfl⟩ := List.append_of_mem (hp.mem_iff.2 hm)
  rw [ht, List.flatMap_append, List.flatMap_cons]
  refine ⟨b! "BEGIN:VCARD\r\n" ++ pre.flatMap (writeLine E.toCodecs), post.flatMap (writeLine E.toCodecs) ++ b! "END:VCARD\r\n\r\n", ?_⟩
  obtain ⟨y1, y2, hR, _⟩ := hd
  obtain ⟨y, m, dd⟩ := d
  obtain ⟨n, rfl⟩ : ∃ n : Nat, y = n := ⟨y.toNat, by simp only at y1; omega⟩
  have hb := (DateOK.mk (d := ((n : Int), m, dd)) (Or.inr ⟨y1, y2⟩) hR).bounds
  simp only [Int.toNat_natCast] at y1 y2 hb ⊢
  have hval : createDateTime (some ⟨((n : Int), m, dd), (0, 0, 0, 0), none⟩) true true = four n ++ two m ++ two dd ++ q! "T000000" := by
    unfold createDateTime createDate createTime
    have h0 : padded 2 0 = q! "00" := by decide
    simp only [Bool.not_true, Bool.false_eq_true, if_false, if_true, Int.toNat_natCast, if_pos (show (n : Int) > 0 by omega), padded4 n (by omega), padded2 m (by omega), padded2 dd (by omega), h0,
      List.append_nil]
    rw [show n / 1000 = n / 100 / 10 by omega, show n / 10 % 10 = n % 100 / 10 by omega, show n % 10 = n % 100 % 10 by omega]
    rfl
  have hascii : ∀ c ∈ four n ++ two m ++ two dd ++ q! "T000000", 48 ≤ c.toNat ∧ c.toNat < 92 := by
    have dd' : ∀ k, k < 10 → 48 ≤ (dig k).toNat ∧ (dig k).toNat < 92 := by
      intro k hk
      have : ∀ k : Fin 10, 48 ≤ (dig k.val).toNat ∧ (dig k.val).toNat < 92 := by decide
      exact this ⟨k, hk⟩
    have h2 : ∀ k < 100, ∀ c ∈ two k, 48 ≤ c.toNat ∧ c.toNat < 92 := by
      intro k hk c hc
      have hc : c = dig (k / 10) ∨ c = dig (k % 10) := by simpa [two, dig] using hc
      rcases hc with rfl | rfl
      · exact dd' _ (by omega)
      · exact dd' _ (by omega)
    intro c hc
    unfold four at hc
    simp only [List.mem_append] at hc
    rcases hc with (((hc | hc) | hc) | hc) | hc
    · exact h2 _ (by omega) c hc
    · exact h2 _ (by omega) c hc
    · exact h2 _ (by omega) c hc
    · exact h2 _ (by omega) c hc
    · have : ∀ c ∈ q! "T000000", 48 ≤ c.toNat ∧ c.toNat < 92 := by decide
      exact this c hc
  have hutf : toUtf8 (four n ++ two m ++ two dd ++ q! "T000000") = toLatin1 (four n ++ two m ++ two dd ++ q! "T000000") :=
    toUtf8_ascii _ fun c hc => by have := hascii c hc; omega
  have hesc : addEscapes (toLatin1 (four n ++ two m ++ two dd ++ q! "T000000")) false = toLatin1 (four n ++ two m ++ two dd ++ q! "T000000") := by
    apply addEscapes_plain
    intro c hc
    obtain ⟨u, hu, rfl⟩ := List.mem_map.1 hc
    have := hascii u hu
    rw [if_pos (by omega)]
    simp; omega
  have hw : writeLine E.toCodecs (annLine (four n ++ two m ++ two dd ++ q! "T000000")) =
      b! "ANNIVERSARY;VALUE=DATE:" ++ toLatin1 (four n ++ two m ++ two dd) ++ b! "T000000\r\n" := by
    have h1 : writeValue E.toCodecs (annLine (four n ++ two m ++ two dd ++ q! "T000000")) = (toLatin1 (four n ++ two m ++ two dd ++ q! "T000000"), true) := by
      rw [← hutf]; rfl
    have h2 : excludesComma (annLine (four n ++ two m ++ two dd ++ q! "T000000")) = false := rfl
    have h3 : writeHead (annLine (four n ++ two m ++ two dd ++ q! "T000000")) = b! "ANNIVERSARY;VALUE=DATE" := rfl
    have h4 : (annLine (four n ++ two m ++ two dd ++ q! "T000000")).value = .str (four n ++ two m ++ two dd ++ q! "T000000") := rfl
    unfold writeLine writeContent
    simp only [h1, h2, h3, h4, hesc]
    rw [if_pos (by simp [four, two, toLatin1])]
    simp only
    unfold fixLineSize
    rw [if_neg (by simp [four, two, toLatin1, FOLD_WIDTH])]
    simp [toLatin1]
  rw [Option.map_some, hval, hw]
  simp only [List.append_assoc]

/-- An anniversary whose text is no day is not written in version 4.0: no line of the card is about it. -/
theorem C21_anniversary_other (E : ToolEnv) (ex : Bool) (c : Contact) (value : QString) (hc : c.customs = [(q! "KADDRESSBOOK-X-Anniversary", value)])
    (hg : c.fieldGroups = []) (hd : ∀ d, ¬ IsoText E value d) :
    ∃ lines : List VCardLine, createContacts E .v4_0 ex [c] = b! "BEGIN:VCARD\r\n" ++ lines.flatMap (writeLine E.toCodecs) ++ b! "END:VCARD\r\n\r\n" ∧
      ∀ l ∈ lines, writeLine E.toCodecs l ≠ [] → l.identifier ≠ q! "ANNIVERSARY" ∧ ¬ q! "X-" <+: l.identifier := by
  obtain ⟨lines, ht, hp, _⟩ := written_lines E .v4_0 ex c
  refine ⟨lines, ht, fun l hl hw => ?_⟩
  have hcust : ∀ l ∈ customLines E .v4_0 ex c, writeLine E.toCodecs l = [] := by
    intro l hl
    unfold customLines Contact.customsList at hl
    rw [hc, List.map_cons, List.map_nil, List.flatMap_cons, List.flatMap_nil, List.append_nil] at hl
    by_cases hne : value = []
    · subst hne
      have : customLine E .v4_0 ex (q! "KADDRESSBOOK-X-Anniversary" ++ qc! ':' :: []) = [] := rfl
      rw [this] at hl; cases hl
    · rw [anniversary_line E ex value hne] at hl
      have : isoDateOf E value = none := by
        cases h : isoDateOf E value with
        | none => rfl
        | some d => exact absurd ((iso_iff E value d).1 h) (hd d)
      rw [this, List.mem_singleton] at hl
      subst hl
      rfl
  have h0 := hp.mem_iff.1 hl
  have h1 : l ∈ contactLines E .v4_0 ex { c with customs := [] } := by
    have e : ∀ c' : Contact, contactSections E .v4_0 ex c' = (contactSections E .v4_0 ex c').dropLast ++ [customLines E .v4_0 ex c'] := fun _ => rfl
    unfold contactLines at h0 ⊢
    rw [e, List.flatten_append, List.mem_append] at h0 ⊢
    rcases h0 with h0 | h0
    · exact Or.inl h0
    · rw [List.flatten_cons, List.flatten_nil, List.append_nil] at h0
      exact absurd (hcust l h0) hw
  exact contact_plain E .v4_0 ex { c with customs := [] } rfl hg l h1

/-- Non-vacuity: a text that is a day, with something after it, and one that is none. -/
example : IsoText Sample.env (q! "1985-04-12T10:00") (1985, 4, 12) ∧ ∀ d, ¬ IsoText Sample.env (q! "April 1985") d :=
  ⟨(iso_iff _ _ _).1 (by decide +kernel), fun d h => absurd ((iso_iff _ _ _).2 h) (by
    have : isoDateOf Sample.env (q! "April 1985") = none := by decide +kernel
    rw [this]; exact fun e => by cases e)⟩

/-- The property says that its value is a date, but the value has a time as well. -/
theorem C21_anniversary_date_false (ex : Bool) : b! "ANNIVERSARY;VALUE=DATE:19850412T000000\r\n" <:+:
    createContacts Sample.env .v4_0 ex [({ uid := q! "u" } : Contact).insertCustom (q! "KADDRESSBOOK") (q! "X-Anniversary") (q! "1985-04-12")] := by
  cases ex <;> decide +kernel

/-! ### C21 is false for every name -/

/-- An application name with a dot: the field is read as a field group. -/
theorem C21_dot_false : ∃ c c', WrittenAndRead Sample.env .v3_0 Sample.ids c c' ∧ c.custom (q! "my.app") (q! "name") = q! "v" ∧
    c'.customs = [] ∧ c'.fieldGroups = [{ fieldGroupName := q! "X-my.app-name", value := q! "v" }] := by
  obtain ⟨c', h, h2⟩ := oneBack_not (E := Sample.env) (v := .v3_0) (ids := Sample.ids) (({ uid := q! "u" } : Contact).insertCustom (q! "my.app") (q! "name") (q! "v"))
    (fun c' => ¬ (c'.customs = [] ∧ c'.fieldGroups = [{ fieldGroupName := q! "X-my.app-name", value := q! "v" }])) (by decide +kernel)
  exact ⟨_, c', h, by decide, not_not.1 h2⟩

/-- The spouse's name is lost in version 4. -/
theorem C21_spouse_false : ∃ c c', WrittenAndRead Sample.env .v4_0 Sample.ids c c' ∧ c.custom (q! "KADDRESSBOOK") (q! "X-SpousesName") = q! "Bo" ∧
    c'.custom (q! "KADDRESSBOOK") (q! "X-SpousesName") = [] := by
  obtain ⟨c', h, h2⟩ := oneBack_not (E := Sample.env) (v := .v4_0) (ids := Sample.ids) (({ uid := q! "u" } : Contact).insertCustom (q! "KADDRESSBOOK") (q! "X-SpousesName") (q! "Bo"))
    (fun c' => c'.custom (q! "KADDRESSBOOK") (q! "X-SpousesName") ≠ []) (by decide +kernel)
  exact ⟨_, c', h, by decide, not_not.1 h2⟩

/-- A name of another program: the field is stored under the name this library uses for it. -/
theorem C21_renamed_false : ∃ c c', WrittenAndRead Sample.env .v3_0 Sample.ids c c' ∧ c.custom (q! "EVOLUTION") (q! "ASSISTANT") = q! "Al" ∧
    c'.custom (q! "EVOLUTION") (q! "ASSISTANT") = [] := by
  obtain ⟨c', h, h2⟩ := oneBack_not (E := Sample.env) (v := .v3_0) (ids := Sample.ids) (({ uid := q! "u" } : Contact).insertCustom (q! "EVOLUTION") (q! "ASSISTANT") (q! "Al"))
    (fun c' => c'.custom (q! "EVOLUTION") (q! "ASSISTANT") ≠ []) (by decide +kernel)
  exact ⟨_, c', h, by decide, not_not.1 h2⟩

/-- A dash in the application name moves to the field name (both are one string inside the contact). -/
theorem C21_dash : ∃ c c', WrittenAndRead Sample.env .v3_0 Sample.ids c c' ∧ c.custom (q! "a-b") (q! "n") = q! "v" ∧ c'.custom (q! "a-b") (q! "n") = q! "v" ∧
    c'.custom (q! "a") (q! "b-n") = q! "v" := by
  obtain ⟨c', h, h2⟩ := oneBack_not (E := Sample.env) (v := .v3_0) (ids := Sample.ids) (({ uid := q! "u" } : Contact).insertCustom (q! "a-b") (q! "n") (q! "v"))
    (fun c' => ¬ (c'.custom (q! "a-b") (q! "n") = q! "v" ∧ c'.custom (q! "a") (q! "b-n") = q! "v")) (by decide +kernel)
  exact ⟨_, c', h, by decide, not_not.1 h2⟩

end KC
