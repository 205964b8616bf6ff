import Verif.Lemmas.CardFields3
/-
  The fields of a contact read from the lines of one card: addresses.
-/
namespace KC
open KC.Spec

theorem splitOn_two {α : Type} [DecidableEq α] (sep : α) (s : List α) (h : sep ∈ s) : ∃ a b r, splitOn sep s = a :: b :: r := by
  obtain ⟨a, b, rfl⟩ := List.append_of_mem h
  rw [splitOn_append_sep]
  cases ha : splitOn sep a with
  | nil => exact (splitOn_ne_nil _ _ ha).elim
  | cons x t =>
    cases t with
    | nil =>
      cases hb : splitOn sep b with
      | nil => exact (splitOn_ne_nil _ _ hb).elim
      | cons y u => exact ⟨x, y, u, rfl⟩
    | cons y u => exact ⟨x, y, u ++ splitOn sep b, rfl⟩

theorem addressParts (parts : List QString) (id : QString) (t : Nat) :
    (let a : Address := { id := id }
     let a := if parts.length > 0 then a.set (.postOfficeBox (parts.getD 0 [])) else a
     let a := if parts.length > 1 then a.set (.extended (parts.getD 1 [])) else a
     let a := if parts.length > 2 then a.set (.street (parts.getD 2 [])) else a
     let a := if parts.length > 3 then a.set (.locality (parts.getD 3 [])) else a
     let a := if parts.length > 4 then a.set (.region (parts.getD 4 [])) else a
     let a := if parts.length > 5 then a.set (.postalCode (parts.getD 5 [])) else a
     let a := if parts.length > 6 then a.set (.country (parts.getD 6 [])) else a
     a.set (.type t)) =
    { empty := false, id := id, postOfficeBox := (parts[0]?).getD [], extended := (parts[1]?).getD [], street := (parts[2]?).getD [],
      locality := (parts[3]?).getD [], region := (parts[4]?).getD [], postalCode := (parts[5]?).getD [], country := (parts[6]?).getD [], type := t } := by
  rcases parts with _ | ⟨a, _ | ⟨b, _ | ⟨c, _ | ⟨d, _ | ⟨e, _ | ⟨f, _ | ⟨g, r⟩⟩⟩⟩⟩⟩⟩ <;> simp [Address.set]

theorem unquoted_eq (s : QString) :
    (if (decide (s.length > 1) && decide (s.head? = some (qc! '"')) && decide (s.getLast? = some (qc! '"'))) = true then mid s 1 (s.length - 2) else s) = unquoted s := by
  unfold unquoted
  by_cases h : 2 ≤ s.length ∧ s.head? = some (qc! '"') ∧ s.getLast? = some (qc! '"')
  · rw [if_pos h, if_pos (by simp [h.2.1, h.2.2]; omega)]
    unfold mid
    rw [List.dropLast_eq_take, List.length_tail, List.drop_one]
    congr 1
  · rw [if_neg h, if_neg]
    intro h'
    simp only [Bool.and_eq_true, decide_eq_true_eq] at h'
    exact h ⟨by omega, h'.1.2, h'.2⟩

theorem card_readAddress_eq (E : ToolEnv) (id : QString) (l : VCardLine) : readAddress E id l = { addressOf E l with id := id } := by
  have hp := addressParts (splitString (qc! ';') l.value.toString) id (addressTypeOf l)
  unfold readAddress
  simp only at hp ⊢
  rw [hp]
  clear hp
  have hlab : ∀ a : Address, a.empty = false → a.label = [] → (if (l.parameter (q! "label")).isEmpty = true then a
      else a.set (.label (if (decide ((l.parameter (q! "label")).length > 1) && decide ((l.parameter (q! "label")).head? = some (qc! '"')) && decide ((l.parameter (q! "label")).getLast? = some (qc! '"'))) = true
        then mid (l.parameter (q! "label")) 1 ((l.parameter (q! "label")).length - 2) else l.parameter (q! "label")))) = { a with label := unquoted (l.parameter (q! "label")) } := by
    intro a he hl
    rw [unquoted_eq]
    by_cases h : l.parameter (q! "label") = []
    · rw [h, if_pos List.isEmpty_nil]
      cases a
      simp_all [unquoted]
    · rw [if_neg (by simpa using h)]
      cases a
      simp_all [Address.set]
  rw [hlab _ rfl rfl]
  unfold addressOf addressPosition valueComponent valueText
  rw [addressTypeOf_eq]
  by_cases hg : l.parameter (q! "geo") = []
  · have hs : splitOn (qc! ',') (replaceStr (q! "geo:") [] (removeChar (qc! '"') [])) = [[]] := by decide +kernel
    rw [hg, if_pos List.isEmpty_nil, hs]
  · rw [if_neg (by simpa using hg)]
    by_cases hc : qc! ',' ∈ replaceStr (q! "geo:") [] (removeChar (qc! '"') (l.parameter (q! "geo")))
    · rw [if_pos hc]
      obtain ⟨a, b, r, e⟩ := splitOn_two _ _ hc
      rw [e]
      rfl
    · rw [if_neg hc, splitOn_of_not_mem _ _ hc]

/-! ### delivery labels -/

theorem withLabel_none (t : Nat) (s id : QString) (l : List Address) (h : l.find? (fun a => decide (a.type = t)) = none) :
    (l ++ [({ id := id, type := t } : Address).set (.label s)]).map (fun a => { a with id := [] }) = withLabel t s (l.map fun a => { a with id := [] }) := by
  induction l with
  | nil => rfl
  | cons a l ih =>
    have ha : ¬ a.type = t := fun e => by simp [e] at h
    rw [List.find?_cons_of_neg (by simpa using ha)] at h
    rw [List.cons_append, List.map_cons, List.map_cons, withLabel, if_neg ha, ih h]

theorem withLabel_some (t : Nat) (s : QString) (l : List Address) (a : Address) (hn : (l.map (·.id)).Nodup) (h : l.find? (fun a => decide (a.type = t)) = some a) :
    (replaceFirst Address.id a.id (a.copyCtor.set (.label s)) l).map (fun a => { a with id := [] }) = withLabel t s (l.map fun a => { a with id := [] }) := by
  induction l with
  | nil => cases h
  | cons b l ih =>
    rw [List.map_cons, List.nodup_cons] at hn
    by_cases hb : b.type = t
    · rw [List.find?_cons_of_pos (by simpa using hb), Option.some.injEq] at h
      subst h
      rw [replaceFirst, if_pos rfl, List.map_cons, List.map_cons, withLabel, if_pos hb]
      rfl
    · rw [List.find?_cons_of_neg (by simpa using hb)] at h
      have : ¬ b.id = a.id := fun e => hn.1 (by rw [e]; exact List.mem_map_of_mem (List.mem_of_find?_eq_some h))
      rw [replaceFirst, if_neg this, List.map_cons, List.map_cons, withLabel, if_neg hb, ih hn.2 h]

section
variable (E : ToolEnv) (ids : IdKind → Nat → QString) (hids : ∀ k i j, ids k i = ids k j → i = j) (s0 : RState) (L : List VCardLine)

include hids in
theorem part_addresses (h0 : s0.c.addresses = []) :
    (L.foldl (readLine E ids) s0).c.addresses.map (fun p => { p with id := [] }) = (named L [q! "adr", q! "label"]).foldl (addressStep E) [] ∧
    ((L.foldl (readLine E ids) s0).c.addresses.map (·.id)).Nodup := by
  have app : ∀ (s : RState) (a : Address), ((s.c.addresses.map (·.id)).Nodup ∧ ∀ p ∈ s.c.addresses, ∃ i, i < s.addresses ∧ p.id = ids .address i) →
      a.id = ids .address s.addresses →
      ((s.c.addresses ++ [a]).map (·.id)).Nodup ∧ ∀ p ∈ s.c.addresses ++ [a], ∃ i, i < s.addresses + 1 ∧ p.id = ids .address i := by
    intro s a hI ha
    have hn := fresh_not_mem ids Address.id .address _ _ hI.2 hids
    refine ⟨nodup_append_single (key := Address.id) hI.1 (by rw [ha]; exact hn), ?_⟩
    intro p hp
    rw [List.mem_append, List.mem_singleton] at hp
    rcases hp with hp | rfl
    · obtain ⟨i, hi, e⟩ := hI.2 p hp
      exact ⟨i, by omega, e⟩
    · exact ⟨s.addresses, by omega, ha⟩
  have := read_part_inv E ids (fun s => s.c.addresses.map fun p => { p with id := [] }) [.adr, .label] (addressStep E)
    (fun s => (s.c.addresses.map (·.id)).Nodup ∧ ∀ p ∈ s.c.addresses, ∃ i, i < s.addresses ∧ p.id = ids .address i)
    (by
      intro t ht s s' h hI
      have hp : (s'.c.addresses, s'.addresses) = (s.c.addresses, s.addresses) := by
        cases t <;> first | exact (ht (by decide)).elim | exact Eq.trans (congrArg (fun s : RState => (s.c.addresses, s.addresses)) (show s' = _ from h)) rfl
      rw [Prod.mk.injEq] at hp
      rw [hp.1, hp.2]
      exact ⟨hI, rfl⟩)
    (by
      intro s l ht hI
      have hn := fresh_not_mem ids Address.id .address _ _ hI.2 hids
      have hf : findFirst Address.id (ids .address s.addresses) s.c.addresses = none := findFirst_none.2 hn
      replace ht : tagOf l = .adr ∨ tagOf l = .label := by simpa using ht
      rcases ht with ht | ht
      · have hname : nameOf l = q! "adr" := ((tagOf_named l _ tagTable_adr).1 ht).1
        have hr : readLine E ids s l = { s with c := s.c.insertAddress { addressOf E l with id := ids .address s.addresses }, addresses := s.addresses + 1 } := by
          simp only [readLine, ht, card_readAddress_eq]
        have hl : (readLine E ids s l).c.addresses = s.c.addresses ++ [{ addressOf E l with id := ids .address s.addresses }] := by
          rw [hr]
          simp only [Contact.insertAddress, hf]
          rfl
        have hc : (readLine E ids s l).addresses = s.addresses + 1 := by rw [hr]
        rw [hl, hc]
        refine ⟨app s _ hI rfl, ?_⟩
        rw [addressStep, if_pos hname, List.map_append]
        rfl
      · have hname : ¬ nameOf l = q! "adr" := by
          rw [((tagOf_named l (q! "label", .label) (by decide +kernel)).1 ht).1]
          decide
        rw [addressStep, if_neg hname]
        cases hfi : s.c.addresses.find? (fun a => decide (a.type = addressTypeOf l)) with
        | none =>
          have hr : readLine E ids s l = { s with c := s.c.insertAddress (({ id := ids .address s.addresses, type := addressTypeOf l } : Address).set (.label l.value.toString)), addresses := s.addresses + 1 } := by
            simp only [readLine, ht, readLabel, hfi]
            rfl
          have hl : (readLine E ids s l).c.addresses = s.c.addresses ++ [({ id := ids .address s.addresses, type := addressTypeOf l } : Address).set (.label l.value.toString)] := by
            rw [hr]
            simp only [Contact.insertAddress, Address.set, hf]
            rfl
          have hc : (readLine E ids s l).addresses = s.addresses + 1 := by rw [hr]
          rw [hl, hc]
          refine ⟨app s _ hI rfl, ?_⟩
          rw [← addressTypeOf_eq]
          exact withLabel_none _ _ _ _ hfi
        | some a =>
          have hmem : a.id ∈ s.c.addresses.map Address.id := List.mem_map_of_mem (List.mem_of_find?_eq_some hfi)
          have hr : readLine E ids s l = { s with c := s.c.insertAddress (a.copyCtor.set (.label l.value.toString)) } := by
            simp only [readLine, ht, readLabel, hfi]
            rfl
          have hl : (readLine E ids s l).c.addresses = replaceFirst Address.id a.id (a.copyCtor.set (.label l.value.toString)) s.c.addresses := by
            rw [hr]
            have e1 : (a.copyCtor.set (.label l.value.toString)).empty = false := rfl
            have e2 : (a.copyCtor.set (.label l.value.toString)).id = a.id := rfl
            unfold Contact.insertAddress
            rw [e1, e2]
            cases hx : findFirst Address.id a.id s.c.addresses with
            | none => exact (findFirst_none.1 hx hmem).elim
            | some y => rfl
          have hc : (readLine E ids s l).addresses = s.addresses := by rw [hr]
          have hk : (replaceFirst Address.id a.id (a.copyCtor.set (.label l.value.toString)) s.c.addresses).map (·.id) = s.c.addresses.map (·.id) :=
            map_replaceFirst (key := Address.id) rfl
          rw [hl, hc]
          refine ⟨⟨by rw [hk]; exact hI.1, ?_⟩, ?_⟩
          · intro p hp
            have : p.id ∈ s.c.addresses.map (·.id) := by rw [← hk]; exact List.mem_map_of_mem hp
            obtain ⟨p', hp', e⟩ := List.mem_map.1 this
            obtain ⟨i, hi, e'⟩ := hI.2 p' hp'
            exact ⟨i, hi, by rw [← e, e']⟩
          · rw [← addressTypeOf_eq]
            exact withLabel_some _ _ _ _ hI.1 hfi) L s0 (by rw [h0]; simp)
  refine ⟨?_, this.1.1⟩
  rw [this.2, show named L [q! "adr", q! "label"] = _ from named_eq_tags L [(q! "adr", .adr), (q! "label", .label)] (by decide +kernel), h0]
  rfl

end
end KC
