import Verif.Model.Shared
import Verif.Model.Setters
/-
  C33: copies are independent values.
-/
namespace KC
variable {α : Type}

/-! ### specification: objects that are simply values -/

/-- Objects as values; `none` is a destroyed object. -/
abbrev Values (α : Type) := List (Option α)

/-- What the operations do if every object is a value of its own. -/
def valueStep (l : Values α) : StoreOp α → Values α
  | .create v => l ++ [some v]
  | .copy h => match (l[h]?).join with
    | none => l
    | some v => l ++ [some v]
  | .assign dst src => match (l[dst]?).join, (l[src]?).join with
    | some _, some v => l.set dst (some v)
    | _, _ => l
  | .destroy h => l.set h none
  | .change h f => l.modify h (Option.map f)

/-- A run of values. -/
def valueRun (ops : List (StoreOp α)) : Values α := ops.foldl valueStep []

/-- All objects created have the property, and all changes keep it. -/
def StoreOp.Keeps (P : α → Prop) : StoreOp α → Prop
  | .create v => P v
  | .change _ f => ∀ v, P v → P (f v)
  | _ => True

/-! ### the shared representation -/

/-- The values of all objects. -/
def Store.view (s : Store α) : Values α := s.handles.map fun o => o.bind fun b => s.blocks[b]?

/-- Every object points to an existing block. -/
def Store.Ok (s : Store α) : Prop := ∀ h b, s.block h = some b → b < s.blocks.length

theorem Store.view_get (s : Store α) (h : Nat) : (s.view[h]?).join = s.value h := by
  unfold Store.view Store.value Store.block
  rw [List.getElem?_map]
  cases s.handles[h]? <;> rfl

theorem block_some {s : Store α} {h b : Nat} (e : s.block h = some b) : s.handles[h]? = some (some b) := by
  unfold Store.block at e
  cases hh : s.handles[h]? with
  | none => rw [hh] at e; cases e
  | some o => rw [hh] at e; simpa using e

theorem Store.Ok_step (cc : α → α) {s : Store α} (hs : s.Ok) (op : StoreOp α) : (s.step cc op).Ok := by
  have hset : ∀ (s' : Store α) (l : List (Option Nat)) (h' : Nat) (o : Option Nat) (n : Nat),
      s'.handles = l.set h' o → (∀ (k b : Nat), (l[k]?).join = some b → b < n) → (∀ b, o = some b → b < n) →
      ∀ k b, s'.block k = some b → b < n := by
    intro s' l h' o n e hl ho k b hb
    have := block_some hb
    rw [e, List.getElem?_set] at this
    split at this
    · split at this
      · simp only [Option.some.injEq] at this; exact ho b this
      · cases this
    · exact hl k b (by rw [this]; rfl)
  cases op with
  | create v =>
    intro k b hb
    have := block_some hb
    simp only [Store.step, List.getElem?_append, List.length_append, List.length_singleton] at this ⊢
    split at this
    · have := hs k b (by unfold Store.block; rw [this]; rfl); omega
    · cases hh : k - s.handles.length with
      | zero => rw [hh] at this; simp at this; omega
      | succ n => rw [hh] at this; simp at this
  | copy h =>
    unfold Store.step
    simp only
    split
    · exact hs
    · rename_i b0 h0
      intro k b hb
      have := block_some hb
      simp only [List.getElem?_append] at this ⊢
      split at this
      · exact hs k b (by unfold Store.block; rw [this]; rfl)
      · cases hh : k - s.handles.length with
        | zero => rw [hh] at this; simp at this; subst this; exact hs h _ h0
        | succ n => rw [hh] at this; simp at this
  | assign dst src =>
    unfold Store.step
    simp only
    split
    · rename_i b0 b h1 h2
      exact hset _ s.handles dst (some b) _ rfl (fun k b hb => hs k b hb) (by intro b' e; cases e; exact hs _ _ h2)
    · exact hs
  | destroy h => exact hset _ s.handles h none _ rfl (fun k b hb => hs k b hb) (by intro b' e; cases e)
  | change h f =>
    unfold Store.step
    simp only
    split
    · exact hs
    · rename_i b h1
      split
      · split
        · exact hs
        · refine hset _ s.handles h (some s.blocks.length) _ rfl (fun k b hb => ?_) (by intro b' e; cases e; simp)
          have := hs k b hb
          simp only [List.length_append, List.length_singleton]; omega
      · intro k b' hb
        simp only [List.length_modify]
        exact hs k b' hb

theorem Store.Ok_run (cc : α → α) (ops : List (StoreOp α)) : ∀ s : Store α, s.Ok → (s.run cc ops).Ok := by
  induction ops with
  | nil => intro s h; exact h
  | cons op t ih => intro s h; exact ih _ (Store.Ok_step cc h op)

theorem Store.Ok_empty : (({} : Store α)).Ok := by
  intro h b e; unfold Store.block at e; simp at e

/-- Objects reached by a program. -/
theorem Store.Ok_reached (cc : α → α) (ops : List (StoreOp α)) : (({} : Store α).run cc ops).Ok := Store.Ok_run cc ops _ Store.Ok_empty

theorem count_one_unique {l : List (Option Nat)} {b : Nat} {h k : Nat} (hc : ¬ 1 < l.count (some b)) (hh : l[h]? = some (some b))
    (hk : l[k]? = some (some b)) : h = k := by
  induction l generalizing h k with
  | nil => simp at hh
  | cons x t ih =>
    by_cases hx : x = some b
    · subst hx
      rw [List.count_cons_self] at hc
      have h0 : (some b) ∉ t := by
        intro hm; have := List.count_pos_iff.2 hm; omega
      cases h with
      | zero => cases k with
        | zero => rfl
        | succ k => exact absurd (List.mem_of_getElem? (by simpa using hk)) h0
      | succ h => exact absurd (List.mem_of_getElem? (by simpa using hh)) h0
    · rw [List.count_cons_of_ne hx] at hc
      cases h with
      | zero => simp at hh; exact absurd hh hx
      | succ h => cases k with
        | zero => simp at hk; exact absurd hk hx
        | succ k => exact congrArg (· + 1) (ih hc (h := h) (k := k) (by simpa using hh) (by simpa using hk))

/-- Whether another object shares the data of `h`. -/
def Store.SharedWithOther (s : Store α) (h : Nat) : Prop := ∃ k b, k ≠ h ∧ s.block h = some b ∧ s.block k = some b

theorem count_gt_one {l : List (Option Nat)} {b : Nat} {h : Nat} (hc : 1 < l.count (some b)) (hh : l[h]? = some (some b)) :
    ∃ k, k ≠ h ∧ l[k]? = some (some b) := by
  induction l generalizing h with
  | nil => simp at hh
  | cons x t ih =>
    by_cases hx : x = some b
    · subst hx
      rw [List.count_cons_self] at hc
      cases h with
      | zero =>
        have : some b ∈ t := List.count_pos_iff.1 (by omega)
        obtain ⟨i, hi⟩ := List.getElem?_of_mem this
        exact ⟨i + 1, by omega, by simpa using hi⟩
      | succ h => exact ⟨0, by omega, by simp⟩
    · rw [List.count_cons_of_ne hx] at hc
      cases h with
      | zero => simp at hh; exact absurd hh hx
      | succ h =>
        obtain ⟨k, h1, h2⟩ := ih hc (by simpa using hh)
        exact ⟨k + 1, by omega, by simpa using h2⟩

/-- Whatever the copy constructor does: after a modifying call on one object in any program, every other object shows the
    value it showed before. -/
theorem C33_others_unchanged (cc : α → α) (ops : List (StoreOp α)) (h k : Nat) (hk : k ≠ h) (f : α → α) :
    ((({} : Store α).run cc ops).step cc (.change h f)).value k = (({} : Store α).run cc ops).value k := by
  have hs := Store.Ok_reached cc ops
  generalize ({} : Store α).run cc ops = s at hs
  unfold Store.step
  simp only
  split
  · rfl
  · rename_i b hb
    have hb' := block_some hb
    split
    · split
      · rfl
      · unfold Store.value Store.block
        simp only
        rw [List.getElem?_set_ne (Ne.symm hk)]
        cases hkb : (s.handles[k]?).join with
        | none => rfl
        | some c =>
          have : c < s.blocks.length := hs k c hkb
          simp only [Option.bind_some]
          rw [List.getElem?_append_left this]
    · rename_i hc
      unfold Store.value
      simp only [Store.block]
      cases hkb : (s.handles[k]?).join with
      | none => rfl
      | some c =>
        simp only [Option.bind_some]
        rw [List.getElem?_modify]
        have : b ≠ c := by
          rintro rfl
          exact hk (count_one_unique (by simpa [Store.shared] using hc) (block_some hkb) hb')
        simp [this]

/-- Exact effect on the object itself: its data goes through the copy constructor first if, and only if, another object
    shares it. -/
theorem C33_changed (cc : α → α) (ops : List (StoreOp α)) (h : Nat) (f : α → α) (v : α)
    (hv : (({} : Store α).run cc ops).value h = some v) :
    ((({} : Store α).run cc ops).SharedWithOther h →
      ((({} : Store α).run cc ops).step cc (.change h f)).value h = some (f (cc v))) ∧
    (¬ (({} : Store α).run cc ops).SharedWithOther h →
      ((({} : Store α).run cc ops).step cc (.change h f)).value h = some (f v)) := by
  generalize ({} : Store α).run cc ops = s at hv
  have hv' := hv
  unfold Store.value at hv'
  cases hb : s.block h with
  | none => rw [hb] at hv'; cases hv'
  | some b =>
    rw [hb, Option.bind_some] at hv'
    have hb' := block_some hb
    have hsh : s.shared b = true ↔ s.SharedWithOther h := by
      unfold Store.shared Store.SharedWithOther
      rw [decide_eq_true_iff]
      constructor
      · intro hc
        obtain ⟨k, h1, h2⟩ := count_gt_one hc hb'
        exact ⟨k, b, h1, hb, by unfold Store.block; rw [h2]; rfl⟩
      · rintro ⟨k, c, h1, h2, h3⟩
        rw [hb] at h2; cases h2
        by_cases hc : 1 < s.handles.count (some b)
        · exact hc
        · exact absurd (count_one_unique hc (block_some h3) hb') h1
    unfold Store.step
    simp only [hb]
    constructor
    · intro h1
      rw [if_pos (hsh.2 h1), hv']
      have hl : h < s.handles.length := (List.getElem?_eq_some_iff.1 hb').1
      simp [Store.value, Store.block, hl]
    · intro h1
      rw [if_neg (fun e => h1 (hsh.1 e))]
      unfold Store.value
      have : ({ s with blocks := s.blocks.modify b f } : Store α).block h = some b := hb
      rw [this, Option.bind_some]
      simp [List.getElem?_modify, hv']

theorem view_step (P : α → Prop) (cc : α → α) (hcc : ∀ v, P v → cc v = v) {s : Store α} (hs : s.Ok) (hP : ∀ v ∈ s.blocks, P v)
    (op : StoreOp α) (hop : op.Keeps P) : (s.step cc op).view = valueStep s.view op ∧ ∀ v ∈ (s.step cc op).blocks, P v := by
  have hblk : ∀ (extra : List α) (o : Option Nat), o ∈ s.handles →
      (o.bind fun b => (s.blocks ++ extra)[b]?) = o.bind fun b => s.blocks[b]? := by
    intro extra o ho
    cases o with
    | none => rfl
    | some b =>
      obtain ⟨i, hi⟩ := List.getElem?_of_mem ho
      have : b < s.blocks.length := hs i b (by unfold Store.block; rw [hi]; rfl)
      simp only [Option.bind_some]
      rw [List.getElem?_append_left this]
  cases op with
  | create v =>
    refine ⟨?_, ?_⟩
    · simp only [Store.step, valueStep, Store.view, List.map_append, List.map_cons, List.map_nil]
      rw [List.map_congr_left (hblk [v])]
      simp
    · intro w hw
      rcases List.mem_append.1 hw with hw | hw
      · exact hP w hw
      · rw [List.mem_singleton.1 hw]; exact hop
  | copy h =>
    unfold Store.step valueStep
    simp only
    rw [Store.view_get, Store.value]
    cases hb : s.block h with
    | none => exact ⟨rfl, hP⟩
    | some b =>
      have hlt := hs h b hb
      rw [Option.bind_some, List.getElem?_eq_getElem hlt]
      refine ⟨?_, hP⟩
      simp [Store.view, hlt]
  | assign dst src =>
    unfold Store.step valueStep
    simp only
    rw [Store.view_get, Store.view_get, Store.value, Store.value]
    cases hb : s.block dst with
    | none => exact ⟨rfl, hP⟩
    | some b =>
      have hlt := hs dst b hb
      rw [Option.bind_some, List.getElem?_eq_getElem hlt]
      cases hb2 : s.block src with
      | none => exact ⟨rfl, hP⟩
      | some b2 =>
        have hlt2 := hs src b2 hb2
        rw [Option.bind_some, List.getElem?_eq_getElem hlt2]
        refine ⟨?_, hP⟩
        simp [Store.view, List.map_set, hlt2]
  | destroy h => exact ⟨by simp [Store.step, valueStep, Store.view, List.map_set], hP⟩
  | change h f =>
    unfold Store.step valueStep
    simp only
    have hview : ∀ o, (s.handles[h]? = some o) → s.view[h]? = some (o.bind fun b => s.blocks[b]?) := by
      intro o ho; unfold Store.view; rw [List.getElem?_map, ho]; rfl
    cases hb : s.block h with
    | none =>
      refine ⟨?_, hP⟩
      simp only
      apply List.ext_getElem?
      intro i
      rw [List.getElem?_modify]
      by_cases hi : h = i
      · subst hi
        simp only [if_true]
        cases hh : s.handles[h]? with
        | none => simp [Store.view, hh]
        | some o =>
          unfold Store.block at hb
          rw [hh] at hb
          simp only [Option.join_some] at hb
          subst hb
          rw [hview none hh]; rfl
      · simp [hi]
    | some b =>
      have hlt := hs h b hb
      have hb' := block_some hb
      have hl : h < s.handles.length := (List.getElem?_eq_some_iff.1 hb').1
      simp only
      by_cases hsh : s.shared b = true
      · rw [if_pos hsh, List.getElem?_eq_getElem hlt]
        have hPv := hP _ (List.getElem_mem hlt)
        simp only [hcc _ hPv]
        refine ⟨?_, ?_⟩
        · unfold Store.view
          simp only
          rw [List.map_set, List.map_congr_left (hblk _)]
          apply List.ext_getElem?
          intro i
          rw [List.getElem?_modify, List.getElem?_set]
          by_cases hi : h = i
          · subst hi
            have e : s.handles[h] = some b := by
              have := List.getElem?_eq_getElem hl; rw [hb'] at this; exact (Option.some.inj this).symm
            simp [hl, hlt, e]
          · simp [hi]
        · intro w hw
          rcases List.mem_append.1 hw with hw | hw
          · exact hP w hw
          · rw [List.mem_singleton.1 hw]; exact hop _ hPv
      · rw [if_neg hsh]
        refine ⟨?_, ?_⟩
        · apply List.ext_getElem?
          intro i
          unfold Store.view
          rw [List.getElem?_modify, List.getElem?_map, List.getElem?_map]
          by_cases hi : h = i
          · subst hi
            simp [hb', List.getElem?_modify, hlt]
          · cases hhi : s.handles[i]? with
            | none => simp [hi]
            | some o =>
              cases o with
              | none => simp [hi]
              | some c =>
                have : b ≠ c := by
                  rintro rfl
                  exact hi (count_one_unique (by simpa [Store.shared] using hsh) hb' hhi)
                simp [hi, List.getElem?_modify, this]
        · intro w hw
          obtain ⟨i, hi⟩ := List.getElem?_of_mem hw
          simp only [List.getElem?_modify] at hi
          cases hx : s.blocks[i]? with
          | none => rw [hx] at hi; simp at hi
          | some v =>
            have hv := hP _ (List.mem_of_getElem? hx)
            rw [hx] at hi
            simp only [Option.map_eq_map, Option.map_some, Option.some.injEq] at hi
            split at hi
            · subst hi; exact hop _ hv
            · subst hi; exact hv

/-- Partial: programs all of whose objects keep to data the copy constructor preserves see plain values, whatever the
    history of copies, assignments, destructions and changes. -/
theorem C33_values_partial (P : α → Prop) (cc : α → α) (hcc : ∀ v, P v → cc v = v) (ops : List (StoreOp α)) (hops : ∀ op ∈ ops, op.Keeps P)
    (h : Nat) : (({} : Store α).run cc ops).value h = ((valueRun ops)[h]?).join := by
  suffices H : ∀ (ops : List (StoreOp α)) (s : Store α), s.Ok → (∀ v ∈ s.blocks, P v) → (∀ op ∈ ops, op.Keeps P) →
      (s.run cc ops).view = ops.foldl valueStep s.view by
    have e := H ops {} Store.Ok_empty (by simp) hops
    rw [← Store.view_get, e]; rfl
  intro ops
  induction ops with
  | nil => intro s _ _ _; rfl
  | cons op t ih =>
    intro s hs hP hk
    have := view_step P cc hcc hs hP op (hk op (by simp))
    show ((s.step cc op).run cc t).view = t.foldl valueStep (valueStep s.view op)
    rw [ih _ (Store.Ok_step cc hs op) this.2 (fun o ho => hk o (List.mem_cons_of_mem _ ho)), this.1]

/-- A class whose copy constructor copies every member behaves as a value type (emails, languages, relations, titles, roles,
    organisations, nicknames, URLs, calendars, positions, keys, sounds, genders, time zones, groups, group data ...). -/
theorem C33_complete_copy (cc : α → α) (hcc : ∀ v, cc v = v) (ops : List (StoreOp α)) (h : Nat) :
    (({} : Store α).run cc ops).value h = ((valueRun ops)[h]?).join :=
  C33_values_partial (fun _ => True) cc (fun v _ => hcc v) ops (by intro op _; cases op <;> simp [StoreOp.Keeps]) h

/-- Contacts behave as values as long as no kind, field group, nickname or client pid map is used. -/
theorem C33_contact_partial (ops : List (StoreOp Contact))
    (hops : ∀ op ∈ ops, op.Keeps fun c => c.kind = [] ∧ c.fieldGroups = [] ∧ c.nickNames = [] ∧ c.clientPidMaps = []) (h : Nat) :
    (({} : Store Contact).run Contact.copyCtor ops).value h = ((valueRun ops)[h]?).join :=
  C33_values_partial _ _ (by rintro v ⟨h1, h2, h3, h4⟩; cases v; simp only at h1 h2 h3 h4; subst h1 h2 h3 h4; rfl) ops hops h

/-- Addresses as long as no position is set; phone numbers without parameters; IM addresses without address (that is, never in
    practice); references without gid; pictures without raw data. -/
theorem C33_other_partial (h : Nat) :
    (∀ ops : List (StoreOp Address), (∀ op ∈ ops, op.Keeps fun a => a.geo = {}) →
      (({} : Store Address).run Address.copyCtor ops).value h = ((valueRun ops)[h]?).join) ∧
    (∀ ops : List (StoreOp PhoneNumber), (∀ op ∈ ops, op.Keeps fun a => a.params = []) →
      (({} : Store PhoneNumber).run PhoneNumber.copyCtor ops).value h = ((valueRun ops)[h]?).join) ∧
    (∀ ops : List (StoreOp ParamUrl), (∀ op ∈ ops, op.Keeps fun a => a.url = []) →
      (({} : Store ParamUrl).run ParamUrl.copyCtorImpp ops).value h = ((valueRun ops)[h]?).join) ∧
    (∀ ops : List (StoreOp ContactRef), (∀ op ∈ ops, op.Keeps fun a => a.gid = []) →
      (({} : Store ContactRef).run ContactRef.copyCtor ops).value h = ((valueRun ops)[h]?).join) ∧
    (∀ ops : List (StoreOp Picture), (∀ op ∈ ops, op.Keeps fun a => a.rawData = []) →
      (({} : Store Picture).run Picture.copyCtor ops).value h = ((valueRun ops)[h]?).join) := by
  refine ⟨fun ops ho => ?_, fun ops ho => ?_, fun ops ho => ?_, fun ops ho => ?_, fun ops ho => ?_⟩
  all_goals refine C33_values_partial _ _ ?_ ops ho h
  · intro v e; cases v; simp only at e; subst e; rfl
  · intro v e; cases v; simp only at e; subst e; rfl
  · intro v e; cases v; simp only at e; subst e; rfl
  · intro v e; cases v; simp only at e; subst e; rfl
  · intro v e; cases v; simp only at e; subst e; rfl

/-- Non-vacuity: a program that copies and changes a contact, satisfying the condition. -/
example : let ops : List (StoreOp Contact) := [.create { uid := q! "1" }, .copy 0, .change 1 fun c => c.addEmail { mail := q! "a@b" }]
    (∀ op ∈ ops, op.Keeps fun c => c.kind = [] ∧ c.fieldGroups = [] ∧ c.nickNames = [] ∧ c.clientPidMaps = []) ∧
    ((({} : Store Contact).run Contact.copyCtor ops).value 1).map (·.emails) = some [{ mail := q! "a@b" }] ∧
    ((({} : Store Contact).run Contact.copyCtor ops).value 0).map (·.emails) = some [] := by
  refine ⟨?_, by decide, by decide⟩
  intro op hop
  simp only [List.mem_cons, List.not_mem_nil, or_false] at hop
  rcases hop with rfl | rfl | rfl
  · exact ⟨rfl, rfl, rfl, rfl⟩
  · trivial
  · intro v hv
    simp only [Contact.addEmail]
    cases findFirst Email.mail (q! "a@b") v.emails <;> exact hv

/-! ### the claim as listed is false: setting one field of a copy loses other fields of it -/

/-- Setting the note of a copied contact loses its nicknames (and kind, field groups, client pid maps). -/
theorem C33_contact_false : ¬ ∀ (c : Contact) (note : QString),
    (({} : Store Contact).run Contact.copyCtor [.create c, .copy 0, .change 1 fun c => { c with note := note, empty := false }]).value 1 =
      some { c with note := note, empty := false } := by
  intro h
  exact absurd (h { uid := [], nickNames := [{ text := q! "Al" }] } (q! "n")) (by decide)

/-- Setting the street of a copied address loses its position. -/
theorem C33_address_false : ¬ ∀ (a : Address) (s : QString),
    (({} : Store Address).run Address.copyCtor [.create a, .copy 0, .change 1 (·.set (.street s))]).value 1 = some (a.set (.street s)) := by
  intro h
  exact absurd (h { id := [], geo := Geo.mk' (.ofInt 1) (.ofInt 2) } (q! "s")) (by decide)

/-- Setting the number of a copied phone number loses its parameters. -/
theorem C33_phone_false : ¬ ∀ (p : PhoneNumber) (s : QString),
    (({} : Store PhoneNumber).run PhoneNumber.copyCtor [.create p, .copy 0, .change 1 (·.setNumber s)]).value 1 = some (p.setNumber s) := by
  intro h
  exact absurd (h { id := [], params := [(q! "a", [])] } []) (by decide)

/-- Making a copied instant-messaging address preferred loses the address. -/
theorem C33_impp_false : ¬ ∀ (u : ParamUrl),
    (({} : Store ParamUrl).run ParamUrl.copyCtorImpp [.create u, .copy 0, .change 1 fun u => { u with params := imppSetPreferred u.params true }]).value 1 =
      some { u with params := imppSetPreferred u.params true } := by
  intro h
  exact absurd (h { url := q! "xmpp:a@b" }) (by decide)

/-- Setting the preferred email of a copied contact reference loses its gid. -/
theorem C33_reference_false : ¬ ∀ (r : ContactRef) (s : QString),
    (({} : Store ContactRef).run ContactRef.copyCtor [.create r, .copy 0, .change 1 fun r => { r with preferredEmail := s }]).value 1 =
      some { r with preferredEmail := s } := by
  intro h
  exact absurd (h { gid := q! "g" } []) (by decide)

/-- Setting the URL of a copied picture loses its raw data, setting that of an unshared one does not. -/
theorem C33_picture_false : ¬ ∀ (p : Picture) (s : QString),
    (({} : Store Picture).run Picture.copyCtor [.create p, .copy 0, .change 1 (·.setUrl s)]).value 1 = some (p.setUrl s) := by
  intro h
  exact absurd (h { rawData := [1], isIntern := true } []) (by decide)

end KC
