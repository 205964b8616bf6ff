import Verif.Props.C24
import Verif.Spec.Messaging
/- Helper lemmas: old messaging fields in an exported contact. -/
namespace KC
open Spec

/-- what a messaging line adds -/
def legacyImpps (E : ToolEnv) (l : VCardLine) : List ParamUrl :=
  (((splitOn 0xE000 l.value.toString).filter fun s => !s.isEmpty).map fun s =>
    ({ params := l.params, url := E.urlMake (normalizeImppServiceType (midQ (customKey l) 10 (indexQ (qc! '-') (customKey l) - 10))) s } : ParamUrl)).filter
    fun u => u.isValidImpp E.toQtEnv

theorem foldl_insertImpp (E : ToolEnv) (f : QString → ParamUrl) (vs : List QString) (c : Contact) :
    (vs.foldl (fun c x => c.insertImpp E.toQtEnv (f x)) c).impps = c.impps ++ (vs.map f).filter (fun u => u.isValidImpp E.toQtEnv) ∧
    (vs.foldl (fun c x => c.insertImpp E.toQtEnv (f x)) c).customs = c.customs := by
  induction vs generalizing c with
  | nil => simp
  | cons x vs ih =>
    rw [List.foldl_cons, (ih _).1, (ih _).2, List.map_cons, List.filter_cons]
    unfold Contact.insertImpp
    split <;> simp

theorem readX_messaging (E : ToolEnv) (l : VCardLine) (c : Contact) (h : startsWith (q! "messaging/") (customKey l) = true) :
    (readX E l c).impps = c.impps ++ legacyImpps E l ∧ (readX E l c).customs = c.customs := by
  unfold readX
  simp only [h, if_true]
  exact foldl_insertImpp E _ _ _

/-- the messaging addresses after a line, whatever the line -/
def imppAll (E : ToolEnv) (m : List ParamUrl) (l : VCardLine) : List ParamUrl :=
  if tagOf l = .x then (if startsWith (q! "messaging/") (customKey l) = true then m ++ legacyImpps E l else m) else imppAfter E m l

theorem comp_imppAll (E : ToolEnv) (ids : IdKind → Nat → QString) (lines : List VCardLine) (s : RState) :
    (lines.foldl (readLine E ids) s).c.impps = (lines.filter fun l => tagOf l ∈ [Tag.impp, Tag.x]).foldl (imppAll E) s.c.impps := by
  refine component E ids (fun s => s.c.impps) (imppAll E) [Tag.impp, Tag.x] lines s ?_ ?_
  · frame_tac E ids (fun s => s.c.impps)
  · intro s l hl ht
    unfold readLine imppAll
    rcases List.mem_cons.1 ht with h | h
    · rw [h]
      simp only [reduceCtorEq, if_false]
      unfold Contact.insertImpp imppAfter
      simp only
      (repeat' split) <;> rfl
    · rw [List.mem_singleton.1 h]
      simp only [if_true]
      split
      · rename_i hm; exact (readX_messaging E l s.c hm).1
      · rename_i hm; rw [readX_custom E (by simpa using hm), insertCustom_shape]

/-- the custom fields after a line, whatever the line -/
def customAll (m : SMap QString) (l : VCardLine) : SMap QString :=
  if tagOf l = .x ∧ startsWith (q! "messaging/") (customKey l) = true then m else customAfter m l

theorem comp_customAll (E : ToolEnv) (ids : IdKind → Nat → QString) (lines : List VCardLine) (s : RState) :
    (lines.foldl (readLine E ids) s).c.customs = (lines.filter fun l => tagOf l ∈ [Tag.x, Tag.anniversary]).foldl customAll s.c.customs := by
  refine component E ids (fun s => s.c.customs) customAll [Tag.x, Tag.anniversary] lines s ?_ ?_
  · frame_tac E ids (fun s => s.c.customs)
  · intro s l hl ht
    unfold readLine customAll customAfter
    rcases List.mem_cons.1 ht with h | h
    · rw [h]
      simp only [reduceCtorEq, if_false, true_and]
      split
      · rename_i hm; exact (readX_messaging E l s.c hm).2
      · rename_i hm; rw [readX_custom E (by simpa using hm), addCustom_eq]
    · rw [List.mem_singleton.1 h]
      simp only [reduceCtorEq, false_and, if_false, if_true]; rw [addCustom_eq]

/-! ### one contact, read -/

/-- the state after reading the lines of one card -/
def readOne (E : ToolEnv) (ids : IdKind → Nat → QString) (L : List VCardLine) : RState :=
  (seen L).foldl (readLine E ids) { c := Contact.new (ids .contact 0), addresses := 0, phones := 0, keys := 0 }

theorem readCards_one (E : ToolEnv) (ids : IdKind → Nat → QString) (L : List VCardLine) (h : (readOne E ids L).ub = false) :
    readCards E ids 0 0 0 0 [cardAfter (writtenBack L)] = some [(readOne E ids L).c] := by
  rw [readCards]
  show (if (readOne E ids L).ub then none else (readCards E ids (0 + 1) (readOne E ids L).addresses (readOne E ids L).phones (readOne E ids L).keys []).map ((readOne E ids L).c :: ·)) = _
  rw [h]
  rfl

theorem parseContacts_one (E : ToolEnv) (v : Version) (ids : IdKind → Nat → QString) (x : Bool) (d : Contact) (hf : Fine E (contactLines E v x d))
    (hub : (readOne E ids (contactLines E v x d)).ub = false) (fuel : Nat) (hn : (physLines (createContacts E v x [d])).length + 2 ≤ fuel) :
    parseContacts E ids fuel (createContacts E v x [d]) = .ok [(readOne E ids (contactLines E v x d)).c] := by
  have hr := reads_text E.toCodecs readBack [cardAfter (contactLines E v x d)] (by
    intro card hc l hl
    rw [List.mem_singleton] at hc
    subst hc
    exact lineFine_reads _ _ (hf l (mem_flatMap_lines _ _ _ hl)))
  have hp := parseVCards_of_readText E.toCodecs (createContacts E v x [d]) _ hr fuel hn
  unfold parseContacts
  rw [hp]
  simp only [List.map_cons, List.map_nil]
  have := readCards_one E ids _ hub
  unfold writtenBack at this
  rw [this]

/-! ### one messaging field in a card -/

def imppOf (E : ToolEnv) (l : VCardLine) : List ParamUrl :=
  if tagOf l = .x then (if startsWith (q! "messaging/") (customKey l) = true then legacyImpps E l else []) else imppAfter E [] l

theorem imppAll_eq (E : ToolEnv) (m : List ParamUrl) (l : VCardLine) : imppAll E m l = m ++ imppOf E l := by
  unfold imppAll imppOf
  split
  · split <;> simp
  · unfold imppAfter
    simp only
    split <;> split <;> simp_all

theorem foldl_imppAll (E : ToolEnv) (L : List VCardLine) (m : List ParamUrl) : L.foldl (imppAll E) m = m ++ L.flatMap (imppOf E) := by
  induction L generalizing m with
  | nil => simp
  | cons l L ih => rw [List.foldl_cons, ih, imppAll_eq, List.flatMap_cons, List.append_assoc]

theorem foldl_ub (L : List VCardLine) (b : Bool) : L.foldl (fun b l => b || (parsePicture l).isNone) b = (b || L.any fun l => (parsePicture l).isNone) := by
  induction L generalizing b with
  | nil => simp
  | cons l L ih => rw [List.foldl_cons, ih, List.any_cons, Bool.or_assoc]

/-- the contact `c` with one custom field -/
def Contact.withCustom (c : Contact) (key value : QString) : Contact := { c with customs := [(key, value)] }

theorem flatten_withCustom (E : ToolEnv) (v : Version) (c : Contact) (h0 : c.customs = []) (key value : QString) :
    contactLines E v true (c.withCustom key value) = contactLines E v false c ++ customLines E v true (c.withCustom key value) := by
  have h : contactSections E v true (c.withCustom key value) = (contactSections E v false c).dropLast ++ [customLines E v true (c.withCustom key value)] := rfl
  have h2 : contactSections E v false c = (contactSections E v false c).dropLast ++ [customLines E v false c] := rfl
  have h3 : customLines E v false c = [] := by unfold customLines Contact.customsList; rw [h0]; rfl
  unfold contactLines
  rw [h, h2, h3]
  simp

section
variable {E : ToolEnv} {v : Version} {c : Contact} (hR : Carriable E v c) (h0 : c.customs = []) (ids : IdKind → Nat → QString) (s : RState)
variable {l l' : VCardLine} (hl : readBack l = some l') (hx : tagOf l' = .x) (hm : startsWith (q! "messaging/") (customKey l') = true)
include hR h0 hl hx hm

theorem seen_more : (seen (contactLines E v false c ++ [l])).Perm (seen (contactLines E v false c) ++ [l']) := by
  refine (seen_perm _).trans ?_
  rw [List.filterMap_append, List.filterMap_cons, hl]
  exact (seen_perm _).symm.append_right _

theorem more_impps (h : s.c.impps = []) : ((seen (contactLines E v false c ++ [l])).foldl (readLine E ids) s).c.impps.Perm (c.impps ++ legacyImpps E l') := by
  rw [comp_imppAll, foldl_imppAll, h, List.nil_append]
  have hb := back_impps hR ids s h
  rw [back, comp_imppAll, foldl_imppAll, h, List.nil_append] at hb
  refine (((seen_more hR h0 hl hx hm).filter _).flatMap_right _).trans ?_
  rw [List.filter_append, List.flatMap_append, hb]
  refine List.Perm.of_eq ?_
  have : tagOf l' ∈ [Tag.impp, Tag.x] := by rw [hx]; decide
  rw [List.filter_cons, if_pos (by simpa using this)]
  simp [imppOf, hx, hm]

theorem more_customs (h : s.c.customs = []) : ((seen (contactLines E v false c ++ [l])).foldl (readLine E ids) s).c.customs = [] := by
  rw [comp_customAll, h]
  have hp := seen_section_perm (secOK hR) (i := 38) (T := [.x, .anniversary]) rfl (by decide)
  change List.Perm ((seen (contactLines E v false c)).filter _) ((customLines E v false c).filterMap readBack) at hp
  have h3 : customLines E v false c = [] := by unfold customLines Contact.customsList; rw [h0]; rfl
  rw [h3, List.filterMap_nil, List.perm_nil] at hp
  have hq := (seen_more hR h0 hl hx hm).filter fun r => decide (tagOf r ∈ [Tag.x, .anniversary])
  rw [List.filter_append, hp, List.nil_append, List.filter_cons, if_pos (by rw [hx]; decide), List.filter_nil, List.perm_singleton] at hq
  rw [hq]
  simp [customAll, hx, hm]

theorem more_ub (h : s.ub = false) : ((seen (contactLines E v false c ++ [l])).foldl (readLine E ids) s).ub = false := by
  have hb := back_ub hR ids s h
  rw [back, comp_ub, foldl_ub, h, Bool.false_or] at hb
  rw [comp_ub, foldl_ub, h, Bool.false_or]
  have hq := (seen_more hR h0 hl hx hm).filter fun r => decide (tagOf r ∈ [Tag.logo, .photo])
  rw [List.filter_append, List.filter_cons, if_neg (by rw [hx]; decide), List.filter_nil, List.append_nil] at hq
  rw [Bool.eq_false_iff] at hb ⊢
  intro hc
  apply hb
  obtain ⟨x, hx1, hx2⟩ := List.any_eq_true.1 hc
  exact List.any_eq_true.2 ⟨x, hq.mem_iff.1 hx1, hx2⟩

end

end KC
