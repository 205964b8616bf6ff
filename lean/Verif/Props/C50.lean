import Verif.Model.Values
/-
  C50: geographical positions are always in range or invalid.
-/
namespace KC

/-- A finite number between two integers (of degrees), in the representation `k * 2^-149` of floats. -/
def Between (lo hi : Int) (x : Flt) : Prop := ∃ k : Int, x = .fin k ∧ lo * 2 ^ 149 ≤ k ∧ k ≤ hi * 2 ^ 149

/-- What a user can do to a position. `Geo(lat, long)` is the two setters in a row. -/
inductive GeoOp where
  | latitude (x : Flt)
  | longitude (x : Flt)
  | clear

def GeoOp.apply (g : Geo) : GeoOp → Geo
  | .latitude x => g.setLatitude x
  | .longitude x => g.setLongitude x
  | .clear => g.clear

def geoHistory (ops : List GeoOp) : Geo := ops.foldl GeoOp.apply {}

theorem le_both_iff (lo hi : Int) (x : Flt) : ((Flt.ofInt lo).le x && x.le (.ofInt hi)) = true ↔ Between lo hi x := by
  unfold Between Flt.ofInt
  cases x <;> simp [Flt.le]

/-- What the operations keep true: a coordinate flagged as valid is in range. -/
def GeoOK (g : Geo) : Prop :=
  (g.validLatitude = true → Between (-90) 90 g.latitude) ∧ (g.validLongitude = true → Between (-180) 180 g.longitude)

theorem geoStep_ok (g : Geo) (op : GeoOp) (h : GeoOK g) : GeoOK (op.apply g) := by
  cases op with
  | latitude x =>
    simp only [GeoOp.apply, Geo.setLatitude]
    split
    · rename_i hx; exact ⟨fun _ => (le_both_iff _ _ _).1 hx, h.2⟩
    · exact ⟨fun h => by simp at h, h.2⟩
  | longitude x =>
    simp only [GeoOp.apply, Geo.setLongitude]
    split
    · rename_i hx; exact ⟨h.1, fun _ => (le_both_iff _ _ _).1 hx⟩
    · exact ⟨h.1, fun h => by simp at h⟩
  | clear => exact ⟨fun h => by simp [GeoOp.apply, Geo.clear] at h, fun h => by simp [GeoOp.apply, Geo.clear] at h⟩

theorem geoHistory_ok (ops : List GeoOp) : GeoOK (geoHistory ops) := by
  have : ∀ (ops : List GeoOp) (g : Geo), GeoOK g → GeoOK (ops.foldl GeoOp.apply g) := by
    intro ops
    induction ops with
    | nil => intro g h; exact h
    | cons o t ih => intro g h; exact ih _ (geoStep_ok g o h)
  exact this ops {} ⟨fun h => by simp at h, fun h => by simp at h⟩

/-- After any sequence of operations a valid position is in range. -/
theorem C50_valid_in_range (ops : List GeoOp) (h : (geoHistory ops).isValid = true) :
    Between (-90) 90 (geoHistory ops).latitude ∧ Between (-180) 180 (geoHistory ops).longitude := by
  simp only [Geo.isValid, Bool.and_eq_true] at h
  have := geoHistory_ok ops
  exact ⟨this.1 h.1, this.2 h.2⟩

/-- A coordinate in range is stored as given and makes that coordinate valid; any other value makes the position invalid
    and the coordinate read as 91 or 181 degrees. -/
theorem C50_setter (g : Geo) (x : Flt) :
    ((g.setLatitude x).isValid = true ↔ Between (-90) 90 x ∧ g.validLongitude = true) ∧
    (Between (-90) 90 x → (g.setLatitude x).latitude = x) ∧
    ((g.setLongitude x).isValid = true ↔ Between (-180) 180 x ∧ g.validLatitude = true) ∧
    (Between (-180) 180 x → (g.setLongitude x).longitude = x) ∧
    (g.setLatitude x).longitude = g.longitude ∧ (g.setLongitude x).latitude = g.latitude ∧
    (¬ Between (-90) 90 x → (g.setLatitude x).latitude = .ofInt 91) ∧ (¬ Between (-180) 180 x → (g.setLongitude x).longitude = .ofInt 181) := by
  simp only [← le_both_iff]
  refine ⟨?_, ?_, ?_, ?_, ?_, ?_, ?_, ?_⟩
  · by_cases h : ((Flt.ofInt (-90)).le x && x.le (.ofInt 90)) = true <;> simp [Geo.setLatitude, Geo.isValid, h]
  · intro h; simp [Geo.setLatitude, h]
  · by_cases h : ((Flt.ofInt (-180)).le x && x.le (.ofInt 180)) = true <;> simp [Geo.setLongitude, Geo.isValid, h, and_comm]
  · intro h; simp [Geo.setLongitude, h]
  · unfold Geo.setLatitude; split <;> rfl
  · unfold Geo.setLongitude; split <;> rfl
  · intro h; simp [Geo.setLatitude, h]
  · intro h; simp [Geo.setLongitude, h]

/-- A cleared position is not valid. -/
theorem C50_cleared (g : Geo) : g.clear.isValid = false ∧ ∀ x, (g.clear.setLatitude x).isValid = false ∧ (g.clear.setLongitude x).isValid = false := by
  refine ⟨rfl, fun x => ⟨?_, ?_⟩⟩
  · unfold Geo.setLatitude; split <;> rfl
  · unfold Geo.setLongitude; split <;> rfl

theorem fltEq_of_between {lo hi : Int} {x y : Flt} (hx : Between lo hi x) : y.eq x = true ↔ x = y := by
  obtain ⟨k, rfl, -⟩ := hx
  cases y <;> simp [Flt.eq, eq_comm]

/-- Two reachable positions compare equal iff both are invalid, or both are valid with the same coordinates. -/
theorem C50_equal_iff (ops ops' : List GeoOp) :
    (geoHistory ops).eq (geoHistory ops') = true ↔
      ((geoHistory ops).isValid = false ∧ (geoHistory ops').isValid = false) ∨
      ((geoHistory ops).isValid = true ∧ (geoHistory ops').isValid = true ∧
        (geoHistory ops).latitude = (geoHistory ops').latitude ∧ (geoHistory ops).longitude = (geoHistory ops').longitude) := by
  have h1 := C50_valid_in_range ops
  revert h1
  generalize geoHistory ops = g
  generalize geoHistory ops' = g'
  intro h1
  unfold Geo.eq
  cases hv : g.isValid with
  | false => cases hv' : g'.isValid <;> simp
  | true =>
    cases hv' : g'.isValid with
    | false => simp
    | true =>
      obtain ⟨ha, hb⟩ := h1 hv
      simp only [Bool.not_true, Bool.and_self, Bool.false_eq_true, if_false, Bool.or_self, Bool.and_eq_true,
        fltEq_of_between ha, fltEq_of_between hb]
      simp

/-- Equality of reachable positions is an equivalence. -/
theorem C50_equality_equivalence (a b c : List GeoOp) :
    (geoHistory a).eq (geoHistory a) = true ∧
    ((geoHistory a).eq (geoHistory b) = true → (geoHistory b).eq (geoHistory a) = true) ∧
    ((geoHistory a).eq (geoHistory b) = true → (geoHistory b).eq (geoHistory c) = true → (geoHistory a).eq (geoHistory c) = true) := by
  simp only [C50_equal_iff]
  refine ⟨?_, ?_, ?_⟩
  · cases (geoHistory a).isValid <;> simp
  · rintro (⟨h1, h2⟩ | ⟨h1, h2, h3, h4⟩)
    · left; exact ⟨h2, h1⟩
    · right; exact ⟨h2, h1, h3.symm, h4.symm⟩
  · rintro (⟨h1, h2⟩ | ⟨h1, h2, h3, h4⟩) (⟨g1, g2⟩ | ⟨g1, g2, g3, g4⟩)
    · left; exact ⟨h1, g2⟩
    · rw [h2] at g1; cases g1
    · rw [h2] at g1; cases g1
    · right; exact ⟨h1, g2, h3.trans g3, h4.trans g4⟩

/-- A position made from two numbers is valid exactly if both are in range, and then it holds them. -/
theorem C50_made (lat long : Flt) :
    ((Geo.mk' lat long).isValid = true ↔ Between (-90) 90 lat ∧ Between (-180) 180 long) ∧
    (Between (-90) 90 lat → (Geo.mk' lat long).latitude = lat) ∧ (Between (-180) 180 long → (Geo.mk' lat long).longitude = long) := by
  have a := C50_setter {} lat
  have b := C50_setter (({} : Geo).setLatitude lat) long
  refine ⟨?_, fun h => ?_, fun h => ?_⟩
  · show ((({} : Geo).setLatitude lat).setLongitude long).isValid = true ↔ _
    rw [b.2.2.1, and_comm, ← le_both_iff (-90) 90 lat]
    refine and_congr_left' ?_
    by_cases h : ((Flt.ofInt (-90)).le lat && lat.le (.ofInt 90)) = true <;> simp [Geo.setLatitude, h]
  · show ((({} : Geo).setLatitude lat).setLongitude long).latitude = lat
    rw [b.2.2.2.2.2.1]; exact a.2.1 h
  · exact b.2.2.2.1 h

/-- Non-vacuity: 51.5 / -0.1 (as a multiple of 2^-149) is a valid position; 91 degrees is not. -/
example : (geoHistory [.latitude (.fin (103 * 2 ^ 148)), .longitude (.fin (-7 * 2 ^ 143))]).isValid = true ∧
    (geoHistory [.latitude (.fin (103 * 2 ^ 148)), .longitude (.fin (-7 * 2 ^ 143)), .latitude (.ofInt 91)]).isValid = false ∧
    (geoHistory [.latitude .nan, .longitude (.ofInt 0)]).isValid = false := by decide

end KC
