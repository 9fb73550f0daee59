import Verif.Spec.Saved
import Verif.Spec.Saf

/-!
# Specification: the casts used when the Subantarctic Front is respected (C157)
-/

namespace Verif.Spec

open Verif.Profile Verif.Region Verif.Saf Verif.Spec.Saf

/-- In-situ temperatures are computed level by level from salinity, pressure, potential temperature, longitude and latitude, and are missing where a number
is missing. -/
def LevelByLevel (temperature : Temperature ℝ) (T : ℝ → ℝ → ℝ → ℝ → ℝ → ℝ) : Prop :=
  ∀ (rows : List (Option (ℝ × ℝ × ℝ))) (x y : ℝ),
    temperature (rows.map (Option.map (·.1))) (rows.map (Option.map (·.2.1))) (rows.map (Option.map (·.2.2))) (some x) (some y) =
      rows.map (Option.map fun r => T r.1 r.2.1 r.2.2 x y)

/-- Pressure and in-situ temperature of the levels with pressure, potential temperature and salinity. -/
def warmLevels (T : ℝ → ℝ → ℝ → ℝ) (ls : List (CastLevel ℝ)) : List (ℝ × ℝ) :=
  ls.filterMap fun l => match l with
    | (some p, some t, some s) => some (p, T s p t)
    | _ => none

/-- The pressures of these levels. -/
def completePressures (ls : List (CastLevel ℝ)) : List ℝ :=
  ls.filterMap fun l => match l with
    | (some p, some _, some _) => some p
    | _ => none

/-- The levels of a cast that the criterion looks at, if the deepest of the chosen casts has `depth` usable levels: all usable ones, without the last one if
there are `depth` of them. -/
noncomputable def lookedAt (limit : Option ℝ) (depth : ℕ) (c : RefCast ℝ) : List (CastLevel ℝ) :=
  if (usableLevels limit c).length < depth then usableLevels limit c else (usableLevels limit c).dropLast

/-- The side of a float between the fronts, from the comparison with the mean profiles: south (-1) or north (1) if it lies inside the envelope of that side
only, undecided (0) otherwise. -/
def EnvelopeSide (interp : Interp ℝ) (p : SafProfiles ℝ) (f : SafFloat ℝ) (k : ℤ) : Prop :=
  (k = -1 ∧ SomeComparison interp p f ∧ InSouth interp p f ∧ ¬ InNorth interp p f) ∨
  (k = 1 ∧ SomeComparison interp p f ∧ InNorth interp p f ∧ ¬ InSouth interp p f) ∨
  (k = 0 ∧ (¬ SomeComparison interp p f ∨ (InSouth interp p f ↔ InNorth interp p f)))

/-- The side of a float: from its temperature at 300 dbar if this is above 5 or below 3, from the mean profiles if it is between, undecided if the float
does not cross 300 dbar. -/
def FloatSide (interp : Interp ℝ) (p : SafProfiles ℝ) (f : SafFloat ℝ) (k : ℤ) : Prop :=
  (¬ Crosses300 (floatProfile f) ∧ k = 0) ∨
  (Crosses300 (floatProfile f) ∧ ∃ T, TemperatureAt300 (floatProfile f) T ∧
    ((5 < T ∧ k = 1) ∨ (T < 3 ∧ k = -1) ∨ (3 ≤ T ∧ T ≤ 5 ∧ EnvelopeSide interp p f k)))

/-- Of the casts with the numbers `all`, those at the positions `sel` are used for a float `f`. A cast at the longitude `x` is taken to be at `place x`. -/
structure SideRule (E : Env) (T : ℝ → ℝ → ℝ → ℝ → ℝ → ℝ) (f : SafFloat ℝ) (limit : Option ℝ) (depth : ℕ) (casts : List (RefCast ℝ)) (all sel : List ℕ)
    (place : ℝ → ℝ) : Prop where
  /-- Without the criterion, and north of 30 degrees South, all. -/
  off : ¬ (E.useSaf = 1 ∧ f.lat < -30) → sel = List.range all.length
  /-- All, if the float is undecided. -/
  undecided : Ascending (floatProfile f) → FloatSide E.interp E.saf f 0 → sel = List.range all.length
  /-- Otherwise those on the side of the float if there are at least six, and all if not. -/
  decided : E.useSaf = 1 → f.lat < -30 → Ascending (floatProfile f) → ∀ k : ℤ, k ≠ 0 → FloatSide E.interp E.saf f k →
    (∀ n ∈ all, ∀ c, casts[n]? = some c → (completePressures (usableLevels limit c)).Pairwise (· < ·)) →
    ∀ side : ℕ → ℤ, (∀ (j n : ℕ) (c : RefCast ℝ) (y x : ℝ), all[j]? = some n → casts[n]? = some c → c.lat = some y → c.long = some x →
      SideIs (warmLevels (fun s p t => T s p t (place x) y) (lookedAt limit depth c)) (side j)) →
    (6 ≤ ((List.range all.length).filter fun j => decide (side j = k)).length → sel = (List.range all.length).filter fun j => decide (side j = k)) ∧
    (((List.range all.length).filter fun j => decide (side j = k)).length < 6 → sel = List.range all.length)

end Verif.Spec
