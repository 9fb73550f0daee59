import Verif.Np
import Mathlib.Algebra.Order.Field.Basic
import Mathlib.Algebra.BigOperators.Group.List.Basic

/-!
# Specification vocabulary for the plots

A profile is a list of pairs of temperature and salinity, `none` for missing.
-/

namespace Verif.Spec

variable {K : Type} [Field K] [LinearOrder K] [IsStrictOrderedRing K]

/-- The measured points (temperature and salinity both present) of a profile. -/
def tsPoints (prof : List (Option K × Option K)) : List (K × K) :=
  prof.filterMap fun p => match p.1, p.2 with
    | some t, some s => some (t, s)
    | _, _ => none

/-- No temperature occurs twice. -/
def DistinctTemps (prof : List (Option K × Option K)) : Prop := (prof.filterMap Prod.fst).Nodup

/-- `v` lies on the straight line between two points next to each other in temperature, at the temperature `theta` between them. -/
def BetweenPoints (pts : List (K × K)) (theta v : K) : Prop :=
  ∃ a ∈ pts, ∃ b ∈ pts, a.1 < b.1 ∧ a.1 ≤ theta ∧ theta ≤ b.1 ∧ (∀ q ∈ pts, q.1 ≤ a.1 ∨ b.1 ≤ q.1) ∧ (v - a.2) * (b.1 - a.1) = (b.2 - a.2) * (theta - a.1)

/-- The temperature is in the range of the points. -/
def InRange (pts : List (K × K)) (theta : K) : Prop := (∃ a ∈ pts, a.1 ≤ theta) ∧ ∃ b ∈ pts, theta ≤ b.1

/-- At least half of the numbers are not above, and at least half not below `m`. -/
def Balanced (vs : List K) (m : K) : Prop :=
  vs.length ≤ 2 * (vs.filter fun v => decide (v ≤ m)).length ∧ vs.length ≤ 2 * (vs.filter fun v => decide (m ≤ v)).length

/-- Two longitudes that differ by whole turns. -/
def SameMeridian (x y : K) : Prop := ∃ k : ℤ, x = y + 360 * (k : K)

/-- The profile with `c` added to all salinities. -/
def shiftSal (c : K) (prof : List (Option K × Option K)) : List (Option K × Option K) := prof.map fun p => (p.1, p.2.map (· + c))

/-- For pairs of calibrated and measured salinity: the differences calibrated minus measured at the levels that have both. -/
def salOffsets (prof : List (Option K × Option K)) : List K := (tsPoints prof).map fun p => p.1 - p.2

end Verif.Spec
