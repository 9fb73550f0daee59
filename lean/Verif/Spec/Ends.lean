import Verif.Spec.Order

/-!
# Specification vocabulary for whether a run ends normally
-/

namespace Verif.Spec

open Verif.Spec.Profile Verif.Helper Verif.Level Verif.Stats Verif.Region Verif.Profile

/-- The casts in reach of a profile at `lat`, `long`. -/
noncomputable def inReach (R : FloatRun) (lat long : ℝ) : List (RefCast ℝ) := nearCasts R.env.cfg lat long (surrounding R.env long lat)

/-- What the casts in reach contribute to the level `n` at the pressure `q`. -/
noncomputable def contributions (R : FloatRun) (f : FloatProfile) (lat long : ℝ) (n : ℕ) (q : ℝ) : List Sample :=
  samplesAt (pressureLimit f.pres R.env.cfg.pDelta) R.env.cfg.pDelta (inReach R lat long) (f.ptmp[n]?).join q

/-- A profile at `lat`, `long` with positions in range and not more casts in reach than may be used. -/
structure Within (R : FloatRun) (lat long : ℝ) : Prop where
  latitude : -90 ≤ lat ∧ lat ≤ 90
  longitude : -180 ≤ long ∧ long ≤ 540
  casts : ∀ c ∈ surrounding R.env long lat, ∀ y x : ℝ, c.lat = some y → c.long = some x → (-90 ≤ y ∧ y ≤ 90) ∧ -180 ≤ x ∧ x ≤ 360
  few : (inReach R lat long).length ≤ R.env.maxCasts

/-- At the level `n` the profile has a salinity, and the pressure `q`, which is not excluded, and more than five casts contribute. -/
def Mappable (R : FloatRun) (f : FloatProfile) (lat long : ℝ) (n : ℕ) (q : ℝ) : Prop :=
  (∃ s, f.sal[n]? = some (some s)) ∧ f.pres[n]? = some (some q) ∧ R.env.cfg.pExclude ≤ q ∧ 5 < (contributions R f lat long n q).length

/-- What the surroundings of a profile must hold for the profile to be processed without an exception. `limit` is the deepest pressure wanted. -/
structure Suffices (R : FloatRun) (f : FloatProfile) (lat long : ℝ) (limit : Option ℝ) : Prop where
  /-- All casts around the float have a position. -/
  known : ∀ c ∈ surrounding R.env long lat, c.lat ≠ none ∧ c.long ≠ none
  /-- The first cast in reach has a level down to the deepest pressure wanted. -/
  first : ∃ c cs, inReach R lat long = c :: cs ∧ usableLevels limit c ≠ []
  /-- One of the casts in reach has a complete level. -/
  data : ∃ c ∈ inReach R lat long, HasData limit c
  /-- For each complete level of the float a cast in reach has two complete levels, and no cast with two or more has the temperature of the float at all of
  them. -/
  temperatures : ∀ (n : ℕ) (s v q : ℝ), f.sal[n]? = some (some s) → f.ptmp[n]? = some (some v) → f.pres[n]? = some (some q) →
    (∃ c ∈ inReach R lat long, 2 ≤ (completeLevels limit c).length) ∧
    ∀ c ∈ inReach R lat long, 2 ≤ (completeLevels limit c).length → ∃ a ∈ completeLevels limit c, a.theta ≠ v
  /-- Where a value is mapped, the casts do not have noise of variance zero. -/
  noise : ∀ (n : ℕ) (q : ℝ), Mappable R f lat long n q → ¬ IsNoiseVariance (sampleObs (inliers (contributions R f lat long n q))) 0

end Verif.Spec
