import Verif.Spec.Ends

/-!
# Specification vocabulary for the exception a run ends with
-/

namespace Verif.Spec

open Verif.Np Verif.Spec.Profile Verif.Helper Verif.Level Verif.Stats Verif.Region Verif.Profile

/-- All casts around the float have a position. -/
def AllKnown (R : FloatRun) (lat long : ℝ) : Prop := ∀ c ∈ surrounding R.env long lat, c.lat ≠ none ∧ c.long ≠ none

/-- Why the processing of a profile fails, and with which exception. `limit` is the deepest pressure wanted. -/
inductive Fails (R : FloatRun) (f : FloatProfile) (lat long : ℝ) (limit : Option ℝ) : PyErr → Prop
  /-- There are no reference data around the float. -/
  | nothing (h : surrounding R.env long lat = []) : Fails R f lat long limit .valueError
  /-- A cast around the float has no position. -/
  | position (c : RefCast ℝ) (hc : c ∈ surrounding R.env long lat) (h : c.lat = none ∨ c.long = none) : Fails R f lat long limit .valueError
  /-- There are reference data around the float, but none in reach. -/
  | reach (h : surrounding R.env long lat ≠ []) (hk : AllKnown R lat long) (hr : inReach R lat long = []) : Fails R f lat long limit .runtimeError
  /-- The first cast in reach has no level down to the deepest pressure wanted. -/
  | first (hk : AllKnown R lat long) (c : RefCast ℝ) (cs : List (RefCast ℝ)) (hr : inReach R lat long = c :: cs) (h : usableLevels limit c = []) :
      Fails R f lat long limit .valueError
  /-- No cast in reach has a complete level. -/
  | data (hk : AllKnown R lat long) (hr : inReach R lat long ≠ []) (h : ∀ c ∈ inReach R lat long, ¬ HasData limit c) : Fails R f lat long limit .valueError
  /-- The float has a complete level, and no cast in reach has two, or one with two or more has the temperature of the float at all of them. -/
  | temperatures (hk : AllKnown R lat long) (hr : inReach R lat long ≠ []) (n : ℕ) (s v q : ℝ) (hs : f.sal[n]? = some (some s))
      (hv : f.ptmp[n]? = some (some v)) (hq : f.pres[n]? = some (some q))
      (h : (∀ c ∈ inReach R lat long, (completeLevels limit c).length < 2) ∨
        ∃ c ∈ inReach R lat long, 2 ≤ (completeLevels limit c).length ∧ ∀ a ∈ completeLevels limit c, a.theta = v) : Fails R f lat long limit .valueError
  /-- None of these, but the casts have noise of variance zero where a value is mapped. -/
  | noise (hk : AllKnown R lat long) (hf : ∃ c cs, inReach R lat long = c :: cs ∧ usableLevels limit c ≠ []) (hd : ∃ c ∈ inReach R lat long, HasData limit c)
      (ht : ∀ (n : ℕ) (s v q : ℝ), f.sal[n]? = some (some s) → f.ptmp[n]? = some (some v) → f.pres[n]? = some (some q) →
        (∃ c ∈ inReach R lat long, 2 ≤ (completeLevels limit c).length) ∧
        ∀ c ∈ inReach R lat long, 2 ≤ (completeLevels limit c).length → ∃ a ∈ completeLevels limit c, a.theta ≠ v)
      (n : ℕ) (q : ℝ) (hm : Mappable R f lat long n q) (h : IsNoiseVariance (sampleObs (inliers (contributions R f lat long n q))) 0) :
      Fails R f lat long limit .linAlgError

end Verif.Spec
