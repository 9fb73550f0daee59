import Verif.Spec.Ends

/-!
# Specification vocabulary for reference data without defects
-/

namespace Verif.Spec

open Verif.Spec.Profile Verif.Helper Verif.Level Verif.Stats Verif.Region Verif.Profile Verif.Finders

/-- The cast `c`, one of `cs`, is in the ellipse around a float at `lat`, `long`, with the depths of the ocean at both if they count. -/
def Reached (E : Env) (f : FloatProfile) (lat long : ℝ) (cs : List (RefCast ℝ)) (c : RefCast ℝ) : Prop :=
  ∃ x y, c.long = some x ∧ c.lat = some y ∧ ∀ z d, DepthAt E.topo (max lat (-1079 / 12)) long z → DepthAt E.topo (max y (-1079 / 12)) x d →
    InEllipse ⟨lat, floatAmong (amongCasts cs) cs long, f.date, z, E.cfg.latLarge, E.cfg.latSmall, E.cfg.longLarge, E.cfg.longSmall, E.cfg.phiLarge,
      E.cfg.phiSmall, E.cfg.ageLarge, E.cfg.ageSmall, E.cfg.usePv, E.maxCasts⟩ ⟨some (amongCasts cs x), some y, some (decimalDate c), some d⟩

open Classical in
/-- The casts around a float that are in its ellipse. -/
noncomputable def reached (E : Env) (f : FloatProfile) (lat long : ℝ) : List (RefCast ℝ) :=
  (surrounding E long lat).filter fun c => decide (Reached E f lat long (surrounding E long lat) c)

/-- The surroundings of a profile at `lat`, `long` have no defects. -/
structure Clean (R : FloatRun) (f : FloatProfile) (lat long : ℝ) : Prop where
  latitude : -90 ≤ lat ∧ lat ≤ 90
  longitude : -180 ≤ long ∧ long ≤ 540
  /-- All casts around the float have a position. -/
  places : ∀ c ∈ surrounding R.env long lat, ∃ y x, c.lat = some y ∧ c.long = some x ∧ (-90 ≤ y ∧ y ≤ 90) ∧ -180 ≤ x ∧ x ≤ 360
  /-- If depths count, no cast is where the ocean has the depth zero. -/
  bottom : R.env.cfg.usePv = 1 → ∀ c ∈ surrounding R.env long lat, ∀ y x d, c.lat = some y → c.long = some x →
    DepthAt R.env.topo (max y (-1079 / 12)) x d → d ≠ 0
  /-- At least one cast is in the ellipse. -/
  near : reached R.env f lat long ≠ []
  /-- Each cast in the horizontal ellipse has complete levels of two temperatures, down to the deepest pressure wanted. -/
  levels : ∀ c ∈ inReach R lat long, ∃ a ∈ completeLevels (pressureLimit f.pres R.env.cfg.pDelta) c,
    ∃ b ∈ completeLevels (pressureLimit f.pres R.env.cfg.pDelta) c, a.theta ≠ b.theta
  /-- Two such casts are at different places, and do not have the same salinity where they meet a level of the float. -/
  different : (inReach R lat long).Pairwise fun c c' =>
    (∀ (m : ℤ) (y x x' : ℝ), c.lat = some y → c'.lat = some y → c.long = some x → c'.long = some x' → x' ≠ x + 360 * m) ∧
    ∀ (n : ℕ) (v q s : ℝ), f.ptmp[n]? = some (some v) → f.pres[n]? = some (some q) →
      Meets (pressureLimit f.pres R.env.cfg.pDelta) c v q R.env.cfg.pDelta s → ¬ Meets (pressureLimit f.pres R.env.cfg.pDelta) c' v q R.env.cfg.pDelta s

/-- At the level `n` the profile is complete and not excluded, all casts in the horizontal ellipse meet it, and more than five are in the ellipse. -/
def Covered (R : FloatRun) (f : FloatProfile) (lat long : ℝ) (n : ℕ) : Prop :=
  ∃ s v q, f.sal[n]? = some (some s) ∧ f.ptmp[n]? = some (some v) ∧ f.pres[n]? = some (some q) ∧ R.env.cfg.pExclude ≤ q ∧
    (∀ c ∈ inReach R lat long, ∃ s', Meets (pressureLimit f.pres R.env.cfg.pDelta) c v q R.env.cfg.pDelta s') ∧ 5 < (reached R.env f lat long).length

end Verif.Spec
