import Verif.Spec.NoEffect
import Verif.Spec.Saf

/-!
# Specification vocabulary: profiles the frontal criterion says nothing about
-/

namespace Verif.Spec

open Verif.Update Verif.Spec.Profile Verif.Spec.Saf Verif.Saf

/-- The run with `MAP_USE_SAF` set to `u`. `st` is what is recorded of the configuration. -/
def withSaf (R : FloatRun) (u : ℤ) (st : Setting → ℝ) : FloatRun :=
  { R with env := { R.env with useSaf := u }, settings := st }

/-- The criterion says nothing about a float profile: it was measured at 30 S or further north; or its pressures increase and it does not cross
300 dbar; or its pressures increase, its temperature at 300 dbar is between 3 and 5 degrees, and it is not inside exactly one of the two envelopes. -/
def NoSide (interp : Interp ℝ) (s : SafProfiles ℝ) (f : SafFloat ℝ) : Prop :=
  -30 ≤ f.lat ∨ Ascending (floatProfile f) ∧
    (¬ Crosses300 (floatProfile f) ∨ ∃ T, TemperatureAt300 (floatProfile f) T ∧ 3 ≤ T ∧ T ≤ 5 ∧
      (SomeComparison interp s f → (InSouth interp s f ↔ InNorth interp s f)))

end Verif.Spec
