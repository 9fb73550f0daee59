import Verif.Spec.Ends

/-!
# Specification vocabulary: a run with another `MAP_P_DELTA`
-/

namespace Verif.Spec

open Verif.Update Verif.Spec.Profile Verif.Profile Verif.Region

/-- The run with `MAP_P_DELTA` set to `d`. `st` is what is recorded of the configuration. -/
def withDelta (R : FloatRun) (d : ℝ) (st : Setting → ℝ) : FloatRun :=
  { R with env := { R.env with cfg := { R.env.cfg with pDelta := d } }, settings := st }

/-- The levels of the cast are listed downwards. -/
def Downwards (c : RefCast ℝ) : Prop := ((levelsOf c).filterMap (·.1)).Pairwise (· ≤ ·)

end Verif.Spec
