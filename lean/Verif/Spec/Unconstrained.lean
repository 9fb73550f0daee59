import Verif.Spec.Ends

/-!
# Specification vocabulary: a run without constraints on the casts
-/

namespace Verif.Spec

open Verif.Update Verif.Spec.Profile

/-- The run with `MAP_USE_PV` 0, `MAP_USE_SAF` 0 and `MAX_CASTS` set to `k`. `st` is what is recorded of the configuration. -/
def unconstrained (R : FloatRun) (k : ℕ) (st : Setting → ℝ) : FloatRun :=
  { R with env := { R.env with cfg := { R.env.cfg with usePv := 0 }, useSaf := 0, maxCasts := k }, settings := st }

end Verif.Spec
