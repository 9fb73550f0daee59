import Verif.Spec.Delta

/-!
# Specification vocabulary: a run with wider settings
-/

namespace Verif.Spec

open Verif.Update Verif.Spec.Profile Verif.Level

/-- The run with the settings `C` of the mapping and `MAX_CASTS` set to `k`. `st` is what is recorded of the configuration. -/
def reconfigured (R : FloatRun) (C : MapConfig) (k : ℕ) (st : Setting → ℝ) : FloatRun :=
  { R with env := { R.env with cfg := C, maxCasts := k }, settings := st }

/-- The settings `C'` admit at least as many casts and levels as `C`: the large scales and `MAP_P_DELTA` are not smaller, `MAP_P_EXCLUDE` is not larger. Nothing is said
about the other settings. -/
structure Wider (C C' : MapConfig) : Prop where
  long : 0 < C.longLarge ∧ C.longLarge ≤ C'.longLarge
  lat : 0 < C.latLarge ∧ C.latLarge ≤ C'.latLarge
  delta : C.pDelta ≤ C'.pDelta
  exclude : C'.pExclude ≤ C.pExclude

end Verif.Spec
