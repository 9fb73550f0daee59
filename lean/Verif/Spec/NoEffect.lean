import Verif.Spec.Ends

/-!
# Specification vocabulary: settings without effect
-/

namespace Verif.Spec

open Verif.Update Verif.Spec.Profile

/-- The run with `MAX_CASTS` set to `k` and the scales of the potential vorticity to `a` and `b`. `st` is what is recorded of the configuration. -/
def withIdle (R : FloatRun) (k : ℕ) (a b : ℝ) (st : Setting → ℝ) : FloatRun :=
  { R with env := { R.env with cfg := { R.env.cfg with phiLarge := a, phiSmall := b }, maxCasts := k }, settings := st }

/-- Two mapped files that may differ in what is recorded of the configuration, and in nothing else. -/
structure SameButRecord (f f' : MapFile ℝ) : Prop where
  profileNo : f'.profileNo = f.profileNo
  rows : f'.rows = f.rows
  mats : f'.mats = f.mats
  selected : f'.selected = f.selected
  profileIndex : f'.profileIndex = f.profileIndex

end Verif.Spec
