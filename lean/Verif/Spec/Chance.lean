import Verif.Spec.NoEffect

/-!
# Specification vocabulary: random numbers
-/

namespace Verif.Spec

open Verif.Update Verif.Spec.Profile

/-- The run with `MAX_CASTS` set to `k` and with other random numbers: `rand n m` are the `m` numbers drawn after `np.random.seed(n)`. `st` is what is
recorded of the configuration. -/
def withChance (R : FloatRun) (k : ℕ) (rand : ℕ → ℕ → List ℝ) (st : Setting → ℝ) : FloatRun :=
  { R with env := { R.env with rand := rand, maxCasts := k }, settings := st }

end Verif.Spec
