import Verif.Spec.Profile

/-!
# Specification vocabulary: a run with another `MAP_P_EXCLUDE`
-/

namespace Verif.Spec

open Verif.Update Verif.Spec.Profile Verif.Profile

/-- The run with `MAP_P_EXCLUDE` set to `e`. `st` is what is recorded of the configuration. -/
def withExclude (R : FloatRun) (e : ℝ) (st : Setting → ℝ) : FloatRun :=
  { R with env := { R.env with cfg := { R.env.cfg with pExclude := e } }, settings := st }

/-- The level `n` of a profile is at a known pressure below `e`. -/
def Above (f : FloatProfile) (n : ℕ) (e : ℝ) : Prop := ∃ q, f.pres[n]? = some (some q) ∧ q < e

/-- The file has a value (a signal variance) for a level of a profile of the source at a pressure of `e` or more. -/
def HasValueBelow (source : List FloatProfile) (file : MapFile ℝ) (e : ℝ) : Prop :=
  ∃ (i : ℕ) (f : FloatProfile) (n : ℕ) (q : ℝ) (col : List (Option ℝ)) (v : ℝ), source[i]? = some f ∧ f.pres[n]? = some (some q) ∧ e ≤ q ∧
    (file.mats .signal)[i]? = some col ∧ col[n]? = some (some v)

end Verif.Spec
