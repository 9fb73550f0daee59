import Verif.Spec.Stats

/-!
# Specification vocabulary for the symmetry of the covariance of the observations
-/

namespace Verif.Spec

open Verif.Stats

/-- The profile is on the equator: its latitude (column 0) is a multiple of 180 degrees. -/
def OnEquator (c : Coord) : Prop := ∃ k : ℤ, c.c0 = 180 * k

/-- `d` is the squared distance of the temperatures of the levels `i` and `j` of a profile in units of the scale which the table gives at the level `i`;
0 if a temperature is missing. -/
def LooksAcross {m : ℕ} (table : List (ℝ × ℝ)) (pt : Fin m → Option ℝ) (i j : Fin m) (d : ℝ) : Prop :=
  ((pt i = none ∨ pt j = none) ∧ d = 0) ∨ ∃ a b s, pt i = some a ∧ pt j = some b ∧ OnBrokenLine table a s ∧ d = (b - a) ^ 2 / s ^ 2

end Verif.Spec
