import Mathlib.Data.Finset.Card
import Verif.Spec.Finders

/-!
# Specification vocabulary: what a random number chooses
-/

namespace Verif.Spec

open Verif.Finders

/-- The number `u`, drawn from 0 to 1, picks the cast `j` (counted from 0) of `n` casts: `j` is nearest to `u * n - 1`, of two at equal distance the even one,
and 0 is picked if that is nearest to -1. -/
def Picks (n : ℕ) (u : ℝ) (j : ℕ) : Prop :=
  |u * n - 1 - j| < 1 / 2 ∨ (|u * n - 1 - j| = 1 / 2 ∧ Even j) ∨ (j = 0 ∧ u * n < 1 / 2)

/-- The cast `i` of all casts is in the ellipse, and `j` casts before it are. -/
def NthInside (A : BesthistArgs) (casts : List Cast) (j i : ℕ) : Prop :=
  (∃ c, casts[i]? = some c ∧ InEllipse A c) ∧ numInside A (casts.take i) = j

open Classical in
/-- The other casts in the ellipse that are at least as close (large scales) as the cast `i`. -/
noncomputable def rivals (A : BesthistArgs) (casts : List Cast) (i : ℕ) : Finset ℕ :=
  (Finset.range casts.length).filter fun k => k ≠ i ∧ ∃ c c', casts[k]? = some c ∧ casts[i]? = some c' ∧ InEllipse A c ∧
    Closer (distance A A.longLarge A.latLarge A.ageLarge c) (distance A A.longLarge A.latLarge A.ageLarge c')

end Verif.Spec
