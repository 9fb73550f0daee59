import Mathlib.Algebra.Order.Field.Basic
import Mathlib.Algebra.BigOperators.Fin

/-!
# Specification: continuous piecewise linear functions
-/

namespace Verif.Spec

variable {K : Type} [Field K] [LinearOrder K] [IsStrictOrderedRing K]

/-- `f` is linear with slope `slope j` from `knot j` to the next knot, from the last knot on without end. As neighbouring pieces share a
knot, `f` is continuous. -/
def IsBrokenLine {b : ℕ} (knot slope : Fin (b + 1) → K) (f : K → K) : Prop :=
  ∀ (j : Fin (b + 1)) (x : K), knot j ≤ x → (∀ h : j.val + 1 < b + 1, x ≤ knot ⟨j.val + 1, h⟩) →
    f x = f (knot j) + slope j * (x - knot j)

/-- Weighted sum of squared deviations of `f` from the data. -/
def deviation {n : ℕ} (w x y : Fin n → K) (f : K → K) : K := ∑ i, w i * (y i - f (x i)) ^ 2

/-- The points of non-zero weight determine a broken line with these knots: one that vanishes at all of them vanishes. -/
def Determined {n b : ℕ} (knot : Fin (b + 1) → K) (w x : Fin n → K) : Prop :=
  ∀ (slope : Fin (b + 1) → K) (f : K → K), IsBrokenLine knot slope f → (∀ i, w i ≠ 0 → f (x i) = 0) →
    f (knot 0) = 0 ∧ slope = 0

end Verif.Spec
