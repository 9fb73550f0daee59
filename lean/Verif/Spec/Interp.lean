import Mathlib.Algebra.Order.Field.Basic
import Mathlib.Algebra.Order.AbsoluteValue.Basic

/-!
# Specification: interpolation of a station at a temperature
-/

namespace Verif.Spec

variable {K : Type} [Field K] [LinearOrder K] [IsStrictOrderedRing K]

/-- A level of a station with all three values present. -/
structure Level (K : Type) where
  sal : K
  theta : K
  pres : K

/-- The levels of a station of `n` rows in which all three values are present, from top to bottom. -/
def levels (sal theta pres : ℕ → Option K) (n : ℕ) : List (Level K) :=
  (List.range n).filterMap fun r =>
    match sal r, theta r, pres r with
    | some s, some t, some p => some ⟨s, t, p⟩
    | _, _, _ => none

/-- Between level `k` and the next one, which have different temperatures, the temperature `v` is met at the weight `w`; there the salinity is
`s` and the pressure `p`. -/
def Crossing (l : List (Level K)) (v : K) (k : ℕ) (w s p : K) : Prop :=
  ∃ a b, l[k]? = some a ∧ l[k + 1]? = some b ∧ a.theta ≠ b.theta ∧ 0 ≤ w ∧ w ≤ 1 ∧
    v = a.theta + w * (b.theta - a.theta) ∧ s = a.sal + w * (b.sal - a.sal) ∧ p = a.pres + w * (b.pres - a.pres)

/-- The crossing nearest to the pressure `fp`, the uppermost of those equally near. -/
def Nearest (l : List (Level K)) (v fp : K) (k : ℕ) (w s p : K) : Prop :=
  Crossing l v k w s p ∧ ∀ k' w' s' p', Crossing l v k' w' s' p' → |p - fp| ≤ |p' - fp| ∧ (k' < k → |p - fp| < |p' - fp|)

end Verif.Spec
