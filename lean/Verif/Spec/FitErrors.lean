import Verif.Spec.FitCond
import Mathlib.Analysis.SpecialFunctions.Sqrt

/-!
# Specification: the variance of a fitted slope, the straight line of least squares
-/

namespace Verif.Spec

/-- The variance of the slope of the straight line of least squares through uncorrelated values at `x` with the errors `err`. -/
noncomputable def slopeVariance {n : ℕ} (x err : Fin n → ℝ) : ℝ := 1 / ∑ i, (x i - weightedMean x err) ^ 2 / err i ^ 2

/-- The variance of the mean weighted by the inverse error variances, for values with the errors `err` and the correlations `cov`. -/
noncomputable def meanVariance {n : ℕ} (err : Fin n → ℝ) (cov : Matrix (Fin n) (Fin n) ℝ) : ℝ :=
  (∑ i, ∑ j, (1 / err i ^ 2) * (1 / err j ^ 2) * (err i * err j * cov i j)) / (∑ i, 1 / err i ^ 2) ^ 2

/-- `t ↦ c + s (t - x₀)` is a straight line of least squares, weighted by the inverse error variances, through the values `v` at `x`. -/
def IsBestLine {n : ℕ} (x err v : Fin n → ℝ) (x0 c s : ℝ) : Prop :=
  ∀ c' s' : ℝ, deviation (fun i => 1 / err i ^ 2) x v (fun t => c + s * (t - x0)) ≤ deviation (fun i => 1 / err i ^ 2) x v (fun t => c' + s' * (t - x0))

open Classical in
/-- The observations that are counted for the profile `v`: its first one, and all but the first one of the previous profile. -/
noncomputable def stationWindow {n : ℕ} (x : Fin n → ℝ) (v : ℝ) : Finset (Fin n) :=
  Finset.univ.filter fun j => (x j = v ∧ ∀ j' < j, x j' ≠ v) ∨ (x j < v ∧ (∀ j', x j' < v → x j' ≤ x j) ∧ ∃ j' < j, x j' = x j)

/-- The mean of the values in `S` weighted by the inverse error variances. -/
noncomputable def meanOver {n : ℕ} (S : Finset (Fin n)) (y err : Fin n → ℝ) : ℝ := (∑ i ∈ S, y i / err i ^ 2) / ∑ i ∈ S, 1 / err i ^ 2

/-- Their root mean square deviation from this mean. -/
noncomputable def rmsOver {n : ℕ} (S : Finset (Fin n)) (y err : Fin n → ℝ) : ℝ :=
  Real.sqrt ((∑ i ∈ S, (y i - meanOver S y err) ^ 2 / err i ^ 2) / ∑ i ∈ S, 1 / err i ^ 2)

end Verif.Spec
