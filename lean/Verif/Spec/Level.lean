import Verif.Spec.Helper
import Verif.Spec.Mapping
import Verif.Model.Level

/-!
# Specification vocabulary for the mapping of one level

Only the record types are taken from the model.
-/

namespace Verif.Spec

open Verif.Helper Verif.Level Verif.Stats

/-- The configuration is usable: no zero scale, and the depths are non-zero if the potential vorticity is used. -/
structure ProperConfig (c : MapConfig) : Prop where
  latLarge : c.latLarge ≠ 0
  longLarge : c.longLarge ≠ 0
  latSmall : c.latSmall ≠ 0
  longSmall : c.longSmall ≠ 0
  phi : c.usePv = 1 → c.phiLarge ≠ 0 ∧ c.phiSmall ≠ 0

/-- The depths of float and casts can be used. -/
def ProperDepths (c : MapConfig) (f : FloatPos) (h : HistData ℝ) : Prop := c.usePv = 1 → f.z ≠ 0 ∧ ∀ z ∈ h.z, z ≠ 0

/-- Entry `j` is an outlier: more than three standard deviations from the mean. -/
def IsOutlier (sal : List ℝ) (j : ℕ) : Prop :=
  ∃ s, sal[j]? = some s ∧ 3 * Real.sqrt (populationVariance sal) < |s - meanOf sal|

/-- The casts of `h` without the outliers, in order. -/
def WithoutOutliers (h h' : HistData ℝ) : Prop :=
  ∃ js : List ℕ, js.Pairwise (· < ·) ∧ (∀ j, j ∈ js ↔ j < h.sal.length ∧ ¬ IsOutlier h.sal j) ∧ HistAt h js h'

/-- The casts as observations for `noise_variance` (C22). -/
def histObs (h : HistData ℝ) : List (Obs ℝ) := (h.sal.zip (h.lat.zip h.long)).map fun p => ⟨some p.1, some p.2.1, some p.2.2⟩

/-- The correlation of a field with the given scales between points with latitude, longitude, date and depth. -/
noncomputable def fieldCorrelation (latScale longScale ageScale phi : ℝ) (usePv : ℤ) (p q : FloatPos) : ℝ :=
  Real.exp (-((p.lat - q.lat) ^ 2 / latScale ^ 2 + (p.long - q.long) ^ 2 / longScale ^ 2 +
    (if ageScale = 0 then 0 else (p.date - q.date) ^ 2 / ageScale ^ 2) +
    if usePv = 1 then pvSq phi (vorticity p.lat p.z) (vorticity q.lat q.z) else 0))

/-- The mean squared error of `∑ l_j obs_j` as an estimate at `g` of a field with variance `s` and correlation `rho` observed at the points
`data` with noise of variance `noise`, for weights of sum 1. -/
noncomputable def mseOf {n : ℕ} (rho : FloatPos → FloatPos → ℝ) (s noise : ℝ) (data : Fin n → FloatPos) (g : FloatPos) (l : Fin n → ℝ) : ℝ :=
  s - 2 * ∑ j, l j * (s * rho (data j) g) + ∑ i, ∑ j, l i * (s * rho (data i) (data j) + if i = j then noise else 0) * l j

/-- `l` are the weights of the best linear unbiased estimate at `g`. -/
def BestWeights {n : ℕ} (rho : FloatPos → FloatPos → ℝ) (s noise : ℝ) (data : Fin n → FloatPos) (g : FloatPos) (l : Fin n → ℝ) : Prop :=
  ∑ j, l j = 1 ∧ ∀ l' : Fin n → ℝ, ∑ j, l' j = 1 → mseOf rho s noise data g l ≤ mseOf rho s noise data g l'

end Verif.Spec
