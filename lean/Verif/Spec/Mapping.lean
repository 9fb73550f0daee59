import Verif.Spec.Stats

/-!
# Specification of the objective mapping: best linear unbiased estimation

A field with variance `s` and correlation function `rho` is observed at `n` points with independent noise of variance `noise`.
-/

namespace Verif.Spec

open Verif.Stats

/-- The correlation of the field between two points (C23): column 0 scaled by `long`, column 1 by `lat`. -/
noncomputable def correlation (S : Scales) (p q : Pos) : ℝ :=
  Real.exp (-(scaledSq S.long S.lat S.age p q +
    if S.pvUse = 1 then pvSq S.phi (vorticity p.c0 p.c3) (vorticity q.c0 q.c3) else 0))

/-- Covariance of two observations. -/
noncomputable def obsCov {n : ℕ} (S : Scales) (signal noise : ℝ) (data : Fin n → Pos) (i j : Fin n) : ℝ :=
  signal * correlation S (data i) (data j) + if i = j then noise else 0

/-- Mean squared error of `∑ l_j obs_j` as an estimate of the field at `g`, for weights of sum 1:
`s - 2 ∑ l_j Cov(field at g, obs_j) + ∑ l_i l_j Cov(obs_i, obs_j)`. -/
noncomputable def meanSquaredError {n : ℕ} (S : Scales) (signal noise : ℝ) (data : Fin n → Pos) (g : Pos) (l : Fin n → ℝ) : ℝ :=
  signal - 2 * ∑ j, l j * (signal * correlation S (data j) g) +
    ∑ i, ∑ j, l i * obsCov S signal noise data i j * l j

/-- `l` are the weights of the best linear unbiased estimate at `g`: of sum 1, with the least mean squared error. -/
def IsBestWeights {n : ℕ} (S : Scales) (signal noise : ℝ) (data : Fin n → Pos) (g : Pos) (l : Fin n → ℝ) : Prop :=
  ∑ j, l j = 1 ∧ ∀ l' : Fin n → ℝ, ∑ j, l' j = 1 →
    meanSquaredError S signal noise data g l ≤ meanSquaredError S signal noise data g l'

end Verif.Spec
