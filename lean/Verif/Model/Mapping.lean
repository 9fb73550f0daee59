import Verif.Model.Stats
import Mathlib.LinearAlgebra.Matrix.NonsingularInverse

/-!
# Model of `map_data_grid` (pyowc/data/wrangling.py:17-82)
-/

namespace Verif.Mapping

open Verif.Np Verif.Stats Matrix

/-- The four results: the mapped field and its error at the (one) grid point and at the data. NaN and infinities are `none`. -/
structure Mapped (n : ℕ) where
  gridSal : Option ℝ
  gridErr : Option ℝ
  dataSal : Fin n → Option ℝ
  dataErr : Fin n → Option ℝ

open Classical in
/-- numpy division of floats: a zero denominator gives an infinity or NaN. -/
noncomputable def npDiv (a b : ℝ) : Option ℝ := if b = 0 then none else some (a / b)

open Classical in
/-- `np.sqrt`: NaN for a negative number. -/
noncomputable def npSqrt (a : ℝ) : Option ℝ := if a < 0 then none else some (Real.sqrt a)

/-- `np.sqrt(signal_variance - dot_covar_diag + ((1 - covar_sum) ** 2) / sum_data_data_covar)` (lines 68-69, 78-79). -/
noncomputable def mapError (signal diag covarSum total : ℝ) : Option ℝ :=
  (npDiv ((1 - covarSum) ^ 2) total).bind fun q => npSqrt (signal - diag + q)

open Classical in
/-- `map_data_grid` (pyowc/data/wrangling.py:17-82) for one grid point, as it is always called. `sal` has no NaN.
`np.linalg.inv` raises `LinAlgError` for a singular matrix. With no data Python's `sum` gives the integer 0 twice, so line 56 is a
`ZeroDivisionError`. -/
noncomputable def mapDataGrid {n : ℕ} (sal : Fin n → ℝ) (gridPos : Pos) (dataPos : Fin n → Pos) (S : Scales)
    (signal noise : ℝ) : Except PyErr (Mapped n) := do
  let dataPosCovar ← covarXytPv dataPos dataPos S                                             -- line 50
  let a := signal • dataPosCovar + noise • (1 : Matrix (Fin n) (Fin n) ℝ)                     -- lines 51-52
  if a.det = 0 then .error .linAlgError
  else if n = 0 then .error .zeroDivision
  else
    let inv := a⁻¹
    let total := ∑ j, ∑ i, inv i j                                                            -- line 55
    let num := ∑ i, (inv *ᵥ sal) i                                                            -- line 56
    let mean := npDiv num total
    let weight : Option (Fin n → ℝ) := mean.map fun m => inv *ᵥ (fun i => sal i - m)          -- line 57
    let posDataCovar := signal • dataPosCovar                                                 -- line 60
    let dataSal : Fin n → Option ℝ := fun i =>                                                -- line 61
      mean.bind fun m => weight.map fun w => (posDataCovar *ᵥ w) i + m
    let dataErr : Fin n → Option ℝ := fun i =>                                                -- lines 64-69
      mapError signal ((posDataCovar * inv * posDataCovarᵀ) i i) (∑ j, (posDataCovar * inv) i j) total
    let gridCovar ← covarXytPv dataPos (fun _ : Fin 1 => gridPos) S                           -- line 72
    let gridDataCovar := (signal • gridCovar)ᵀ                                                -- lines 72-73
    let gridSal := mean.bind fun m => weight.map fun w => (gridDataCovar *ᵥ w) 0 + m          -- line 74
    let gridErr := mapError signal ((gridDataCovar * inv * gridDataCovarᵀ) 0 0)               -- lines 75-79
      (∑ j, (gridDataCovar * inv) 0 j) total
    pure ⟨gridSal, gridErr, dataSal, dataErr⟩

end Verif.Mapping
