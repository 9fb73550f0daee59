import Verif.Lemmas.Rename
import Verif.Props.PiecewiseMore

/-!
# C156: numbers of profiles and labels of segments are names
-/

set_option linter.unusedSectionVars false

namespace Verif.Props

open Verif.Np Verif.FitCond Verif.Piecewise Verif.Spec Verif.Lemmas.Rename

/-- C156 (the fit). All profile numbers, and prescribed break points, moved by `β`: `fit_cond` ends with the same error, or returns nothing in both cases, or returns the same
fit with its numbers and break points moved by `β` and everything else the same: slopes, errors, coefficients, residuals, degrees of freedom. -/
theorem fit_renumbered (β : ℝ) (obs : List Obs) (lvcov : ℕ → ℕ → ℝ) (args : List Arg) (opt : Externals) :
    fitCond (obs.map fun o => { o with x := o.x + β }) lvcov (args.map (moveArg β)) opt =
      (fitCond obs lvcov args opt).map (Option.map fun f => ⟨f.1, moveFit β f.2⟩) :=
  fitCond_shift β obs lvcov args opt

/-- C156 (profile numbers). All profile numbers, and prescribed break points, moved by `β`: the calibration fails with the same error, or saves the same calibrated salinities, errors and
coefficients, with its break points moved by `β`. -/
theorem calibration_renumbered (β : ℝ) (E : Env) (S : Settings) (data : List Column) (coords : Option (List Stats.Coord)) :
    calibrate E (moveBreaks β S) (data.map (renumber β)) coords = (calibrate E S data coords).map (moveFile β) :=
  calibrate_shift β E S data coords

/-- C156 (labels). Other labels of the segments in the same order, with 0 still meaning "no segment": the calibration is the same. -/
theorem calibration_relabelled (g : ℝ → ℝ) (hg : StrictMono g) (h0 : g 0 = 0) (E : Env) (S : Settings) (data : List Column) (coords : Option (List Stats.Coord)) :
    calibrate E (relabel g S) data coords = calibrate E S data coords :=
  calibrate_relabel g hg h0 E S data coords

/-- Five profiles in two segments, numbered from 101 and with the segments named 3 and 6: calibrated, with the salinities of the numbers 1 to 5 and the segments 1 and 2. -/
example : ∃ out, calibrate exCalEnv calSettings calData (some calExCoords) = .ok out ∧
    calibrate exCalEnv (relabel (3 * ·) (moveBreaks 100 calSettings)) (calData.map (renumber 100)) (some calExCoords) = .ok (moveFile 100 out) := by
  obtain ⟨out, h⟩ := calRun 2 1 (by norm_num)
  refine ⟨out, h, ?_⟩
  rw [calibration_relabelled (3 * ·) (fun a b h => by dsimp; linarith) (by norm_num), calibration_renumbered]
  exact congrArg (Except.map (moveFile 100)) h

end Verif.Props
