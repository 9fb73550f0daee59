import Verif.Lemmas.Repeat
import Verif.Spec.Repeat

/-!
# C123: two calibrations from the same files
-/

set_option linter.unusedSectionVars false

namespace Verif.Props

open Verif.Np Verif.Stats Verif.Spec Verif.BreakFit Verif.FitCond Verif.Piecewise Verif.Lemmas Matrix

/-- C123. If an offset is fitted the result does not depend on the random numbers at all. -/
theorem fit_offset_repeatable {n m : ℕ} (xfit : Fin (m + 1) → ℝ) (x y err : Fin (n + 1) → ℝ) (cov : Matrix (Fin (n + 1)) (Fin (n + 1)) ℝ)
    (args : List Arg) (opt opt' : Externals) (h : opt.search = opt'.search) (fit : Fit m) (hfit : fitCore xfit x y err cov args opt = .ok fit)
    (hoff : fit.coef.length = 1) : fitCore xfit x y err cov args opt' = .ok fit := by
  revert hfit
  unfold fitCore
  have ht : ∀ (d : Scaled n) (lo hi : ℝ) (o : Opts) (maxIn : ℤ) (p : Plan), tryModel d lo hi o maxIn p opt = tryModel d lo hi o maxIn p opt' :=
    fun d lo hi o maxIn p => funext fun nbr => tryModel_search d lo hi o maxIn p opt opt' h nbr
  simp only [ht]
  simp only [bind, Except.bind, pure, Except.pure]
  cases parseArgs args with
  | error e => exact id
  | ok o0 =>
    simp only
    generalize ({ o0 with breaks := o0.breaks.map fun l => l.map fun v => (v - xCentre x) / xScale x } : Opts) = o
    cases maxBreaks o with
    | error e => exact id
    | ok maxIn =>
      simp only
      by_cases hpf : presetFails (scaled x y err) o maxIn
      · simp only [if_pos hpf]; exact id
      simp only [if_neg hpf]
      generalize (List.mapM _ _ : Except PyErr (List Fitted)) = t
      cases t with
      | error e => exact id
      | ok tried =>
        simp only
        generalize chooseModel _ _ _ _ _ = cm
        cases cm with
        | error e => exact id
        | ok f =>
          simp only
          split_ifs with hdet
          · exact id
          · cases f with
            | offset a r => exact id
            | line b br co r =>
              simp only
              generalize errorLoop _ _ = el
              cases el with
              | error e => exact id
              | ok u =>
                intro hfit
                rw [← Except.ok.inj hfit] at hoff
                simp [finish] at hoff

/-- C123, `fit_cond`: the random numbers have an influence on the errors of the fitted values only. -/
theorem fit_repeatable (obs : List Obs) (lvcov : ℕ → ℕ → ℝ) (args : List Arg) (opt opt' : Externals) (h : opt.search = opt'.search) :
    (fitCond obs lvcov args opt).map (Option.map eraseFit) = (fitCond obs lvcov args opt').map (Option.map eraseFit) :=
  fitCond_erase obs lvcov args opt opt' h

/-- C123. Two calibrations from the same files, with the same results of the search for break points, but with different random numbers, both fail with
the same exception or both save the same file, up to the errors of the factors and the errors of conductivity and salinity derived from them. -/
theorem calibration_repeatable (E E' : Env) (hg : E.gsw = E'.gsw) (hcov : E.cov = E'.cov) (hs : ∀ i, (E.opt i).search = (E'.opt i).search)
    (S : Settings) (data : List Column) (coords : Option (List Coord)) :
    (calibrate E S data coords).map fileWithoutErrors = (calibrate E' S data coords).map fileWithoutErrors := by
  unfold calibrate
  simp only [bind, Except.bind]
  split
  · rfl
  · split_ifs
    · exact steps_repeatable E E' hg hcov hs S _ data coords _ _ _ rfl
    · rfl

end Verif.Props
