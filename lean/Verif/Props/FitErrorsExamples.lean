import Verif.Props.FitErrors
import Verif.Props.FitExamples
import Verif.Props.Repeat
import Verif.Props.PiecewiseMore

/-!
# Cases for C120-C123
-/

set_option linter.unusedSectionVars false

namespace Verif.Props

open Verif.Np Verif.Spec Verif.BreakFit Verif.FitCond Verif.Piecewise Matrix

/-- Seven values on the line 2 + x, with the errors 1: a straight line is fitted, whatever the random numbers. -/
theorem seven_line (opt : Externals) : ∃ fit, fitCore sevenX sevenX (fun i => 2 + sevenX i) (fun _ => 1) 1 [.str "max_no_breaks", .int 0] opt = .ok fit ∧
    fit.coef.length = 2 := by
  obtain ⟨fit, h1, h2, -⟩ := fit_linear_aux sevenX sevenX (fun i => 2 + sevenX i) (fun _ => 1) (fun _ => one_pos) 1 isCorrelation_one opt
    sevenX_strict.monotone (sevenX_strict (by decide)) sevenX_strict.monotone (by rw [(ndf_bounds_sharp 6).1]; norm_num) 2 1 one_ne_zero
    (fun i => by ring) 0 le_rfl (noneDegenerate_line _ _ _ (fun _ => one_pos) _ _ sevenX_strict.monotone (sevenX_strict (by decide)))
  exact ⟨fit, h1, by rw [h2]; rfl⟩

/-- The case meets the hypotheses of C120 and C122. The slope has the variance 1/28 and the standard error √(1/28); the number reported as error of the
time derivative is 3/56. -/
theorem time_deriv_err_case (opt : Externals) :
    ∃ fit, fitCore sevenX sevenX (fun i => 2 + sevenX i) (fun _ => 1) 1 [.str "max_no_breaks", .int 0] opt = .ok fit ∧
      slopeVariance sevenX (fun _ => 1) = 1 / 28 ∧ ∀ i, fit.timeDerivErr i = some (3 / 56) := by
  obtain ⟨fit, h1, h2⟩ := seven_line opt
  have hm : weightedMean sevenX (fun _ => 1) = 3 := by
    simp [weightedMean, sevenX, Fin.sum_univ_succ]; norm_num
  have hv : slopeVariance sevenX (fun _ => 1) = 1 / 28 := by
    unfold slopeVariance
    rw [hm]
    simp [sevenX, Fin.sum_univ_succ]; norm_num
  refine ⟨fit, h1, hv, fun i => ?_⟩
  rcases fit_time_deriv_err sevenX sevenX (fun i => 2 + sevenX i) (fun _ => 1) sevenX_strict.monotone (sevenX_strict (by decide)) (fun _ => one_pos) opt 0
    (by norm_num) fit h1 with ⟨h, -⟩ | ⟨-, h⟩
  · omega
  · have hmean : mean (fun i => 2 + sevenX i) = 5 := by
      simp [mean, sevenX, Fin.sum_univ_succ]; norm_num
    have hs : std (fun i => 2 + sevenX i) = 2 := by
      unfold std
      rw [hmean, Real.sqrt_eq_iff_mul_self_eq] <;> norm_num [mean, sevenX, Fin.sum_univ_succ]
    rw [h, hv, ← std_eq, hs]
    simp [sevenX, Fin.last]
    norm_num

/-- C123. The errors of a fitted line do depend on the random numbers: the same data give the errors 0 or 1 for every profile. -/
theorem fit_errors_not_repeatable : ∃ (opt opt' : Externals) (fit fit' : Fit 6), opt.search = opt'.search ∧
    fitCore sevenX sevenX (fun i => 2 + sevenX i) (fun _ => 1) 1 [.str "max_no_breaks", .int 0] opt = .ok fit ∧
    fitCore sevenX sevenX (fun i => 2 + sevenX i) (fun _ => 1) 1 [.str "max_no_breaks", .int 0] opt' = .ok fit' ∧
    ∀ i, fit.condslopeErr i = some 0 ∧ fit'.condslopeErr i = some 1 := by
  have key : ∀ (v : ℝ) (fit : Fit 6),
      fitCore sevenX sevenX (fun i => 2 + sevenX i) (fun _ => 1) 1 [.str "max_no_breaks", .int 0] ⟨fun _ => (fun _ => 0, fun _ => 0), fun _ _ => v⟩ = .ok fit →
      fit.coef.length = 2 → ∀ i, fit.condslopeErr i = some (Real.sqrt (v ^ 2)) := by
    intro v fit h1 h2 i
    obtain ⟨c, s, hb, herr⟩ := fit_line_error_noise sevenX sevenX (fun _ => 1) sevenX_strict.monotone (sevenX_strict (by decide)) (fun _ => one_pos)
      ⟨fun _ => (fun _ => 0, fun _ => 0), fun _ _ => v⟩ sevenX_strict.monotone _ 0 (by norm_num) fit h1 h2
    have hz : ∀ l j, c l + s l * (sevenX j - sevenX 0) = v := by
      intro l j
      have h := hb l v 0
      have h0 : deviation (fun _ => 1 / (1 : ℝ) ^ 2) sevenX (fun _ => 1 * v) (fun t => v + 0 * (t - sevenX 0)) = 0 := by
        unfold deviation
        exact Finset.sum_eq_zero fun i _ => by ring
      rw [h0] at h
      unfold deviation at h
      have hall := (Finset.sum_eq_zero_iff_of_nonneg (fun i _ => by positivity)).1 (le_antisymm h (Finset.sum_nonneg fun i _ => by positivity)) j (Finset.mem_univ j)
      have := pow_eq_zero_iff (by norm_num) |>.1 ((mul_eq_zero.1 hall).resolve_left (by norm_num))
      linarith
    rw [herr]
    simp only [hz]
    congr 2
    simp
  obtain ⟨fit, h1, h2⟩ := seven_line ⟨fun _ => (fun _ => 0, fun _ => 0), fun _ _ => 0⟩
  obtain ⟨fit', h1', h2'⟩ := seven_line ⟨fun _ => (fun _ => 0, fun _ => 0), fun _ _ => 1⟩
  have e0 : ∀ i, fit.condslopeErr i = some 0 := fun i => by rw [key 0 fit h1 h2]; simp
  have e1 : ∀ i, fit'.condslopeErr i = some 1 := fun i => by rw [key 1 fit' h1' h2']; simp
  exact ⟨⟨fun _ => (fun _ => 0, fun _ => 0), fun _ _ => 0⟩, ⟨fun _ => (fun _ => 0, fun _ => 0), fun _ _ => 1⟩, fit, fit', rfl, h1, h1', fun i => ⟨e0 i, e1 i⟩⟩

/-- A calibration that completes, repeated with other random numbers: the hypotheses of C123 hold and both complete. -/
example (noise : ℕ → ℕ → ℕ → ℝ) : let E' : Env := { exCalEnv with opt := fun i => { exCalEnv.opt i with noise := noise i } }
    (∀ i, (exCalEnv.opt i).search = (E'.opt i).search) ∧
    ∃ out out', calibrate exCalEnv calSettings exDataSorted (some calExCoords) = .ok out ∧ calibrate E' calSettings exDataSorted (some calExCoords) = .ok out' ∧
      fileWithoutErrors out = fileWithoutErrors out' := by
  intro E'
  refine ⟨fun _ => rfl, ?_⟩
  obtain ⟨out, h⟩ := calRun 1 2 (by norm_num)
  have hr := calibration_repeatable exCalEnv E' rfl rfl (fun _ => rfl) calSettings exDataSorted (some calExCoords)
  have h' : calibrate exCalEnv calSettings exDataSorted (some calExCoords) = .ok out := h
  rw [h'] at hr
  cases hb : calibrate E' calSettings exDataSorted (some calExCoords) with
  | error e => rw [hb] at hr; cases hr
  | ok out' => rw [hb] at hr; exact ⟨out, out', h', rfl, Except.ok.inj hr⟩

end Verif.Props
