import Verif.Lemmas.FitErrors
import Verif.Spec.FitErrors
import Verif.Props.FitMore

/-!
# C120-C123: the errors reported by `fit_cond`
-/

set_option linter.unusedSectionVars false

namespace Verif.Props

open Verif.Np Verif.Spec Verif.BreakFit Verif.FitCond Verif.Lemmas Matrix

theorem std_eq {n : ℕ} (y : Fin (n + 1) → ℝ) : std y = standardDeviation y := by
  unfold std standardDeviation mean
  push_cast
  rfl

section

variable {n m : ℕ} (xfit : Fin (m + 1) → ℝ) (x y err : Fin (n + 1) → ℝ) (hx : Monotone x) (hx0 : x 0 < x (Fin.last n)) (he : ∀ i, 0 < err i)
  (opt : Externals)

include hx hx0 he

/-- C120. For uncorrelated data the number reported as error of the time derivative is not its standard error, nor its variance: it is the variance
of the slope times half the range of the profiles over the standard deviation of the values. For an offset it is NaN. -/
theorem fit_time_deriv_err (k : ℤ) (hk : -1 ≤ k) (fit : Fit m) (hfit : fitCore xfit x y err 1 [.str "max_no_breaks", .int k] opt = .ok fit) :
    (fit.coef.length = 1 ∧ ∀ i, fit.timeDerivErr i = none) ∨
    (fit.coef.length = 2 ∧ ∀ i, fit.timeDerivErr i = some (slopeVariance x err * ((x (Fin.last n) - x 0) / 2 / standardDeviation y))) := by
  rw [← std_eq]
  rcases fit_cases xfit x y err he 1 isCorrelation_one k hk opt fit hfit with ⟨a, r, rfl⟩ | ⟨a, r, r', ha, rfl⟩
  · left; exact ⟨rfl, fun _ => rfl⟩
  · right
    refine ⟨by simp [finish], fun i => ?_⟩
    show some (coefVar (scaled x y err) 1 (trends (scaled x y err).xf ![]) 1 * yScale y / xScale x) = _
    have hdet := linear_det x y err hx he hx0
    rw [coefVar_one _ _ (w_errVar x y err he) _ hdet, normal_inv_one _ (xf_mono x y err hx) _ (scaled_w_sum x y err he), ← div_eq_mul_one_div,
      spread_scaled x y err hx he]
    have hstd : std y ≠ 0 := by
      intro h
      have hall := (std_eq_zero y).1 h
      obtain ⟨fit', h1, h2, -⟩ := fit_constant_aux xfit x y err he 1 isCorrelation_one opt (y 0) (fun i => hall i 0) k hk
        (.of_ok he isCorrelation_one hk hfit)
      rw [hfit] at h1
      have := congrArg (fun f => List.length f.coef) (Except.ok.inj h1)
      rw [h2] at this
      simp [finish] at this
    rw [yScale, if_neg hstd, xScale, if_pos hx0.ne]
    have hr : (x (Fin.last n) - x 0) / 2 ≠ 0 := by linarith
    congr 1
    field_simp

end

/-! ## C121: the error of an offset -/

section

variable {n m : ℕ} (xfit : Fin (m + 1) → ℝ) (x y err : Fin (n + 1) → ℝ) (he : ∀ i, 0 < err i)
  (cov : Matrix (Fin (n + 1)) (Fin (n + 1)) ℝ) (hc : IsPosCorrelation cov) (opt : Externals)

include he hc

/-- C121. The error reported for an offset: positive correlations between the data make it larger than the standard error of uncorrelated data,
by the factor √N at most. -/
theorem fit_offset_error_bounds : ∃ fit e, fitCore xfit x y err cov [.str "max_no_breaks", .int (-1)] opt = .ok fit ∧
    (∀ i, fit.condslopeErr i = some e) ∧ Real.sqrt (meanVariance err 1) ≤ e ∧ e ≤ Real.sqrt (n + 1) * Real.sqrt (meanVariance err 1) := by
  obtain ⟨fit, h1, h2⟩ := offset_error xfit x y err he cov hc opt
  have hS : 0 < ∑ i, 1 / err i ^ 2 := Finset.sum_pos (fun i _ => by have := he i; positivity) ⟨0, Finset.mem_univ _⟩
  have hm : meanVariance err (1 : Matrix (Fin (n + 1)) (Fin (n + 1)) ℝ) = (∑ i, 1 / err i ^ 2) / (∑ i, 1 / err i ^ 2) ^ 2 := by
    unfold meanVariance
    congr 1
    refine Finset.sum_congr rfl fun i _ => ?_
    rw [Finset.sum_eq_single i]
    · rw [Matrix.one_apply_eq]
      have := (he i).ne'
      field_simp
    · intro j _ hj; rw [Matrix.one_apply_ne hj.symm]; ring
    · intro h; exact absurd (Finset.mem_univ i) h
  refine ⟨fit, _, h1, h2, ?_, ?_⟩
  · rw [hm]
    apply Real.sqrt_le_sqrt
    gcongr with j
    have hj : 1 ≤ ∑ i, cov i j := by
      rw [← hc.2 j]
      exact Finset.single_le_sum (f := fun i => cov i j) (fun i _ => (hc.1 i j).1) (Finset.mem_univ j)
    exact le_mul_of_one_le_right (by positivity) hj
  · rw [hm, ← Real.sqrt_mul (by positivity), ← mul_div_assoc]
    apply Real.sqrt_le_sqrt
    rw [Finset.mul_sum]
    refine div_le_div_of_nonneg_right (Finset.sum_le_sum fun j _ => ?_) (sq_nonneg _)
    have hj : ∑ i, cov i j ≤ n + 1 := by
      refine (Finset.sum_le_sum fun i _ => (hc.1 i j).2).trans (le_of_eq ?_)
      simp
    rw [mul_comm]
    exact mul_le_mul_of_nonneg_right hj (by positivity)

omit he in
/-- C121. If all errors are equal the error of an offset is the standard error of the mean under the correlations. -/
theorem fit_offset_error_equal (ε : ℝ) (hε : 0 < ε) : ∃ fit, fitCore xfit x y (fun _ => ε) cov [.str "max_no_breaks", .int (-1)] opt = .ok fit ∧
    ∀ i, fit.condslopeErr i = some (Real.sqrt (meanVariance (fun _ => ε) cov)) := by
  obtain ⟨fit, h1, h2⟩ := offset_error xfit x y (fun _ => ε) (fun _ => hε) cov hc opt
  refine ⟨fit, h1, fun i => ?_⟩
  rw [h2, meanVariance]
  congr 3
  rw [Finset.sum_comm]
  refine Finset.sum_congr rfl fun j _ => ?_
  rw [Finset.mul_sum]
  refine Finset.sum_congr rfl fun i _ => ?_
  field_simp

end

/-- C121. With errors 1 and 2 and the correlation 1/2 the error of an offset is √(6/5), the standard error is √(28/25). -/
theorem fit_offset_error_unequal : let cov : Matrix (Fin 2) (Fin 2) ℝ := !![1, 1 / 2; 1 / 2, 1]
    IsPosCorrelation cov ∧ meanVariance ![1, 2] cov = 28 / 25 ∧
    ∀ (xfit x y : Fin 2 → ℝ) (opt : Externals), ∃ fit, fitCore xfit x y ![1, 2] cov [.str "max_no_breaks", .int (-1)] opt = .ok fit ∧
      ∀ i, fit.condslopeErr i = some (Real.sqrt (6 / 5)) := by
  intro cov
  have hc : IsPosCorrelation cov := by
    constructor
    · intro i j; fin_cases i <;> fin_cases j <;> norm_num [cov]
    · intro i; fin_cases i <;> rfl
  refine ⟨hc, ?_, fun xfit x y opt => ?_⟩
  · simp [meanVariance, Fin.sum_univ_two, cov]; norm_num
  · obtain ⟨fit, h1, h2⟩ := offset_error xfit x y ![1, 2] (fun i => by fin_cases i <;> norm_num) cov hc opt
    refine ⟨fit, h1, fun i => ?_⟩
    rw [h2]
    congr 2
    simp [Fin.sum_univ_two, cov]; norm_num

/-! ## C122: the error of a straight line -/

section

variable {n m : ℕ} (xfit : Fin (m + 1) → ℝ) (x err : Fin (n + 1) → ℝ) (hx : Monotone x) (hx0 : x 0 < x (Fin.last n)) (he : ∀ i, 0 < err i)
  (opt : Externals)


include hx hx0 he

/-- C122. Where a straight line is fitted, the error reported for a profile does not depend on the observed values: it is determined by the profiles,
the errors and correlations of the data and the random numbers drawn. -/
theorem fit_line_error_ignores_values (cov : Matrix (Fin (n + 1)) (Fin (n + 1)) ℝ) (hc : IsPosCorrelation cov) (y y' : Fin (n + 1) → ℝ) (k k' : ℤ)
    (hk : -1 ≤ k) (hk' : -1 ≤ k') (fit fit' : Fit m)
    (hfit : fitCore xfit x y err cov [.str "max_no_breaks", .int k] opt = .ok fit) (hline : fit.coef.length = 2)
    (hfit' : fitCore xfit x y' err cov [.str "max_no_breaks", .int k'] opt = .ok fit') (hline' : fit'.coef.length = 2) (i : Fin (m + 1)) :
    fit.condslopeErr i = fit'.condslopeErr i := by
  rw [line_error_ref xfit x err hx hx0 he opt cov hc y k hk fit hfit hline, line_error_ref xfit x err hx hx0 he opt cov hc y' k' hk' fit' hfit' hline']

/-- C122. For uncorrelated data the error of a straight line at a profile is the root mean square, over 200 draws, of the straight line of least squares
fitted to noise alone: to the errors of the data multiplied by the random numbers drawn. -/
theorem fit_line_error_noise (hxm : Monotone xfit) (y : Fin (n + 1) → ℝ) (k : ℤ) (hk : -1 ≤ k) (fit : Fit m)
    (hfit : fitCore xfit x y err 1 [.str "max_no_breaks", .int k] opt = .ok fit) (hline : fit.coef.length = 2) :
    ∃ c s : ℕ → ℝ, (∀ l, IsBestLine x err (fun j => err j * opt.noise l j.val) (x 0) (c l) (s l)) ∧
      ∀ i, fit.condslopeErr i = some (Real.sqrt ((∑ l ∈ Finset.range 200, (c l + s l * (xfit i - xfit 0)) ^ 2) / 200)) := by
  have hxs := xScale_pos x hx
  set d := scaled x 0 err with hd
  have hdet := linear_det x 0 err hx he hx0
  rw [← hd] at hdet
  set E := trends d.xf (![] : Fin 0 → ℝ) with hE
  have hmono : Monotone d.xf := xf_mono x 0 err hx
  let a : ℕ → Fin 2 → ℝ := fun l => noisyCoef d ![] fun j => opt.noise l j.val
  have hnErr : ∀ i, d.nErr i = err i := fun i => by
    show err i / yScale 0 = _
    rw [yScale_zero, div_one]
  have hyf : ∀ i, d.yf i = 0 := fun i => by
    show ((0 : ℝ) - mean 0) / _ = 0
    simp [mean]
  have ha : ∀ l, a l = ((Eᵀ * diagonal d.w * E)⁻¹ * Eᵀ * diagonal d.w) *ᵥ fun j => err j * opt.noise l j.val := by
    intro l
    show noisyCoef d ![] _ = _
    unfold noisyCoef
    rw [brkPtFit_eq _ _ _ _ _ (Or.inl rfl) hdet]
    simp only [hyf, hnErr, zero_add]
    rfl
  refine ⟨fun l => a l 0, fun l => a l 1 / xScale x, fun l c' s' => ?_, fun i => ?_⟩
  · obtain ⟨c, hcp, hw⟩ := scaled_w_eq x 0 err he
    have h := normal_minimal E d.w (fun j => err j * opt.noise l j.val) (fun i => (scaled_w_pos x 0 err he i).le) hdet ![c', s' * xScale x]
    rw [← ha l] at h
    have hval : ∀ (b : Fin 2 → ℝ) j, (E *ᵥ b) j = b 0 + b 1 / xScale x * (x j - x 0) := fun b j => by
      rw [hE, trends_line _ hmono]
      show b 0 + b 1 * ((x j - xCentre x) / xScale x - (x 0 - xCentre x) / xScale x) = _
      field_simp
      ring
    simp only [hval] at h
    have h2 : ∀ v : Fin (n + 1) → ℝ, ∑ j, d.w j * v j ^ 2 = c * ∑ j, 1 / err j ^ 2 * v j ^ 2 := fun v => by
      rw [Finset.mul_sum]
      exact Finset.sum_congr rfl fun j _ => by rw [hw j]; ring
    rw [h2 (fun j => err j * opt.noise l j.val - _), h2 (fun j => err j * opt.noise l j.val - _)] at h
    have h3 := le_of_mul_le_mul_left h hcp
    refine h3.trans (le_of_eq ?_)
    unfold deviation
    refine Finset.sum_congr rfl fun j _ => ?_
    simp only [cons_val_zero, cons_val_one, cons_val_fin_one]
    field_simp
  · rw [line_error_ref xfit x err hx hx0 he opt 1 isCorrelation_one y k hk fit hfit hline]
    have hfm : Monotone fun i : Fin (m + 1) => (xfit i - xCentre x) / xScale x := fun i j hij => by
      have := hxm hij
      simp only
      gcongr
    unfold lineErr
    simp only [← hd, trends_line _ hfm]
    have hP : 0 < coefVar d 1 E 0 + coefVar d 1 E 1 * ((xfit i - xCentre x) / xScale x - (xfit 0 - xCentre x) / xScale x) := by
      have hM := mean_pos _ (scaled_errVar_pos x 0 err he)
      have hws := scaled_w_sum x 0 err he
      have hsp : 0 < spreadW d.w d.xf := by
        have h1 := normal_det d.xf hmono d.w hws
        have h2 : 0 ≤ spreadW d.w d.xf := Finset.sum_nonneg fun i _ => mul_nonneg (scaled_w_pos x 0 err he i).le (sq_nonneg _)
        refine lt_of_le_of_ne h2 fun h => hdet ?_
        rw [h1, ← h, mul_zero]
      rw [coefVar_one d _ (w_errVar x 0 err he) E hdet, coefVar_one d _ (w_errVar x 0 err he) E hdet, normal_inv_one d.xf hmono d.w hws,
        normal_inv_zero d.xf hmono d.w hws]
      have h2 : 0 < ∑ i, d.w i * (d.xf i - d.xf 0) ^ 2 := by
        refine Finset.sum_pos' (fun i _ => mul_nonneg (scaled_w_pos x 0 err he i).le (sq_nonneg _)) ⟨Fin.last n, Finset.mem_univ _, ?_⟩
        refine mul_pos (scaled_w_pos x 0 err he _) (pow_pos ?_ 2)
        show 0 < (x (Fin.last n) - xCentre x) / xScale x - (x 0 - xCentre x) / xScale x
        rw [← sub_div]
        exact div_pos (by linarith) hxs
      have h3 : 0 ≤ (xfit i - xCentre x) / xScale x - (xfit 0 - xCentre x) / xScale x := sub_nonneg.2 (hfm (Fin.zero_le i))
      have h4 : 0 < ∑ i, d.w i := hws
      positivity
    rw [Mapping.npDiv, if_neg hP.ne', div_self hP.ne', Option.bind_some, mul_one, Mapping.npSqrt, if_neg]
    · congr 3
      · refine Finset.sum_congr rfl fun l _ => ?_
        simp only [Pi.zero_apply, zero_mul, zero_add, zero_sub, add_zero]
        show (-(a l 0 + a l 1 * _)) ^ 2 = _
        rw [neg_sq]
        congr 1
        field_simp
        ring
    · refine not_lt.2 (div_nonneg (Finset.sum_nonneg fun l _ => sq_nonneg _) (by norm_num))

end

end Verif.Props
