import Verif.Props.FitMore
import Verif.Spec.FitErrors

/-!
# Lemmas: the errors of an offset and of a straight line
-/

set_option linter.unusedSectionVars false

namespace Verif.Lemmas

open Verif.Np Verif.Spec Verif.BreakFit Verif.FitCond Verif.Props Matrix

/-- What a free fit returns: an offset or a straight line. -/
theorem fit_cases {n m : ℕ} (xfit : Fin (m + 1) → ℝ) (x y err : Fin (n + 1) → ℝ) (he : ∀ i, 0 < err i)
    (cov : Matrix (Fin (n + 1)) (Fin (n + 1)) ℝ) (hc : IsPosCorrelation cov) (k : ℤ) (hk : -1 ≤ k) (opt : Externals)
    (fit : Fit m) (hfit : fitCore xfit x y err cov [.str "max_no_breaks", .int k] opt = .ok fit) :
    (∃ a r, fit = finish 200 opt x y (scaled x y err) cov xfit (.offset a r)) ∨
    ∃ a r r', brkPtFit (scaled x y err).xf (scaled x y err).yf (some (diagonal (scaled x y err).w)) (![] : Fin 0 → ℝ) = .ok (a, r') ∧
      fit = finish 200 opt x y (scaled x y err) cov xfit (.line 0 ![] a r) := by
  obtain ⟨cand, f, hcand, h1, h2, h3, h4⟩ := choice xfit x y err he cov hc k hk opt (.of_ok he hc hk hfit)
  rw [h4] at hfit
  split_ifs at hfit with hd
  cases f with
  | offset a r => exact Or.inl ⟨a, r, (Except.ok.inj hfit).symm⟩
  | line b br co r =>
    cases b with
    | succ b => simp at hfit
    | zero =>
      right
      have hbr : br = ![] := Subsingleton.elim _ _
      subst hbr
      obtain ⟨a, r', h⟩ := brkPtFit_ok (scaled x y err).xf (scaled x y err).yf (some (diagonal (scaled x y err).w)) (![] : Fin 0 → ℝ)
      rw [show nbrOf (.line 0 ![] co r) = 0 from rfl, hcand, tryModel_linear _ _ _ _ _ _ _ hd a r' h] at h2
      have := Except.ok.inj h2
      injection this with _ _ h5 h6
      subst h5
      exact ⟨a, r, r', h, (Except.ok.inj hfit).symm⟩

section

variable {n : ℕ} (t : Fin (n + 1) → ℝ) (ht : Monotone t)

include ht in
theorem trends_line (a : Fin 2 → ℝ) (i : Fin (n + 1)) : (trends t (![] : Fin 0 → ℝ) *ᵥ a) i = a 0 + a 1 * (t i - t 0) := by
  rw [trends_apply _ ht _ (mono_one _), lineOf_zero _ _ _ (by simpa using ht (Fin.zero_le i))]
  simp

include ht in
theorem trends_zero (i : Fin (n + 1)) : trends t (![] : Fin 0 → ℝ) i 0 = 1 := by
  have := trends_line t ht (Pi.single 0 1) i
  rw [mulVec_single_one] at this
  simpa using this

include ht in
theorem trends_one (i : Fin (n + 1)) : trends t (![] : Fin 0 → ℝ) i 1 = t i - t 0 := by
  have := trends_line t ht (Pi.single 1 1) i
  rw [mulVec_single_one] at this
  simpa using this

/-- The weighted spread of `t`. -/
noncomputable def spreadW {n : ℕ} (w t : Fin n → ℝ) : ℝ := ∑ i, w i * (t i - (∑ j, w j * t j) / ∑ j, w j) ^ 2

theorem spread_eq (w : Fin (n + 1) → ℝ) (hw : 0 < ∑ i, w i) :
    (∑ i, w i) * (∑ i, w i * (t i - t 0) ^ 2) - (∑ i, w i * (t i - t 0)) ^ 2 = (∑ i, w i) * spreadW w t := by
  have e : spreadW w t = (∑ i, w i * (t i - t 0) ^ 2) - 2 * ((∑ j, w j * t j) / (∑ j, w j) - t 0) * (∑ i, w i * (t i - t 0)) +
      ((∑ j, w j * t j) / (∑ j, w j) - t 0) ^ 2 * ∑ i, w i := by
    unfold spreadW
    rw [Finset.mul_sum, Finset.mul_sum, ← Finset.sum_sub_distrib, ← Finset.sum_add_distrib]
    exact Finset.sum_congr rfl fun i _ => by ring
  have e2 : ∑ i, w i * (t i - t 0) = (∑ i, w i * t i) - t 0 * ∑ i, w i := by
    rw [Finset.mul_sum, ← Finset.sum_sub_distrib]
    exact Finset.sum_congr rfl fun i _ => by ring
  rw [e, e2]
  field_simp
  ring

include ht in
theorem normal_entries (w : Fin (n + 1) → ℝ) :
    (trends t (![] : Fin 0 → ℝ))ᵀ * diagonal w * trends t (![] : Fin 0 → ℝ) =
      !![∑ i, w i, ∑ i, w i * (t i - t 0); ∑ i, w i * (t i - t 0), ∑ i, w i * (t i - t 0) ^ 2] := by
  ext i j
  rw [Matrix.mul_apply]
  simp only [mul_diagonal, transpose_apply]
  fin_cases i <;> fin_cases j <;> simp only [Fin.mk_zero, Fin.mk_one, trends_zero t ht, trends_one t ht, Matrix.of_apply, cons_val', cons_val_zero, cons_val_one, cons_val_fin_one] <;>
    exact Finset.sum_congr rfl fun i _ => by ring

include ht in
theorem normal_det (w : Fin (n + 1) → ℝ) (hw : 0 < ∑ i, w i) :
    ((trends t (![] : Fin 0 → ℝ))ᵀ * diagonal w * trends t (![] : Fin 0 → ℝ)).det = (∑ i, w i) * spreadW w t := by
  rw [normal_entries t ht, det_fin_two_of, ← spread_eq t w hw]
  ring

include ht in
theorem normal_inv_one (w : Fin (n + 1) → ℝ) (hw : 0 < ∑ i, w i) :
    ((trends t (![] : Fin 0 → ℝ))ᵀ * diagonal w * trends t (![] : Fin 0 → ℝ))⁻¹ 1 1 = 1 / spreadW w t := by
  rw [Matrix.inv_def, normal_det t ht w hw, normal_entries t ht, adjugate_fin_two_of]
  simp only [Ring.inverse_eq_inv', Matrix.smul_apply, Matrix.of_apply, cons_val', cons_val_one, cons_val_fin_one, smul_eq_mul]
  rw [mul_inv, mul_right_comm, inv_mul_cancel₀ hw.ne', one_mul, one_div]

include ht in
theorem normal_inv_zero (w : Fin (n + 1) → ℝ) (hw : 0 < ∑ i, w i) :
    ((trends t (![] : Fin 0 → ℝ))ᵀ * diagonal w * trends t (![] : Fin 0 → ℝ))⁻¹ 0 0 =
      (∑ i, w i * (t i - t 0) ^ 2) / ((∑ i, w i) * spreadW w t) := by
  rw [Matrix.inv_def, normal_det t ht w hw, normal_entries t ht, adjugate_fin_two_of]
  simp only [Ring.inverse_eq_inv', Matrix.smul_apply, Matrix.of_apply, cons_val', cons_val_zero, cons_val_fin_one, smul_eq_mul]
  rw [div_eq_inv_mul]

end

/-- For uncorrelated data the variances of the coefficients are those of the least squares theory, up to the mean variance. -/
theorem coefVar_one {n k : ℕ} (d : Scaled n) (c : ℝ) (hc : ∀ i, d.w i * d.errVar i = c) (E : Matrix (Fin (n + 1)) (Fin k) ℝ)
    (hdet : (Eᵀ * diagonal d.w * E).det ≠ 0) (j : Fin k) : coefVar d 1 E j = c * (Eᵀ * diagonal d.w * E)⁻¹ j j := by
  unfold coefVar
  simp only [Matrix.mul_one, diag_apply]
  set N := Eᵀ * diagonal d.w * E with hN
  have e : N⁻¹ * Eᵀ * diagonal d.w * diagonal d.errVar * diagonal d.w * E * N⁻¹ = c • N⁻¹ := by
    have h1 : diagonal d.w * diagonal d.errVar = c • (1 : Matrix (Fin (n + 1)) (Fin (n + 1)) ℝ) := by
      rw [diagonal_mul_diagonal, smul_one_eq_diagonal]
      congr 1; funext i; exact hc i
    rw [Matrix.mul_assoc (N⁻¹ * Eᵀ), h1, Matrix.mul_smul, Matrix.mul_one, Matrix.smul_mul, Matrix.smul_mul, Matrix.smul_mul,
      Matrix.mul_assoc N⁻¹, Matrix.mul_assoc N⁻¹, ← hN, Matrix.nonsing_inv_mul _ (Ne.isUnit hdet), Matrix.one_mul]
  rw [e]
  rfl

theorem w_errVar {n : ℕ} (x y err : Fin (n + 1) → ℝ) (he : ∀ i, 0 < err i) (i) :
    (scaled x y err).w i * (scaled x y err).errVar i = mean (scaled x y err).errVar :=
  div_mul_cancel₀ _ (scaled_errVar_pos x y err he i).ne'

/-! ## The errors do not depend on the values -/

theorem w_free {n : ℕ} (x y err : Fin (n + 1) → ℝ) (he : ∀ i, 0 < err i) : (scaled x y err).w = (scaled x 0 err).w := by
  funext i
  show mean (fun i => (err i / yScale y) ^ 2) / (err i / yScale y) ^ 2 = mean (fun i => (err i / yScale 0) ^ 2) / (err i / yScale 0) ^ 2
  have h1 : ∀ s : ℝ, mean (fun i => (err i / s) ^ 2) = mean (fun i => err i ^ 2) / s ^ 2 := fun s => by
    unfold mean
    rw [div_right_comm _ _ (s ^ 2), Finset.sum_div _ _ (s ^ 2)]
    simp only [div_pow]
  rw [h1, h1]
  have := (yScale_pos y).ne'
  have := (yScale_pos (0 : Fin (n + 1) → ℝ)).ne'
  have := (he i).ne'
  field_simp

theorem yScale_zero {n : ℕ} : yScale (0 : Fin (n + 1) → ℝ) = 1 := by
  unfold yScale
  rw [if_pos]
  simp [std, mean]

theorem errVar_free {n : ℕ} (x y err : Fin (n + 1) → ℝ) (i) : (scaled x y err).errVar i = (1 / yScale y ^ 2) * (scaled x 0 err).errVar i := by
  show (err i / yScale y) ^ 2 = 1 / yScale y ^ 2 * (err i / yScale 0) ^ 2
  rw [yScale_zero, div_pow, div_one]; ring

theorem nErr_free {n : ℕ} (x y err : Fin (n + 1) → ℝ) (i) : (scaled x y err).nErr i = (1 / yScale y) * (scaled x 0 err).nErr i := by
  show err i / yScale y = 1 / yScale y * (err i / yScale 0)
  rw [yScale_zero, div_one]; ring

theorem coefVar_free {n k : ℕ} (x y err : Fin (n + 1) → ℝ) (he : ∀ i, 0 < err i) (cov : Matrix (Fin (n + 1)) (Fin (n + 1)) ℝ)
    (E : Matrix (Fin (n + 1)) (Fin k) ℝ) : coefVar (scaled x y err) cov E = (1 / yScale y ^ 2) • coefVar (scaled x 0 err) cov E := by
  unfold coefVar
  rw [w_free x y err he]
  have h : diagonal (scaled x y err).errVar = (1 / yScale y ^ 2) • diagonal (scaled x 0 err).errVar := by
    rw [← diagonal_smul]; congr 1; funext i; exact errVar_free x y err i
  simp only [h, Matrix.mul_smul, Matrix.smul_mul, diag_smul]

/-- The deviation caused by noise is the fit to the noise. -/
theorem noisy_free {n b : ℕ} (x y err : Fin (n + 1) → ℝ) (he : ∀ i, 0 < err i) (br : Fin b → ℝ) (a : Fin (b + 2) → ℝ) (r' : Fin (n + 1) → ℝ)
    (hdet : ((trends (scaled x y err).xf br)ᵀ * diagonal (scaled x y err).w * trends (scaled x y err).xf br).det ≠ 0)
    (ha : brkPtFit (scaled x y err).xf (scaled x y err).yf (some (diagonal (scaled x y err).w)) br = .ok (a, r')) (z : Fin (n + 1) → ℝ) :
    a - noisyCoef (scaled x y err) br z = -((1 / yScale y) • noisyCoef (scaled x 0 err) br z) := by
  have hxf : (scaled x 0 err).xf = (scaled x y err).xf := rfl
  have hw := w_free x y err he
  unfold noisyCoef
  rw [brkPtFit_eq _ _ _ _ _ (Or.inl rfl) hdet] at ha
  obtain ⟨rfl, -⟩ := Prod.mk.inj (Except.ok.inj ha)
  rw [brkPtFit_eq _ _ _ _ _ (Or.inl rfl) hdet]
  rw [hw] at hdet ⊢
  rw [brkPtFit_eq (scaled x 0 err).xf _ _ _ _ (Or.inl rfl) hdet]
  simp only
  rw [hxf, ← mulVec_sub, ← mulVec_smul, ← mulVec_neg]
  congr 1
  funext i
  simp only [Pi.sub_apply, Pi.neg_apply, Pi.smul_apply, smul_eq_mul]
  have hy0 : (scaled x 0 err).yf i = 0 := by
    show ((0 : ℝ) - mean 0) / _ = 0
    simp [mean]
  rw [nErr_free, hy0]
  ring

theorem npDiv_scale (a b c : ℝ) (hc : c ≠ 0) : Mapping.npDiv (c * a) (c * b) = Mapping.npDiv a b := by
  unfold Mapping.npDiv
  by_cases hb : b = 0
  · simp [hb]
  · rw [if_neg hb, if_neg (mul_ne_zero hc hb), mul_div_mul_left _ _ hc]

theorem npSqrt_scale (a s : ℝ) (hs : 0 < s) : (Mapping.npSqrt (1 / s ^ 2 * a)).map (fun v => v * s) = Mapping.npSqrt a := by
  unfold Mapping.npSqrt
  have h0 : 0 < 1 / s ^ 2 := by positivity
  by_cases h : a < 0
  · rw [if_pos h, if_pos (by nlinarith)]; rfl
  · rw [if_neg h, if_neg (by push Not at h ⊢; positivity), Option.map_some, Real.sqrt_mul h0.le, one_div, Real.sqrt_inv, Real.sqrt_sq hs.le]
    congr 1
    field_simp

/-- The error of a fitted line is that of the line fitted to noise alone. -/
theorem lineErr_free {n m b : ℕ} (loops : ℤ) (noise : ℕ → ℕ → ℝ) (x y err : Fin (n + 1) → ℝ) (he : ∀ i, 0 < err i)
    (cov : Matrix (Fin (n + 1)) (Fin (n + 1)) ℝ) (xf : Fin (m + 1) → ℝ) (br : Fin b → ℝ) (a : Fin (b + 2) → ℝ) (r' : Fin (n + 1) → ℝ)
    (hdet : ((trends (scaled x y err).xf br)ᵀ * diagonal (scaled x y err).w * trends (scaled x y err).xf br).det ≠ 0)
    (ha : brkPtFit (scaled x y err).xf (scaled x y err).yf (some (diagonal (scaled x y err).w)) br = .ok (a, r')) (i : Fin (m + 1)) :
    (lineErr loops noise (scaled x y err) cov xf br a i).map (fun v => v * yScale y) = lineErr loops noise (scaled x 0 err) cov xf br 0 i := by
  have hs := yScale_pos y
  have hs2 : (1 / yScale y ^ 2) ≠ 0 := by positivity
  have hxf : (scaled x 0 err).xf = (scaled x y err).xf := rfl
  unfold lineErr
  simp only [coefVar_free x y err he, mulVec_smul, Pi.smul_apply, smul_eq_mul, hxf, npDiv_scale _ _ _ hs2]
  have hsum : (∑ l ∈ Finset.range loops.toNat, ((trends xf br *ᵥ a) i - (trends xf br *ᵥ noisyCoef (scaled x y err) br fun j => noise l j.val) i) ^ 2) /
        (loops : ℝ) =
      1 / yScale y ^ 2 * ((∑ l ∈ Finset.range loops.toNat,
        ((trends xf br *ᵥ 0) i - (trends xf br *ᵥ noisyCoef (scaled x 0 err) br fun j => noise l j.val) i) ^ 2) / (loops : ℝ)) := by
    rw [← mul_div_assoc, Finset.mul_sum]
    congr 1
    refine Finset.sum_congr rfl fun l _ => ?_
    rw [← Pi.sub_apply, ← mulVec_sub, noisy_free x y err he br a r' hdet ha, mulVec_neg, mulVec_smul, mulVec_zero]
    simp only [Pi.neg_apply, Pi.smul_apply, smul_eq_mul, Pi.zero_apply]
    ring
  rw [hsum]
  cases Mapping.npDiv ((trends xf br *ᵥ coefVar (scaled x 0 err) cov (trends (scaled x y err).xf br)) i)
      ((trends xf br *ᵥ coefVar (scaled x 0 err) 1 (trends (scaled x y err).xf br)) i) with
  | none => rfl
  | some p =>
    simp only [Option.bind_some]
    rw [mul_assoc, npSqrt_scale _ _ hs]

section

variable {n m : ℕ} (xfit : Fin (m + 1) → ℝ) (x y err : Fin (n + 1) → ℝ) (hx : Monotone x) (hx0 : x 0 < x (Fin.last n)) (he : ∀ i, 0 < err i)
  (opt : Externals)

include he in
theorem weightedMean_scaled : (∑ j, (scaled x y err).w j * (scaled x y err).xf j) / (∑ j, (scaled x y err).w j) =
    (weightedMean x err - xCentre x) / xScale x := by
  obtain ⟨c, hc, hw⟩ := scaled_w_eq x y err he
  have hS : 0 < ∑ i, 1 / err i ^ 2 := Finset.sum_pos (fun i _ => by have := he i; positivity) ⟨0, Finset.mem_univ _⟩
  have e1 : ∑ i, (scaled x y err).w i = c * ∑ i, 1 / err i ^ 2 := by
    rw [Finset.mul_sum]; exact Finset.sum_congr rfl fun i _ => hw i
  have e2 : ∑ i, (scaled x y err).w i * (scaled x y err).xf i =
      c / xScale x * (∑ i, x i / err i ^ 2 - xCentre x * ∑ i, 1 / err i ^ 2) := by
    rw [Finset.mul_sum, ← Finset.sum_sub_distrib, Finset.mul_sum]
    refine Finset.sum_congr rfl fun i _ => ?_
    rw [hw i]
    show c * (1 / err i ^ 2) * ((x i - xCentre x) / xScale x) = _
    have := (he i).ne'
    field_simp
  rw [e1, e2]
  unfold weightedMean
  field_simp

include he hx in
theorem spread_scaled : mean (scaled x y err).errVar / spreadW (scaled x y err).w (scaled x y err).xf =
    slopeVariance x err * (xScale x / yScale y) ^ 2 := by
  have hxs := (xScale_pos x hx).ne'
  have hys := (yScale_pos y).ne'
  have hM := (mean_pos _ (scaled_errVar_pos x y err he)).ne'
  have e : spreadW (scaled x y err).w (scaled x y err).xf =
      mean (scaled x y err).errVar * (yScale y / xScale x) ^ 2 * ∑ i, (x i - weightedMean x err) ^ 2 / err i ^ 2 := by
    unfold spreadW
    rw [weightedMean_scaled x y err he, Finset.mul_sum]
    refine Finset.sum_congr rfl fun i _ => ?_
    show mean (scaled x y err).errVar / (err i / yScale y) ^ 2 * ((x i - xCentre x) / xScale x - _) ^ 2 = _
    have := (he i).ne'
    field_simp
    ring
  rw [e, slopeVariance]
  by_cases h : ∑ i, (x i - weightedMean x err) ^ 2 / err i ^ 2 = 0
  · simp [h]
  · field_simp


end

section

variable {n m : ℕ} (xfit : Fin (m + 1) → ℝ) (x y err : Fin (n + 1) → ℝ) (he : ∀ i, 0 < err i)
  (cov : Matrix (Fin (n + 1)) (Fin (n + 1)) ℝ) (hc : IsPosCorrelation cov) (opt : Externals)

include he in
theorem offsetVar_eq : offsetVar (scaled x y err) cov * yScale y ^ 2 =
    (∑ j, (1 / err j ^ 2) * ∑ i, cov i j) / (∑ i, 1 / err i ^ 2) ^ 2 := by
  obtain ⟨c, hcp, hw⟩ := scaled_w_eq x y err he
  have hys := (yScale_pos y).ne'
  have hS : 0 < ∑ i, 1 / err i ^ 2 := Finset.sum_pos (fun i _ => by have := he i; positivity) ⟨0, Finset.mem_univ _⟩
  have hsum : ∑ i, (scaled x y err).w i = c * ∑ i, 1 / err i ^ 2 := by
    rw [Finset.mul_sum]; exact Finset.sum_congr rfl fun i _ => hw i
  have hwv : ∀ i, (scaled x y err).w i * (scaled x y err).errVar i = c / yScale y ^ 2 := fun i => by
    rw [hw i]
    show c * (1 / err i ^ 2) * (err i / yScale y) ^ 2 = _
    have := (he i).ne'
    field_simp
  unfold offsetVar
  rw [Finset.sum_comm, hsum]
  have e : ∑ j, ∑ i, (scaled x y err).w i * (scaled x y err).errVar i * cov i j * (scaled x y err).w j =
      c ^ 2 / yScale y ^ 2 * ∑ j, (1 / err j ^ 2) * ∑ i, cov i j := by
    rw [Finset.mul_sum]
    refine Finset.sum_congr rfl fun j _ => ?_
    rw [Finset.mul_sum, Finset.mul_sum]
    refine Finset.sum_congr rfl fun i _ => ?_
    rw [hwv, hw j]
    ring
  rw [e]
  field_simp

include he hc

theorem offset_error : ∃ fit, fitCore xfit x y err cov [.str "max_no_breaks", .int (-1)] opt = .ok fit ∧
    ∀ i, fit.condslopeErr i = some (Real.sqrt ((∑ j, (1 / err j ^ 2) * ∑ i, cov i j) / (∑ i, 1 / err i ^ 2) ^ 2)) := by
  obtain ⟨cand, f, hcand, h1, h2, h3, h4⟩ := choice xfit x y err he cov hc (-1) (by norm_num) opt (noneDegenerate_offset _ _ _ _ _)
  have hoff := tryModel_offset (scaled x y err) (scaled_w_sum x y err he).ne' (limits (scaled x y err).xf).1
        (limits (scaled x y err).xf).2 (freeOpts (-1)) (-1) (plan none (-1) (-1) (ndfOf cov)) opt
  rw [show nbrOf f = -1 by omega, hcand, hoff] at h2
  have hf := (Except.ok.inj h2).symm
  have hd : normalDet (scaled x y err) f ≠ 0 := by rw [hf]; exact (scaled_w_sum x y err he).ne'
  rw [if_neg hd, hf] at h4
  refine ⟨_, h4, fun _ => ?_⟩
  show (Mapping.npSqrt (offsetVar (scaled x y err) cov)).map (fun v => v * yScale y) = _
  have hys := yScale_pos y
  have hv := offsetVar_eq x y err he cov
  have hnn : 0 ≤ (∑ j, (1 / err j ^ 2) * ∑ i, cov i j) / (∑ i, 1 / err i ^ 2) ^ 2 :=
    div_nonneg (Finset.sum_nonneg fun j _ => mul_nonneg (by positivity) (Finset.sum_nonneg fun i _ => (hc.1 i j).1)) (sq_nonneg _)
  rw [← hv] at hnn ⊢
  have hpos : 0 ≤ offsetVar (scaled x y err) cov := nonneg_of_mul_nonneg_left hnn (by positivity)
  rw [Mapping.npSqrt, if_neg (not_lt.2 hpos), Option.map_some, Real.sqrt_mul hpos, Real.sqrt_sq hys.le]

end

section

variable {n m : ℕ} (xfit : Fin (m + 1) → ℝ) (x err : Fin (n + 1) → ℝ) (hx : Monotone x) (hx0 : x 0 < x (Fin.last n)) (he : ∀ i, 0 < err i)
  (opt : Externals)

include hx hx0 he

theorem line_error_ref (cov : Matrix (Fin (n + 1)) (Fin (n + 1)) ℝ) (hc : IsPosCorrelation cov) (y : Fin (n + 1) → ℝ) (k : ℤ) (hk : -1 ≤ k) (fit : Fit m)
    (hfit : fitCore xfit x y err cov [.str "max_no_breaks", .int k] opt = .ok fit) (hline : fit.coef.length = 2) (i : Fin (m + 1)) :
    fit.condslopeErr i = lineErr 200 opt.noise (scaled x 0 err) cov (fun i => (xfit i - xCentre x) / xScale x) (![] : Fin 0 → ℝ) 0 i := by
  rcases fit_cases xfit x y err he cov hc k hk opt fit hfit with ⟨a, r, rfl⟩ | ⟨a, r, r', ha, rfl⟩
  · simp [finish] at hline
  · exact lineErr_free 200 opt.noise x y err he cov _ ![] a r' (linear_det x y err hx he hx0) ha i

end

end Verif.Lemmas
