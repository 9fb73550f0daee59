import Verif.Props.Mapping
import Verif.Props.MappingMore
import Mathlib.Algebra.Order.Chebyshev

/-!
# The residuals of the best linear unbiased estimate at the casts
-/

set_option linter.unusedSectionVars false

namespace Verif.Lemmas.Residual

open Verif.Np Verif.Stats Verif.Spec Verif.Mapping Matrix Verif.Props

variable {n : ℕ}

/-- The covariance of the observations is that of the field plus the noise. -/
theorem obsCov_row (S : Scales) (signal noise : ℝ) (data : Fin n → Pos) (i : Fin n) (x : Fin n → ℝ) :
    gridCov S signal data (data i) ⬝ᵥ x = (Matrix.of (obsCov S signal noise data) *ᵥ x) i - noise * x i := by
  simp only [dotProduct, mulVec, Matrix.of_apply, gridCov, obsCov, add_mul, Finset.sum_add_distrib, ite_mul, zero_mul, Finset.sum_ite_eq,
    Finset.mem_univ, if_true]
  have : ∑ j, signal * correlation S (data j) (data i) * x j = ∑ j, signal * correlation S (data i) (data j) * x j :=
    Finset.sum_congr rfl fun j _ => by rw [correlation_symm]
  rw [this]
  ring

theorem obsCov_ge (S : Scales) (signal noise : ℝ) (hs : 0 ≤ signal) (data : Fin n → Pos) (x : Fin n → ℝ) :
    noise * ∑ i, x i ^ 2 ≤ x ⬝ᵥ (Matrix.of (obsCov S signal noise data) *ᵥ x) := by
  have h := ((Kernels.posSemidef_iff _).1 (covarEntry_psd S data)).2 x
  simp only [Matrix.of_apply, correlation_eq] at h
  have e : x ⬝ᵥ (Matrix.of (obsCov S signal noise data) *ᵥ x) =
      signal * (∑ i, ∑ j, x i * correlation S (data i) (data j) * x j) + noise * ∑ i, x i ^ 2 := by
    simp only [dotProduct, mulVec, Matrix.of_apply, obsCov, add_mul, Finset.sum_add_distrib, ite_mul, zero_mul, Finset.sum_ite_eq,
      Finset.mem_univ, if_true, Finset.mul_sum, mul_add]
    congr 1
    · refine Finset.sum_congr rfl fun i _ => Finset.sum_congr rfl fun j _ => by ring
    · refine Finset.sum_congr rfl fun i _ => by ring
  rw [e]
  have := mul_nonneg hs h
  linarith

/-- The residuals sum to zero, and their squares do not exceed the squared deviations of the salinities from any number. -/
theorem residuals (S : Scales) (signal noise : ℝ) (hs : 0 ≤ signal) (hnoise : 0 < noise) (hn : 0 < n) (data : Fin n → Pos) (sal : Fin n → ℝ)
    (W : Fin n → Fin n → ℝ) (hW : ∀ i, IsBestWeights S signal noise data (data i) (W i)) (res : Fin n → ℝ)
    (hres : ∀ i, res i = sal i - ∑ j, W i j * sal j) : ∑ i, res i = 0 ∧ ∀ a : ℝ, ∑ i, res i ^ 2 ≤ ∑ i, (sal i - a) ^ 2 := by
  have hC := obsCov_posDef S signal noise hs hnoise data
  obtain ⟨C, hCe⟩ : ∃ C, C = Matrix.of (obsCov S signal noise data) := ⟨_, rfl⟩
  obtain ⟨m, hm⟩ : ∃ m, m = ((1 : Fin n → ℝ) ⬝ᵥ (C⁻¹ *ᵥ sal)) / ((1 : Fin n → ℝ) ⬝ᵥ (C⁻¹ *ᵥ 1)) := ⟨_, rfl⟩
  obtain ⟨x, hx⟩ : ∃ x, x = C⁻¹ *ᵥ fun i => sal i - m := ⟨_, rfl⟩
  have hCx : C *ᵥ x = fun i => sal i - m := by
    rw [hx, hCe]
    exact mulVec_inv hC _
  have hr : ∀ i, res i = noise * x i := by
    intro i
    have h1 := best_value hC hn (gridCov S signal data (data i)) sal
    rw [← hCe, ← hm, ← hx, hCe, obsCov_row S signal noise, ← hCe, hCx] at h1
    have h2 := isBestWeights_unique S signal noise hn data (data i) hC (W i) (hW i)
    rw [hres i, h2, ← hCe]
    simp only [dotProduct] at h1
    linarith
  have h0 : ∑ i, x i = 0 := by
    have e : (fun i => sal i - m) = sal - m • (1 : Fin n → ℝ) := by ext i; simp
    have ht := (total_pos hC hn).ne'
    rw [← hCe] at ht
    have : (1 : Fin n → ℝ) ⬝ᵥ x = 0 := by
      rw [hx, e, mulVec_sub, mulVec_smul, dotProduct_sub, dotProduct_smul, smul_eq_mul, hm]
      field_simp
      ring
    simpa [dotProduct] using this
  have hsum : ∑ i, res i = 0 := by
    simp only [hr, ← Finset.mul_sum, h0, mul_zero]
  refine ⟨hsum, fun a => ?_⟩
  have h3 := obsCov_ge S signal noise hs data x
  rw [← hCe, hCx] at h3
  -- `r·r ≤ r·(sal - a)`
  have h4 : ∑ i, res i ^ 2 ≤ ∑ i, res i * (sal i - a) := by
    have e1 : ∑ i, res i ^ 2 = noise * (noise * ∑ i, x i ^ 2) := by
      simp only [hr, Finset.mul_sum]
      exact Finset.sum_congr rfl fun i _ => by ring
    have e2 : ∑ i, res i * (sal i - a) = noise * (x ⬝ᵥ fun i => sal i - m) := by
      have : ∑ i, res i * (sal i - a) = ∑ i, res i * (sal i - m) + (m - a) * ∑ i, res i := by
        rw [Finset.mul_sum, ← Finset.sum_add_distrib]
        exact Finset.sum_congr rfl fun i _ => by ring
      rw [this, hsum, mul_zero, add_zero]
      simp only [hr, dotProduct, Finset.mul_sum]
      exact Finset.sum_congr rfl fun i _ => by ring
    rw [e1, e2]
    exact mul_le_mul_of_nonneg_left h3 hnoise.le
  have h5 : 0 ≤ ∑ i, (res i - (sal i - a)) ^ 2 := Finset.sum_nonneg fun i _ => sq_nonneg _
  have h6 : ∑ i, (res i - (sal i - a)) ^ 2 = ∑ i, res i ^ 2 - 2 * ∑ i, res i * (sal i - a) + ∑ i, (sal i - a) ^ 2 := by
    rw [Finset.mul_sum, ← Finset.sum_sub_distrib, ← Finset.sum_add_distrib]
    exact Finset.sum_congr rfl fun i _ => by ring
  linarith

/-- The mean squared error of the best weights is at least the noise divided by the number of casts, and at most twice the variance plus the noise. -/
theorem best_bounds (S : Scales) (signal noise : ℝ) (hs : 0 ≤ signal) (hnoise : 0 < noise) (hn : 0 < n) (data : Fin n → Pos) (g : Pos) (l : Fin n → ℝ)
    (hl : IsBestWeights S signal noise data g l) :
    noise ≤ n * meanSquaredError S signal noise data g l ∧ meanSquaredError S signal noise data g l ≤ 2 * signal + noise := by
  constructor
  · rw [meanSquaredError_split]
    have h1 := mul_nonneg hs (meanSquaredError_nonneg S 1 0 zero_le_one le_rfl data g l)
    have h2 : (∑ j, l j) ^ 2 ≤ (Finset.univ : Finset (Fin n)).card * ∑ j, l j ^ 2 := sq_sum_le_card_mul_sum_sq
    rw [hl.1, Finset.card_univ, Fintype.card_fin] at h2
    have h3 : (0 : ℝ) ≤ n := Nat.cast_nonneg n
    have h4 := mul_nonneg h3 h1
    have h5 := mul_le_mul_of_nonneg_left h2 hnoise.le
    linarith
  · have hm := hl.2 (Pi.single ⟨0, hn⟩ 1) (by simp)
    have e1 : meanSquaredError S signal noise data g (Pi.single ⟨0, hn⟩ 1) =
        signal + (signal + noise) - 2 * signal * correlation S (data ⟨0, hn⟩) g := by
      unfold meanSquaredError obsCov
      simp only [Pi.single_apply, ite_mul, one_mul, zero_mul, mul_ite, mul_one, mul_zero, Finset.sum_ite_eq', Finset.mem_univ, if_true,
        correlation_self]
      ring
    rw [e1] at hm
    have := mul_nonneg hs (correlation_pos S (data ⟨0, hn⟩) g).le
    linarith

end Verif.Lemmas.Residual
