import Verif.Model.Mapping
import Verif.Spec.Mapping
import Verif.Lemmas.Covar

/-!
# Linear algebra of the objective mapping
-/

set_option linter.unusedSectionVars false

namespace Verif.Mapping

open Verif.Np Verif.Stats Verif.Spec Matrix

variable {n : ℕ}

/-- The mean squared error in vector form. -/
noncomputable def mse (s : ℝ) (b : Fin n → ℝ) (C : Matrix (Fin n) (Fin n) ℝ) (l : Fin n → ℝ) : ℝ :=
  s - 2 * (l ⬝ᵥ b) + l ⬝ᵥ (C *ᵥ l)

/-- The optimal weights. -/
noncomputable def best (b : Fin n → ℝ) (C : Matrix (Fin n) (Fin n) ℝ) : Fin n → ℝ :=
  C⁻¹ *ᵥ (b + ((1 - (1 : Fin n → ℝ) ⬝ᵥ (C⁻¹ *ᵥ b)) / ((1 : Fin n → ℝ) ⬝ᵥ (C⁻¹ *ᵥ 1))) • (1 : Fin n → ℝ))

section

variable {C : Matrix (Fin n) (Fin n) ℝ} (hC : C.PosDef)

include hC

theorem mulVec_inv (v : Fin n → ℝ) : C *ᵥ (C⁻¹ *ᵥ v) = v := by
  have : IsUnit C.det := (Matrix.isUnit_iff_isUnit_det C).1 hC.isUnit
  rw [mulVec_mulVec, Matrix.mul_nonsing_inv C this, one_mulVec]

theorem inv_mulVec (v : Fin n → ℝ) : C⁻¹ *ᵥ (C *ᵥ v) = v := by
  have : IsUnit C.det := (Matrix.isUnit_iff_isUnit_det C).1 hC.isUnit
  rw [mulVec_mulVec, Matrix.nonsing_inv_mul C this, one_mulVec]

theorem symm_mulVec (u v : Fin n → ℝ) : u ⬝ᵥ (C *ᵥ v) = v ⬝ᵥ (C *ᵥ u) := by
  have h : Cᵀ = C := (by simpa using hC.isHermitian : C.IsSymm)
  rw [dotProduct_mulVec, ← mulVec_transpose, h, dotProduct_comm]

theorem symm_inv_mulVec (u v : Fin n → ℝ) : u ⬝ᵥ (C⁻¹ *ᵥ v) = v ⬝ᵥ (C⁻¹ *ᵥ u) := symm_mulVec hC.inv u v

theorem total_pos (hn : 0 < n) : 0 < (1 : Fin n → ℝ) ⬝ᵥ (C⁻¹ *ᵥ 1) := by
  have hne : (1 : Fin n → ℝ) ≠ 0 := by
    intro h; have := congrFun h ⟨0, hn⟩; simp at this
  simpa using hC.inv.dotProduct_mulVec_pos hne

theorem best_sum (hn : 0 < n) (b : Fin n → ℝ) : (1 : Fin n → ℝ) ⬝ᵥ best b C = 1 := by
  have ht := (total_pos hC hn).ne'
  unfold best
  rw [mulVec_add, mulVec_smul, dotProduct_add, dotProduct_smul, smul_eq_mul, div_mul_cancel₀ _ ht]
  ring

theorem mulVec_best (b : Fin n → ℝ) : C *ᵥ best b C =
    b + ((1 - (1 : Fin n → ℝ) ⬝ᵥ (C⁻¹ *ᵥ b)) / ((1 : Fin n → ℝ) ⬝ᵥ (C⁻¹ *ᵥ 1))) • (1 : Fin n → ℝ) := mulVec_inv hC _

/-- Completing the square. -/
theorem mse_sub (hn : 0 < n) (s : ℝ) (b l : Fin n → ℝ) (hl : (1 : Fin n → ℝ) ⬝ᵥ l = 1) :
    mse s b C l = mse s b C (best b C) + (l - best b C) ⬝ᵥ (C *ᵥ (l - best b C)) := by
  have h1 := best_sum hC hn b
  have h2 := mulVec_best hC b
  set k := (1 - (1 : Fin n → ℝ) ⬝ᵥ (C⁻¹ *ᵥ b)) / ((1 : Fin n → ℝ) ⬝ᵥ (C⁻¹ *ᵥ 1)) with hk
  set m := best b C with hm
  have e1 : l ⬝ᵥ (C *ᵥ m) = l ⬝ᵥ b + k := by
    rw [h2, dotProduct_add, dotProduct_smul, dotProduct_comm l 1, hl]; simp
  have e2 : m ⬝ᵥ (C *ᵥ m) = m ⬝ᵥ b + k := by
    rw [h2, dotProduct_add, dotProduct_smul, dotProduct_comm m 1, h1]; simp
  have e3 : m ⬝ᵥ (C *ᵥ l) = l ⬝ᵥ b + k := by rw [symm_mulVec hC, e1]
  unfold mse
  rw [mulVec_sub, sub_dotProduct, dotProduct_sub, dotProduct_sub, e1, e2, e3]
  ring

theorem best_min (hn : 0 < n) (s : ℝ) (b l : Fin n → ℝ) (hl : (1 : Fin n → ℝ) ⬝ᵥ l = 1) :
    mse s b C (best b C) ≤ mse s b C l := by
  rw [mse_sub hC hn s b l hl]
  have := hC.posSemidef.dotProduct_mulVec_nonneg (l - best b C)
  simp only [star_trivial] at this
  linarith

theorem best_unique (hn : 0 < n) (s : ℝ) (b l : Fin n → ℝ) (hl : (1 : Fin n → ℝ) ⬝ᵥ l = 1)
    (hmin : mse s b C l ≤ mse s b C (best b C)) : l = best b C := by
  by_contra hne
  have h := hC.dotProduct_mulVec_pos (sub_ne_zero.2 hne)
  simp only [star_trivial] at h
  have := mse_sub hC hn s b l hl
  linarith

theorem mse_best (hn : 0 < n) (s : ℝ) (b : Fin n → ℝ) : mse s b C (best b C) =
    s - b ⬝ᵥ (C⁻¹ *ᵥ b) + (1 - (1 : Fin n → ℝ) ⬝ᵥ (C⁻¹ *ᵥ b)) ^ 2 / ((1 : Fin n → ℝ) ⬝ᵥ (C⁻¹ *ᵥ 1)) := by
  have h1 := best_sum hC hn b
  have ht := (total_pos hC hn).ne'
  have h2 := mulVec_best hC b
  set k := (1 - (1 : Fin n → ℝ) ⬝ᵥ (C⁻¹ *ᵥ b)) / ((1 : Fin n → ℝ) ⬝ᵥ (C⁻¹ *ᵥ 1)) with hk
  have e2 : best b C ⬝ᵥ (C *ᵥ best b C) = best b C ⬝ᵥ b + k := by
    rw [h2, dotProduct_add, dotProduct_smul, dotProduct_comm _ 1, h1]; simp
  have e3 : best b C ⬝ᵥ b = b ⬝ᵥ (C⁻¹ *ᵥ b) + k * ((1 : Fin n → ℝ) ⬝ᵥ (C⁻¹ *ᵥ b)) := by
    unfold best
    rw [← hk, dotProduct_comm, mulVec_add, mulVec_smul, dotProduct_add, dotProduct_smul, symm_inv_mulVec hC b 1, smul_eq_mul]
  unfold mse
  rw [e2, e3]
  have : k * (1 - (1 : Fin n → ℝ) ⬝ᵥ (C⁻¹ *ᵥ b)) =
      (1 - (1 : Fin n → ℝ) ⬝ᵥ (C⁻¹ *ᵥ b)) ^ 2 / ((1 : Fin n → ℝ) ⬝ᵥ (C⁻¹ *ᵥ 1)) := by rw [hk]; ring
  rw [← this]; ring

/-- The value computed by the code is the weighted sum. -/
theorem best_value (hn : 0 < n) (b sal : Fin n → ℝ) :
    b ⬝ᵥ (C⁻¹ *ᵥ fun i => sal i - ((1 : Fin n → ℝ) ⬝ᵥ (C⁻¹ *ᵥ sal)) / ((1 : Fin n → ℝ) ⬝ᵥ (C⁻¹ *ᵥ 1))) +
      ((1 : Fin n → ℝ) ⬝ᵥ (C⁻¹ *ᵥ sal)) / ((1 : Fin n → ℝ) ⬝ᵥ (C⁻¹ *ᵥ 1)) = best b C ⬝ᵥ sal := by
  have ht := (total_pos hC hn).ne'
  set m := ((1 : Fin n → ℝ) ⬝ᵥ (C⁻¹ *ᵥ sal)) / ((1 : Fin n → ℝ) ⬝ᵥ (C⁻¹ *ᵥ 1)) with hm
  have e : (fun i => sal i - m) = sal - m • (1 : Fin n → ℝ) := by ext i; simp
  unfold best
  rw [e, mulVec_sub, mulVec_smul, dotProduct_sub, dotProduct_smul, dotProduct_comm _ sal, symm_inv_mulVec hC sal,
    add_dotProduct, smul_dotProduct, symm_inv_mulVec hC b 1, smul_eq_mul, smul_eq_mul, hm]
  field_simp
  ring

end

theorem obsCov_posDef (S : Scales) (signal noise : ℝ) (hs : 0 ≤ signal) (hn : 0 < noise) (data : Fin n → Pos) :
    (Matrix.of (obsCov S signal noise data)).PosDef := by
  have h := Kernels.posDef_of_add (covarEntry_psd S data) hs hn
  refine (congrArg Matrix.PosDef ?_).mp h
  ext i j
  simp only [Matrix.of_apply, obsCov, covarEntry_eq, correlation]

theorem correlation_eq (S : Scales) (p q : Pos) : covarEntry S p q = correlation S p q := covarEntry_eq S p q

theorem correlation_symm (S : Scales) (p q : Pos) : correlation S p q = correlation S q p := by
  unfold correlation; rw [scaledSq_symm, pvSq_symm]

theorem correlation_self (S : Scales) (p : Pos) : correlation S p p = 1 := by
  unfold correlation; rw [scaledSq_self, pvSq_self]; simp

theorem correlation_pos (S : Scales) (p q : Pos) : 0 < correlation S p q := Real.exp_pos _

theorem correlation_le_one (S : Scales) (p q : Pos) : correlation S p q ≤ 1 := by
  unfold correlation
  apply Real.exp_le_one_iff.2
  have := scaledSq_nonneg S.long S.lat S.age p q
  have := pvSq_nonneg S.phi (vorticity p.c0 p.c3) (vorticity q.c0 q.c3)
  split_ifs <;> linarith

/-- Covariances of the observations with the field at `g`. -/
noncomputable def gridCov (S : Scales) (signal : ℝ) (data : Fin n → Pos) (g : Pos) : Fin n → ℝ :=
  fun j => signal * correlation S (data j) g

theorem meanSquaredError_eq (S : Scales) (signal noise : ℝ) (data : Fin n → Pos) (g : Pos) (l : Fin n → ℝ) :
    meanSquaredError S signal noise data g l =
      mse signal (gridCov S signal data g) (Matrix.of (obsCov S signal noise data)) l := by
  unfold meanSquaredError mse
  congr 1
  · simp only [dotProduct, mulVec, Finset.mul_sum, Matrix.of_apply]
    refine Finset.sum_congr rfl fun i _ => Finset.sum_congr rfl fun j _ => by ring

/-- The error variance of any weights is not negative: the covariance of the field at `g` and the observations is positive semi-definite. -/
theorem meanSquaredError_nonneg (S : Scales) (signal noise : ℝ) (hs : 0 ≤ signal) (hn : 0 ≤ noise) (data : Fin n → Pos) (g : Pos)
    (l : Fin n → ℝ) : 0 ≤ meanSquaredError S signal noise data g l := by
  have h := ((Kernels.posSemidef_iff _).1 (covarEntry_psd S (Fin.cons g data : Fin (n + 1) → Pos))).2
    (Fin.cons (-1) l : Fin (n + 1) → ℝ)
  simp only [Fin.sum_univ_succ, Fin.cons_zero, Fin.cons_succ, Matrix.of_apply, correlation_eq, correlation_self] at h
  have h2 : 0 ≤ ∑ i, noise * l i ^ 2 := Finset.sum_nonneg fun i _ => by positivity
  have e : meanSquaredError S signal noise data g l =
      signal * (-1 * 1 * -1 + ∑ j, -1 * correlation S g (data j) * l j +
        ∑ i, (l i * correlation S (data i) g * -1 + ∑ j, l i * correlation S (data i) (data j) * l j)) +
      ∑ i, noise * l i ^ 2 := by
    unfold meanSquaredError obsCov
    have e1 : ∀ i, ∑ j, l i * (signal * correlation S (data i) (data j) + if i = j then noise else 0) * l j =
        signal * ∑ j, l i * correlation S (data i) (data j) * l j + noise * l i ^ 2 := by
      intro i
      rw [Finset.mul_sum, show noise * l i ^ 2 = ∑ j, if i = j then noise * l i * l j else 0 by
        rw [Finset.sum_ite_eq]; simp; ring, ← Finset.sum_add_distrib]
      refine Finset.sum_congr rfl fun j _ => ?_
      split_ifs <;> ring
    simp only [e1, Finset.sum_add_distrib, ← Finset.mul_sum]
    have e2 : ∑ j, -1 * correlation S g (data j) * l j = - ∑ j, l j * correlation S (data j) g := by
      rw [← Finset.sum_neg_distrib]
      exact Finset.sum_congr rfl fun j _ => by rw [correlation_symm S g]; ring
    have e3 : ∑ j, l j * correlation S (data j) g * -1 = - ∑ j, l j * correlation S (data j) g := by
      rw [← Finset.sum_neg_distrib]
      exact Finset.sum_congr rfl fun j _ => by ring
    have e4 : ∑ j, l j * (signal * correlation S (data j) g) = signal * ∑ j, l j * correlation S (data j) g := by
      rw [Finset.mul_sum]; exact Finset.sum_congr rfl fun j _ => by ring
    rw [e2, e3, e4]; ring
  rw [e]
  have := mul_nonneg hs h
  linarith

/-! ## The computed quantities -/

theorem inv_total (C : Matrix (Fin n) (Fin n) ℝ) : ∑ j, ∑ i, C i j = (1 : Fin n → ℝ) ⬝ᵥ (C *ᵥ 1) := by
  rw [Finset.sum_comm]; simp [dotProduct, mulVec]

theorem inv_num (C : Matrix (Fin n) (Fin n) ℝ) (v : Fin n → ℝ) : ∑ i, (C *ᵥ v) i = (1 : Fin n → ℝ) ⬝ᵥ (C *ᵥ v) := by
  simp [dotProduct]

/-- All the arguments of a call that succeeds, for a positive definite covariance of the observations. -/
theorem mapDataGrid_of_posDef (S : Scales) (signal noise : ℝ) (hn : 0 < n) (sal : Fin n → ℝ) (g : Pos) (data : Fin n → Pos)
    (hC : (Matrix.of (obsCov S signal noise data)).PosDef)
    (hpv : S.pvUse = 1 → g.c3 ≠ 0 ∧ ∀ i, (data i).c3 ≠ 0) :
    mapDataGrid sal g data S signal noise = .ok
      { gridSal := some (best (gridCov S signal data g) (Matrix.of (obsCov S signal noise data)) ⬝ᵥ sal)
        gridErr := npSqrt (mse signal (gridCov S signal data g) (Matrix.of (obsCov S signal noise data))
          (best (gridCov S signal data g) (Matrix.of (obsCov S signal noise data))))
        dataSal := fun i => some (best (gridCov S signal data (data i)) (Matrix.of (obsCov S signal noise data)) ⬝ᵥ sal)
        dataErr := fun i => npSqrt (mse signal (gridCov S signal data (data i)) (Matrix.of (obsCov S signal noise data))
          (best (gridCov S signal data (data i)) (Matrix.of (obsCov S signal noise data)))) } := by
  set C := Matrix.of (obsCov S signal noise data) with hCdef
  have hdet : C.det ≠ 0 := ((Matrix.isUnit_iff_isUnit_det C).1 hC.isUnit).ne_zero
  have h1 : covarXytPv data data S = .ok (Matrix.of fun i j => covarEntry S (data i) (data j)) := by
    unfold covarXytPv
    rw [if_neg (by omega), if_neg (by rintro ⟨hp, i, hi⟩; exact (hpv hp).2 i hi), if_neg (by omega),
      if_neg (by rintro ⟨hp, i, hi⟩; exact (hpv hp).2 i hi)]
  have h2 : covarXytPv data (fun _ : Fin 1 => g) S = .ok (Matrix.of fun i _ => covarEntry S (data i) g) := by
    unfold covarXytPv
    rw [if_neg (by omega), if_neg (by rintro ⟨hp, i, hi⟩; exact (hpv hp).2 i hi), if_neg (by omega),
      if_neg (by rintro ⟨hp, i, hi⟩; exact (hpv hp).1 hi)]
  have hA : signal • (Matrix.of fun i j => covarEntry S (data i) (data j)) + noise • (1 : Matrix (Fin n) (Fin n) ℝ) = C := by
    ext i j
    simp [hCdef, obsCov, correlation_eq, Matrix.one_apply]
  have ht := (total_pos hC hn).ne'
  have hrow : ∀ i (v : Fin n → ℝ), ((signal • (Matrix.of fun i j => covarEntry S (data i) (data j))) *ᵥ v) i =
      gridCov S signal data (data i) ⬝ᵥ v := by
    intro i v
    simp only [mulVec, dotProduct, gridCov, Matrix.smul_apply, Matrix.of_apply, smul_eq_mul, correlation_eq]
    exact Finset.sum_congr rfl fun j _ => by rw [correlation_symm S (data i)]
  have hrow2 : ∀ i, (signal • (Matrix.of fun i j => covarEntry S (data i) (data j))) i = gridCov S signal data (data i) := by
    intro i; ext j
    simp only [gridCov, Matrix.smul_apply, Matrix.of_apply, smul_eq_mul, correlation_eq]
    rw [correlation_symm S (data i)]
  have hg2 : (signal • (Matrix.of fun i (_ : Fin 1) => covarEntry S (data i) g))ᵀ 0 = gridCov S signal data g := by
    ext j
    simp [gridCov, correlation_eq]
  have hgen : ∀ {m : ℕ} (P : Matrix (Fin m) (Fin n) ℝ) (i : Fin m) (b : Fin n → ℝ), P i = b →
      (P * C⁻¹ * Pᵀ) i i = b ⬝ᵥ (C⁻¹ *ᵥ b) ∧ ∑ j, (P * C⁻¹) i j = (1 : Fin n → ℝ) ⬝ᵥ (C⁻¹ *ᵥ b) := by
    intro m P i b hb
    constructor
    · rw [Matrix.mul_assoc, Matrix.mul_apply]
      simp only [dotProduct, mulVec, Matrix.mul_apply, Matrix.transpose_apply, hb]
    · rw [symm_inv_mulVec hC 1 b]
      simp only [Matrix.mul_apply, hb, dotProduct, mulVec, Pi.one_apply, mul_one]
      rw [Finset.sum_comm]
      exact Finset.sum_congr rfl fun j _ => by rw [Finset.mul_sum]
  unfold mapDataGrid
  rw [h1]
  simp only [bind, Except.bind, hA, h2]
  rw [if_neg hdet, if_neg (by omega)]
  simp only [pure, Except.pure, inv_total, inv_num, npDiv, if_neg ht, Option.map_some, Option.bind_some]
  congr 2
  · have e : ∀ v, ((signal • (Matrix.of fun i (_ : Fin 1) => covarEntry S (data i) g))ᵀ *ᵥ v) 0 = gridCov S signal data g ⬝ᵥ v := by
      intro v; simp only [mulVec, hg2]
    rw [e, best_value hC hn]
  · obtain ⟨e1, e2⟩ := hgen (signal • (Matrix.of fun i (_ : Fin 1) => covarEntry S (data i) g))ᵀ 0 _ hg2
    rw [e1, e2]
    simp only [mapError, npDiv, if_neg ht, Option.bind_some]
    rw [mse_best hC hn]
  · funext i
    rw [hrow, best_value hC hn]
  · funext i
    obtain ⟨e1, e2⟩ := hgen (signal • (Matrix.of fun i j => covarEntry S (data i) (data j))) i _ (hrow2 i)
    rw [e1, e2]
    simp only [mapError, npDiv, if_neg ht, Option.bind_some]
    rw [mse_best hC hn]

end Verif.Mapping
