import Verif.Lemmas.Mapping

/-!
# Properties of `map_data_grid`
-/

set_option linter.unusedSectionVars false

namespace Verif.Props

open Verif.Np Verif.Spec Verif.Stats Verif.Mapping Matrix

variable {n : ℕ}

theorem isBestWeights_best (S : Scales) (signal noise : ℝ) (hn : 0 < n) (data : Fin n → Pos) (g : Pos)
    (hC : (Matrix.of (obsCov S signal noise data)).PosDef) :
    IsBestWeights S signal noise data g (best (gridCov S signal data g) (Matrix.of (obsCov S signal noise data))) := by
  constructor
  · have := best_sum hC hn (gridCov S signal data g)
    simpa [dotProduct] using this
  · intro l' hl'
    rw [meanSquaredError_eq, meanSquaredError_eq]
    exact best_min hC hn signal _ l' (by simpa [dotProduct] using hl')

theorem isBestWeights_unique (S : Scales) (signal noise : ℝ) (hn : 0 < n) (data : Fin n → Pos) (g : Pos)
    (hC : (Matrix.of (obsCov S signal noise data)).PosDef) (l : Fin n → ℝ) (h : IsBestWeights S signal noise data g l) :
    l = best (gridCov S signal data g) (Matrix.of (obsCov S signal noise data)) := by
  refine best_unique hC hn signal _ l (by simpa [dotProduct] using h.1) ?_
  have h1 := isBestWeights_best S signal noise hn data g hC
  have := h.2 _ h1.1
  rwa [meanSquaredError_eq, meanSquaredError_eq] at this

theorem npSqrt_of_nonneg (a : ℝ) (h : 0 ≤ a) : npSqrt a = some (Real.sqrt a) := by
  unfold npSqrt; rw [if_neg (not_lt.2 h)]

/-- C34, C65. With positive noise and non-negative signal variance and at least one cast the call succeeds, and its results are the best linear
unbiased estimates of the field at the float and at the casts, with the root mean squared errors of these estimates. Weights and errors
do not depend on the salinities. -/
theorem map_is_best_estimate (S : Scales) (hS : ProperScales S) (signal noise : ℝ) (hs : 0 ≤ signal) (hnoise : 0 < noise) (hn : 0 < n)
    (g : Pos) (data : Fin n → Pos) (hpv : S.pvUse = 1 → g.c3 ≠ 0 ∧ ∀ i, (data i).c3 ≠ 0) :
    ∃ (lg : Fin n → ℝ) (ld : Fin n → Fin n → ℝ) (eg : ℝ) (ed : Fin n → ℝ),
      IsBestWeights S signal noise data g lg ∧ 0 ≤ eg ∧ eg ^ 2 = meanSquaredError S signal noise data g lg ∧
      (∀ i, IsBestWeights S signal noise data (data i) (ld i) ∧ 0 ≤ ed i ∧
        ed i ^ 2 = meanSquaredError S signal noise data (data i) (ld i)) ∧
      ∀ sal : Fin n → ℝ, mapDataGrid sal g data S signal noise = .ok
        ⟨some (∑ j, lg j * sal j), some eg, fun i => some (∑ j, ld i j * sal j), fun i => some (ed i)⟩ := by
  have _ := hS
  have hC := obsCov_posDef S signal noise hs hnoise data
  have hnn := fun g' => meanSquaredError_nonneg S signal noise hs hnoise.le data g'
    (best (gridCov S signal data g') (Matrix.of (obsCov S signal noise data)))
  refine ⟨_, fun i => best (gridCov S signal data (data i)) (Matrix.of (obsCov S signal noise data)),
    Real.sqrt (meanSquaredError S signal noise data g _), fun i => Real.sqrt (meanSquaredError S signal noise data (data i) _),
    isBestWeights_best S signal noise hn data g hC, Real.sqrt_nonneg _, Real.sq_sqrt (hnn g), fun i =>
    ⟨isBestWeights_best S signal noise hn data (data i) hC, Real.sqrt_nonneg _, Real.sq_sqrt (hnn (data i))⟩, ?_⟩
  intro sal
  rw [mapDataGrid_of_posDef S signal noise hn sal g data hC hpv]
  rw [← meanSquaredError_eq, npSqrt_of_nonneg _ (hnn g)]
  congr 2
  funext i
  rw [← meanSquaredError_eq, npSqrt_of_nonneg _ (hnn (data i))]

/-- The hypotheses are met by two casts and a float, with potential vorticity. -/
example : ∃ (S : Scales) (g : Pos) (data : Fin 2 → Pos), ProperScales S ∧ S.pvUse = 1 ∧ g.c3 ≠ 0 ∧ ∀ i, (data i).c3 ≠ 0 :=
  ⟨⟨4, 8, 20, 0.5, 1⟩, ⟨10, 20, 2010, 4000⟩, fun i => ⟨11 + i, 21, 2005, 3000⟩,
    ⟨by norm_num, by norm_num, fun _ => by norm_num⟩, rfl, by norm_num, fun _ => by norm_num⟩

/-- C34, bounds. The error at the float is at most that of using any single cast: with `rho` its correlation with the float,
`e^2 <= signal + (signal + noise) - 2 * signal * rho`. So `e^2 <= 2 * signal + noise`. -/
theorem map_error_bounds (S : Scales) (hS : ProperScales S) (signal noise : ℝ) (hs : 0 ≤ signal) (hnoise : 0 < noise)
    (sal : Fin n → ℝ) (g : Pos) (data : Fin n → Pos) (hpv : S.pvUse = 1 → g.c3 ≠ 0 ∧ ∀ i, (data i).c3 ≠ 0)
    (r : Mapped n) (h : mapDataGrid sal g data S signal noise = .ok r) (j : Fin n) :
    ∃ e, r.gridErr = some e ∧ 0 ≤ e ∧ e ^ 2 ≤ signal + (signal + noise) - 2 * signal * correlation S (data j) g ∧
      e ^ 2 ≤ 2 * signal + noise := by
  have hn : 0 < n := Fin.pos j
  obtain ⟨lg, ld, eg, ed, h1, h2, h3, -, h5⟩ := map_is_best_estimate S hS signal noise hs hnoise hn g data hpv
  rw [h5 sal] at h
  have h' := Except.ok.inj h
  subst h'
  have hm := h1.2 (Pi.single j 1) (by simp)
  have e1 : meanSquaredError S signal noise data g (Pi.single j 1) =
      signal + (signal + noise) - 2 * signal * correlation S (data j) g := by
    unfold meanSquaredError obsCov
    simp only [Pi.single_apply, ite_mul, one_mul, zero_mul, mul_ite, mul_one, mul_zero, Finset.sum_ite_eq', Finset.mem_univ, if_true,
      correlation_self]
    ring
  rw [e1] at hm
  refine ⟨eg, rfl, h2, by rw [h3]; exact hm, ?_⟩
  rw [h3]
  have := mul_nonneg hs (correlation_pos S (data j) g).le
  linarith

/-- C34, bound by the mapping variance: `e^2` is the variance `signal - b C⁻¹ b ≤ signal` of the mapping plus the non-negative error of the
estimated mean. -/
theorem map_error_ge_simple (S : Scales) (signal noise : ℝ) (hs : 0 ≤ signal) (hnoise : 0 < noise) (hn : 0 < n)
    (g : Pos) (data : Fin n → Pos) (l : Fin n → ℝ) (hl : IsBestWeights S signal noise data g l) (x : Fin n → ℝ)
    (hx : ∀ i, ∑ j, obsCov S signal noise data i j * x j = signal * correlation S (data i) g) :
    signal - ∑ j, x j * (signal * correlation S (data j) g) ≤ meanSquaredError S signal noise data g l := by
  have hC := obsCov_posDef S signal noise hs hnoise data
  rw [isBestWeights_unique S signal noise hn data g hC l hl, meanSquaredError_eq, mse_best hC hn]
  have hx' : (Matrix.of (obsCov S signal noise data)) *ᵥ x = gridCov S signal data g := by
    ext i; simpa [mulVec, dotProduct, gridCov] using hx i
  have e : (Matrix.of (obsCov S signal noise data))⁻¹ *ᵥ gridCov S signal data g = x := by rw [← hx', inv_mulVec hC]
  rw [e]
  have ht := total_pos hC hn
  have e2 : gridCov S signal data g ⬝ᵥ x = ∑ j, x j * (signal * correlation S (data j) g) := by
    simp only [dotProduct, gridCov]; exact Finset.sum_congr rfl fun j _ => by ring
  rw [e2]
  have : 0 ≤ (1 - (1 : Fin n → ℝ) ⬝ᵥ x) ^ 2 / ((1 : Fin n → ℝ) ⬝ᵥ ((Matrix.of (obsCov S signal noise data))⁻¹ *ᵥ 1)) := by positivity
  linarith

/-- C34. No data: the call fails. -/
theorem map_no_data (S : Scales) (signal noise : ℝ) (sal : Fin 0 → ℝ) (g : Pos) (data : Fin 0 → Pos) :
    ∃ e, mapDataGrid sal g data S signal noise = .error e := by
  unfold mapDataGrid covarXytPv
  by_cases h : S.pvUse = 1
  · simp [h, bind, Except.bind]
  · simp [h, bind, Except.bind]

/-! ## C35 -/

section

variable (S : Scales) (hS : ProperScales S) (signal noise : ℝ) (hs : 0 ≤ signal) (hnoise : 0 < noise) (hn : 0 < n)
  (g : Pos) (data : Fin n → Pos) (hpv : S.pvUse = 1 → g.c3 ≠ 0 ∧ ∀ i, (data i).c3 ≠ 0)

include hS hs hnoise hn hpv

/-- C35. Constant salinities are reproduced at the float and at all casts. -/
theorem map_constant (c : ℝ) : ∃ r, mapDataGrid (fun _ : Fin n => c) g data S signal noise = .ok r ∧ r.gridSal = some c ∧
    ∀ i, r.dataSal i = some c := by
  obtain ⟨lg, ld, eg, ed, h1, h2, h3, h4, h5⟩ := map_is_best_estimate S hS signal noise hs hnoise hn g data hpv
  refine ⟨_, h5 _, ?_, ?_⟩
  · simp only
    rw [← Finset.sum_mul, h1.1, one_mul]
  · intro i
    simp only
    rw [← Finset.sum_mul, (h4 i).1.1, one_mul]

/-- C35. Scaling and shifting the salinities scales and shifts the results, and leaves the errors as they are. -/
theorem map_affine (a c : ℝ) (sal : Fin n → ℝ) : ∃ r r', mapDataGrid sal g data S signal noise = .ok r ∧
    mapDataGrid (fun i => a * sal i + c) g data S signal noise = .ok r' ∧
    r'.gridSal = r.gridSal.map (fun v => a * v + c) ∧ (∀ i, r'.dataSal i = (r.dataSal i).map fun v => a * v + c) ∧
    r'.gridErr = r.gridErr ∧ r'.dataErr = r.dataErr := by
  obtain ⟨lg, ld, eg, ed, h1, h2, h3, h4, h5⟩ := map_is_best_estimate S hS signal noise hs hnoise hn g data hpv
  have key : ∀ l : Fin n → ℝ, ∑ j, l j = 1 → ∑ j, l j * (a * sal j + c) = a * (∑ j, l j * sal j) + c := by
    intro l hl
    rw [Finset.mul_sum]
    calc _ = ∑ j, (a * (l j * sal j) + l j * c) := Finset.sum_congr rfl fun j _ => by ring
      _ = _ := by rw [Finset.sum_add_distrib, ← Finset.sum_mul, hl, one_mul]
  refine ⟨_, _, h5 _, h5 _, ?_, ?_, rfl, rfl⟩
  · simp only [Option.map_some]
    rw [key lg h1.1]
  · intro i
    simp only [Option.map_some]
    rw [key (ld i) (h4 i).1.1]

/-- C35. The map is additive in the salinities. -/
theorem map_additive (s1 s2 : Fin n → ℝ) : ∃ r1 r2 r v1 v2, mapDataGrid s1 g data S signal noise = .ok r1 ∧
    mapDataGrid s2 g data S signal noise = .ok r2 ∧ mapDataGrid (fun i => s1 i + s2 i) g data S signal noise = .ok r ∧
    r1.gridSal = some v1 ∧ r2.gridSal = some v2 ∧ r.gridSal = some (v1 + v2) := by
  obtain ⟨lg, ld, eg, ed, h1, h2, h3, h4, h5⟩ := map_is_best_estimate S hS signal noise hs hnoise hn g data hpv
  refine ⟨_, _, _, _, _, h5 _, h5 _, h5 _, rfl, rfl, ?_⟩
  simp only [mul_add, Finset.sum_add_distrib]

/-! ## C36 -/

/-- C36. The order of the casts does not matter. -/
theorem map_permutation (σ : Equiv.Perm (Fin n)) (sal : Fin n → ℝ) :
    ∃ r r', mapDataGrid sal g data S signal noise = .ok r ∧
      mapDataGrid (fun i => sal (σ i)) g (fun i => data (σ i)) S signal noise = .ok r' ∧
      r'.gridSal = r.gridSal ∧ r'.gridErr = r.gridErr ∧
      (∀ i, r'.dataSal i = r.dataSal (σ i)) ∧ ∀ i, r'.dataErr i = r.dataErr (σ i) := by
  obtain ⟨lg, ld, eg, ed, h1, h2, h3, h4, h5⟩ := map_is_best_estimate S hS signal noise hs hnoise hn g data hpv
  obtain ⟨lg', ld', eg', ed', h1', h2', h3', h4', h5'⟩ := map_is_best_estimate S hS signal noise hs hnoise hn g
    (fun i => data (σ i)) (fun hp => ⟨(hpv hp).1, fun i => (hpv hp).2 (σ i)⟩)
  have hmse : ∀ (q : Pos) (l : Fin n → ℝ), meanSquaredError S signal noise (fun i => data (σ i)) q (fun i => l (σ i)) =
      meanSquaredError S signal noise data q l := by
    intro q l
    unfold meanSquaredError
    have e1 : ∑ j, l (σ j) * (signal * correlation S (data (σ j)) q) = ∑ j, l j * (signal * correlation S (data j) q) :=
      Equiv.sum_comp σ fun j => l j * (signal * correlation S (data j) q)
    have e2 : ∑ i, ∑ j, l (σ i) * obsCov S signal noise (fun i => data (σ i)) i j * l (σ j) =
        ∑ i, ∑ j, l i * obsCov S signal noise data i j * l j := by
      rw [← Equiv.sum_comp σ fun i => ∑ j, l i * obsCov S signal noise data i j * l j]
      refine Finset.sum_congr rfl fun i _ => ?_
      rw [← Equiv.sum_comp σ fun j => l (σ i) * obsCov S signal noise data (σ i) j * l j]
      refine Finset.sum_congr rfl fun j _ => ?_
      simp only [obsCov, EmbeddingLike.apply_eq_iff_eq]
    rw [e1, e2]
  have hsum : ∀ l : Fin n → ℝ, ∑ j, l (σ j) = ∑ j, l j := fun l => Equiv.sum_comp σ l
  have hbest : ∀ (q : Pos) (l : Fin n → ℝ), IsBestWeights S signal noise data q l →
      IsBestWeights S signal noise (fun i => data (σ i)) q (fun i => l (σ i)) := by
    intro q l hl
    refine ⟨by rw [hsum]; exact hl.1, fun l' hl' => ?_⟩
    have e : l' = fun i => (fun k => l' (σ.symm k)) (σ i) := by funext i; simp
    rw [hmse, e]
    refine le_of_le_of_eq ?_ (hmse q fun k => l' (σ.symm k)).symm
    apply hl.2
    rw [← hsum]; simpa using hl'
  have hC := obsCov_posDef S signal noise hs hnoise fun i => data (σ i)
  have huniq : ∀ (q : Pos) (l l' : Fin n → ℝ), IsBestWeights S signal noise (fun i => data (σ i)) q l →
      IsBestWeights S signal noise (fun i => data (σ i)) q l' → l = l' := by
    intro q l l' hl hl'
    rw [isBestWeights_unique S signal noise hn _ q hC l hl, isBestWeights_unique S signal noise hn _ q hC l' hl']
  have hval : ∀ l : Fin n → ℝ, ∑ j, l (σ j) * sal (σ j) = ∑ j, l j * sal j := fun l => Equiv.sum_comp σ fun j => l j * sal j
  have hg := huniq g _ _ h1' (hbest g lg h1)
  have hd : ∀ i, ld' i = fun k => ld (σ i) (σ k) := fun i => huniq (data (σ i)) _ _ (h4' i).1 (hbest _ _ (h4 (σ i)).1)
  have heq : ∀ a b : ℝ, 0 ≤ a → 0 ≤ b → a ^ 2 = b ^ 2 → a = b := fun a b ha hb h => by
    rwa [sq_eq_sq₀ ha hb] at h
  refine ⟨_, _, h5 _, h5' _, ?_, ?_, ?_, ?_⟩
  · simp only [hg, hval]
  · simp only [Option.some.injEq]
    exact heq _ _ h2' h2 (by rw [h3, h3', hg, hmse])
  · intro i
    simp only [hd i, hval]
  · intro i
    simp only [Option.some.injEq]
    refine heq _ _ (h4' i).2.1 (h4 (σ i)).2.1 ?_
    rw [(h4' i).2.2, (h4 (σ i)).2.2, hd i]
    exact hmse (data (σ i)) (ld (σ i))

end

/-! ## C37 -/

/-- C37. Without noise, and with an invertible correlation matrix, the data are reproduced with error 0, and a float at the position, date and
depth of a cast gets the salinity of that cast with error 0. -/
theorem map_interpolates (S : Scales) (hS : ProperScales S) (signal : ℝ) (hs : 0 < signal) (sal : Fin n → ℝ) (g : Pos)
    (data : Fin n → Pos) (hpv : S.pvUse = 1 → g.c3 ≠ 0 ∧ ∀ i, (data i).c3 ≠ 0)
    (hdet : (Matrix.of fun i j => correlation S (data i) (data j)).det ≠ 0) (hn : 0 < n) :
    ∃ r, mapDataGrid sal g data S signal 0 = .ok r ∧ (∀ i, r.dataSal i = some (sal i) ∧ r.dataErr i = some 0) ∧
      ∀ i, g = data i → r.gridSal = some (sal i) ∧ r.gridErr = some 0 := by
  have _ := hS
  have hpsd : (Matrix.of fun i j => correlation S (data i) (data j)).PosSemidef := by
    have := covarEntry_psd S data
    simpa only [correlation_eq] using this
  have hpd : (Matrix.of fun i j => correlation S (data i) (data j)).PosDef :=
    hpsd.posDef_iff_isUnit.2 ((Matrix.isUnit_iff_isUnit_det _).2 hdet.isUnit)
  have hC : (Matrix.of (obsCov S signal 0 data)).PosDef := by
    have := hpd.smul hs
    refine (congrArg Matrix.PosDef ?_).mp this
    ext i j; simp [obsCov]
  have hsingle : ∀ i, meanSquaredError S signal 0 data (data i) (Pi.single i 1) = 0 := by
    intro i
    unfold meanSquaredError obsCov
    simp only [Pi.single_apply, ite_mul, one_mul, zero_mul, mul_ite, mul_one, mul_zero, Finset.sum_ite_eq', Finset.mem_univ, if_true,
      correlation_self]
    ring
  have hb : ∀ i, best (gridCov S signal data (data i)) (Matrix.of (obsCov S signal 0 data)) = Pi.single i 1 := by
    intro i
    refine (isBestWeights_unique S signal 0 hn data (data i) hC _ ⟨by simp, fun l' _ => ?_⟩).symm
    rw [hsingle]
    exact meanSquaredError_nonneg S signal 0 hs.le le_rfl data (data i) l'
  have hz : npSqrt 0 = some 0 := by rw [npSqrt_of_nonneg 0 le_rfl]; simp
  refine ⟨_, mapDataGrid_of_posDef S signal 0 hn sal g data hC hpv, ?_, ?_⟩
  · intro i
    simp only [← meanSquaredError_eq, hb, hsingle, hz]
    simp
  · rintro i rfl
    simp only [← meanSquaredError_eq, hb, hsingle, hz]
    simp

/-- C37's hypotheses are met by one cast. -/
example : (Matrix.of fun i j => correlation ⟨4, 8, 20, 0.5, 0⟩ ((fun _ : Fin 1 => (⟨10, 20, 2010, 4000⟩ : Pos)) i)
    ((fun _ : Fin 1 => (⟨10, 20, 2010, 4000⟩ : Pos)) j)).det ≠ 0 := by
  rw [Matrix.det_fin_one]; simp [correlation_self]

/-- C37's hypotheses are met by two casts at different latitudes. -/
example : (Matrix.of fun i j => correlation ⟨4, 8, 20, 0.5, 0⟩ ((fun i : Fin 2 => (⟨10 + 8 * (i : ℕ), 20, 2010, 4000⟩ : Pos)) i)
    ((fun i : Fin 2 => (⟨10 + 8 * (i : ℕ), 20, 2010, 4000⟩ : Pos)) j)).det ≠ 0 := by
  rw [Matrix.det_fin_two]
  simp only [Matrix.of_apply, correlation_self]
  have e : correlation ⟨4, 8, 20, 0.5, 0⟩ ⟨10 + 8 * ((0 : Fin 2) : ℕ), 20, 2010, 4000⟩ ⟨10 + 8 * ((1 : Fin 2) : ℕ), 20, 2010, 4000⟩ =
      Real.exp (-1) := by
    unfold correlation scaledSq; norm_num
  rw [correlation_symm _ _ ⟨10 + 8 * ((0 : Fin 2) : ℕ), 20, 2010, 4000⟩, e]
  have h1 : Real.exp (-1) < 1 := by rw [Real.exp_lt_one_iff]; norm_num
  have h0 := Real.exp_pos (-1)
  nlinarith

/-! ## C66: when the mapping crashes -/

/-- C66. Two casts with the same position, date and depth, and no noise: `LinAlgError`. -/
theorem map_duplicate_cast_fails (S : Scales) (signal : ℝ) (sal : Fin n → ℝ) (g : Pos) (data : Fin n → Pos) (i j : Fin n)
    (hij : i ≠ j) (hd : data i = data j) (hpv : S.pvUse = 1 → ∀ i, (data i).c3 ≠ 0) :
    mapDataGrid sal g data S signal 0 = .error .linAlgError := by
  have hn : 0 < n := Fin.pos i
  have h1 : covarXytPv data data S = .ok (Matrix.of fun i j => covarEntry S (data i) (data j)) := by
    unfold covarXytPv
    rw [if_neg (by omega), if_neg (by rintro ⟨hp, i, hi⟩; exact hpv hp i hi), if_neg (by omega),
      if_neg (by rintro ⟨hp, i, hi⟩; exact hpv hp i hi)]
  unfold mapDataGrid
  rw [h1]
  simp only [bind, Except.bind]
  rw [if_pos]
  rw [zero_smul, add_zero]
  apply Matrix.det_zero_of_row_eq hij
  ext k
  simp [hd]

/-- C66. Constant salinities: signal and noise variance are zero (`signal_variance_eq_zero_iff`, `noise_variance_constant`), and then
the mapping fails with `LinAlgError`. -/
theorem map_constant_salinity_fails (S : Scales) (sal : Fin n → ℝ) (g : Pos) (data : Fin n → Pos) (hn : 0 < n)
    (hpv : S.pvUse = 1 → ∀ i, (data i).c3 ≠ 0) : mapDataGrid sal g data S 0 0 = .error .linAlgError := by
  have h1 : covarXytPv data data S = .ok (Matrix.of fun i j => covarEntry S (data i) (data j)) := by
    unfold covarXytPv
    rw [if_neg (by omega), if_neg (by rintro ⟨hp, i, hi⟩; exact hpv hp i hi), if_neg (by omega),
      if_neg (by rintro ⟨hp, i, hi⟩; exact hpv hp i hi)]
  unfold mapDataGrid
  rw [h1]
  simp only [bind, Except.bind]
  rw [if_pos]
  haveI : Nonempty (Fin n) := ⟨⟨0, hn⟩⟩
  rw [zero_smul, zero_smul, add_zero, Matrix.det_zero]

end Verif.Props
