import Verif.Props.Mapping

/-!
# C149: more or better data never make the objective mapping less certain
-/

set_option linter.unusedSectionVars false

namespace Verif.Props

open Verif.Np Verif.Spec Verif.Stats Verif.Mapping

variable {n m : ℕ}

/-- The mean squared error is that of unit variance without noise, times the signal variance, plus the noise of the weights. -/
theorem meanSquaredError_split (S : Scales) (signal noise : ℝ) (data : Fin n → Pos) (g : Pos) (l : Fin n → ℝ) :
    meanSquaredError S signal noise data g l = signal * meanSquaredError S 1 0 data g l + noise * ∑ j, l j ^ 2 := by
  unfold meanSquaredError obsCov
  have h1 : ∑ j, l j * (signal * correlation S (data j) g) = signal * ∑ j, l j * (1 * correlation S (data j) g) := by
    rw [Finset.mul_sum]
    exact Finset.sum_congr rfl fun j _ => by ring
  have h2 : ∑ i, ∑ j, l i * (signal * correlation S (data i) (data j) + if i = j then noise else 0) * l j =
      signal * (∑ i, ∑ j, l i * (1 * correlation S (data i) (data j) + if i = j then 0 else 0) * l j) + noise * ∑ j, l j ^ 2 := by
    rw [Finset.mul_sum, Finset.mul_sum, ← Finset.sum_add_distrib]
    refine Finset.sum_congr rfl fun i _ => ?_
    have : noise * l i ^ 2 = ∑ j, if i = j then noise * l i * l j else 0 := by
      rw [Finset.sum_ite_eq]; simp; ring
    rw [Finset.mul_sum, this, ← Finset.sum_add_distrib]
    refine Finset.sum_congr rfl fun j _ => ?_
    split_ifs <;> ring
  rw [h1, h2]
  ring

theorem meanSquaredError_mono (S : Scales) (signal noise signal' noise' : ℝ) (hs : signal' ≤ signal) (hn : noise' ≤ noise) (data : Fin n → Pos) (g : Pos) (l : Fin n → ℝ) :
    meanSquaredError S signal' noise' data g l ≤ meanSquaredError S signal noise data g l := by
  rw [meanSquaredError_split S signal noise, meanSquaredError_split S signal' noise']
  have h1 := meanSquaredError_nonneg S 1 0 zero_le_one le_rfl data g l
  have h2 : 0 ≤ ∑ j, l j ^ 2 := Finset.sum_nonneg fun j _ => sq_nonneg _
  have := mul_le_mul_of_nonneg_right hs h1
  have := mul_le_mul_of_nonneg_right hn h2
  linarith

/-- Weights of some of the casts, 0 for the others. -/
theorem extended_sum (e : Fin n → Fin m) (he : Function.Injective e) (l : Fin n → ℝ) (f : Fin m → ℝ) :
    ∑ j, Function.extend e l 0 j * f j = ∑ i, l i * f (e i) := by
  refine (Fintype.sum_of_injective e he _ _ (fun j hj => ?_) fun i => ?_).symm
  · rw [Function.extend_apply' _ _ _ (by simpa using hj)]
    simp
  · rw [he.extend_apply]

theorem extended_mse (S : Scales) (signal noise : ℝ) (e : Fin n → Fin m) (he : Function.Injective e) (data : Fin n → Pos) (data' : Fin m → Pos)
    (hd : ∀ i, data' (e i) = data i) (g : Pos) (l : Fin n → ℝ) :
    meanSquaredError S signal noise data' g (Function.extend e l 0) = meanSquaredError S signal noise data g l := by
  unfold meanSquaredError
  rw [extended_sum e he l fun j => signal * correlation S (data' j) g]
  simp only [hd]
  congr 1
  have h1 : ∀ i : Fin m, ∑ j, Function.extend e l 0 i * obsCov S signal noise data' i j * Function.extend e l 0 j =
      Function.extend e l 0 i * ∑ k, l k * obsCov S signal noise data' i (e k) := by
    intro i
    rw [← extended_sum e he l fun j => obsCov S signal noise data' i j, Finset.mul_sum]
    exact Finset.sum_congr rfl fun j _ => by ring
  simp only [h1]
  rw [extended_sum e he l fun i => ∑ k, l k * obsCov S signal noise data' i (e k)]
  refine Finset.sum_congr rfl fun i _ => ?_
  rw [Finset.mul_sum]
  refine Finset.sum_congr rfl fun j _ => ?_
  have : obsCov S signal noise data' (e i) (e j) = obsCov S signal noise data i j := by
    unfold obsCov
    rw [hd, hd]
    simp [he.eq_iff]
  rw [this]
  ring

/-- C149. Objective mapping of the casts `data` and of the casts `data'`, among which are all of `data`, with at most the signal and noise variance: the error at the float is
not larger with `data'`, nor is the error at any of the casts of `data`. -/
theorem map_error_monotone (S : Scales) (hS : ProperScales S) (signal noise signal' noise' : ℝ) (hs' : 0 ≤ signal') (hn' : 0 < noise') (hs : signal' ≤ signal)
    (hn : noise' ≤ noise) (g : Pos) (data : Fin n → Pos) (data' : Fin m → Pos) (e : Fin n → Fin m) (he : Function.Injective e) (hd : ∀ i, data' (e i) = data i)
    (hpv : S.pvUse = 1 → g.c3 ≠ 0 ∧ ∀ i, (data' i).c3 ≠ 0) (h0 : 0 < n) (sal : Fin n → ℝ) (sal' : Fin m → ℝ) :
    ∃ r r' a a', mapDataGrid sal g data S signal noise = .ok r ∧ mapDataGrid sal' g data' S signal' noise' = .ok r' ∧
      r.gridErr = some a ∧ r'.gridErr = some a' ∧ a' ≤ a ∧
      ∀ i, ∃ b b', r.dataErr i = some b ∧ r'.dataErr (e i) = some b' ∧ b' ≤ b := by
  have hm : 0 < m := lt_of_le_of_lt (Nat.zero_le _) (e ⟨0, h0⟩).isLt
  obtain ⟨lg, ld, eg, ed, h1, h2, h3, h4, h5⟩ := map_is_best_estimate S hS signal noise (hs'.trans hs) (hn'.trans_le hn) h0 g data
    fun hp => ⟨(hpv hp).1, fun i => by rw [← hd i]; exact (hpv hp).2 _⟩
  obtain ⟨lg', ld', eg', ed', h1', h2', h3', h4', h5'⟩ := map_is_best_estimate S hS signal' noise' hs' hn' hm g data' hpv
  have hsum : ∀ l : Fin n → ℝ, ∑ j, l j = 1 → ∑ j, Function.extend e l 0 j = 1 := by
    intro l hl
    have := extended_sum e he l fun _ => 1
    simp only [mul_one] at this
    rw [this, hl]
  have key : ∀ (p : Pos) (l : Fin n → ℝ) (l' : Fin m → ℝ) (a a' : ℝ), IsBestWeights S signal noise data p l → IsBestWeights S signal' noise' data' p l' → 0 ≤ a →
      a ^ 2 = meanSquaredError S signal noise data p l → 0 ≤ a' → a' ^ 2 = meanSquaredError S signal' noise' data' p l' → a' ≤ a := by
    intro p l l' a a' hl hl' ha hae ha' hae'
    have := hl'.2 _ (hsum l hl.1)
    rw [extended_mse S signal' noise' e he data data' hd] at this
    have := meanSquaredError_mono S signal noise signal' noise' hs hn data p l
    exact le_of_sq_le_sq (by rw [hae, hae']; linarith) ha
  refine ⟨_, _, eg, eg', h5 sal, h5' sal', rfl, rfl, key g lg lg' eg eg' h1 h1' h2 h3 h2' h3', fun i => ⟨ed i, ed' (e i), rfl, rfl, ?_⟩⟩
  obtain ⟨q1, q2, q3⟩ := h4 i
  obtain ⟨q1', q2', q3'⟩ := h4' (e i)
  rw [hd i] at q1' q3'
  exact key (data i) _ _ _ _ q1 q1' q2 q3 q2' q3'

/-- The hypotheses are met: two casts, and the same two and a third one, with less noise. -/
example : ∃ (S : Scales) (g : Pos) (data : Fin 2 → Pos) (data' : Fin 3 → Pos) (e : Fin 2 → Fin 3), ProperScales S ∧ Function.Injective e ∧ (∀ i, data' (e i) = data i) ∧
    S.pvUse = 1 ∧ g.c3 ≠ 0 ∧ ∀ i, (data' i).c3 ≠ 0 :=
  ⟨⟨4, 8, 20, 0.5, 1⟩, ⟨10, 20, 2010, 4000⟩, fun i => ⟨11 + i, 21, 2005, 3000⟩, fun i => ⟨11 + i, 21, 2005, 3000⟩, Fin.castSucc,
    ⟨by norm_num, by norm_num, fun _ => by norm_num⟩, Fin.castSucc_injective 2, fun i => by simp, rfl, by norm_num, fun _ => by norm_num⟩

end Verif.Props
