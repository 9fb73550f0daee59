import Mathlib.Analysis.Matrix.Order
import Mathlib.LinearAlgebra.Matrix.PosDef
import Mathlib.Analysis.SpecialFunctions.Exponential
import Mathlib.Analysis.SpecificLimits.Basic
import Mathlib.Tactic.FieldSimp
import Mathlib.Tactic.Ring
import Mathlib.Tactic.Positivity

/-!
# Positive semi-definite kernels

Facts of analysis used for the covariance functions: rank-one matrices, entrywise powers, entrywise exponentials, limits, the Gaussian kernel, the Cauchy
kernel and the potential vorticity kernel.
-/

namespace Verif.Kernels

open Matrix Filter Topology

variable {n : ℕ}

theorem quad_eq (M : Matrix (Fin n) (Fin n) ℝ) (c : Fin n → ℝ) :
    star c ⬝ᵥ (M *ᵥ c) = ∑ i, ∑ j, c i * M i j * c j := by
  simp only [dotProduct, mulVec, Pi.star_apply, star_trivial, Finset.mul_sum]
  refine Finset.sum_congr rfl fun i _ => Finset.sum_congr rfl fun j _ => by ring

theorem posSemidef_iff (M : Matrix (Fin n) (Fin n) ℝ) :
    M.PosSemidef ↔ (∀ i j, M i j = M j i) ∧ ∀ c : Fin n → ℝ, 0 ≤ ∑ i, ∑ j, c i * M i j * c j := by
  constructor
  · intro h
    refine ⟨fun i j => ?_, fun c => ?_⟩
    · have := h.isHermitian.apply i j
      simpa using this.symm
    · rw [← quad_eq]; exact h.dotProduct_mulVec_nonneg c
  · rintro ⟨hs, hq⟩
    refine PosSemidef.of_dotProduct_mulVec_nonneg ?_ fun c => ?_
    · ext i j; simp [hs i j]
    · rw [quad_eq]; exact hq c

theorem rankOne (f : Fin n → ℝ) : (Matrix.of fun i j => f i * f j).PosSemidef := by
  have h := posSemidef_vecMulVec_self_star f
  have e : vecMulVec f (star f) = Matrix.of fun i j => f i * f j := by
    ext i j; simp [vecMulVec_apply]
  rwa [e] at h

theorem mul {k l : Fin n → Fin n → ℝ} (hk : (Matrix.of k).PosSemidef) (hl : (Matrix.of l).PosSemidef) :
    (Matrix.of fun i j => k i j * l i j).PosSemidef := by
  have h := hk.hadamard hl
  have e : (Matrix.of k) ⊙ (Matrix.of l) = Matrix.of fun i j => k i j * l i j := by
    ext i j; simp [hadamard_apply]
  rwa [e] at h

theorem one : (Matrix.of fun (_ _ : Fin n) => (1 : ℝ)).PosSemidef := by
  simpa using rankOne (fun _ : Fin n => (1 : ℝ))

theorem pow {k : Fin n → Fin n → ℝ} (hk : (Matrix.of k).PosSemidef) (m : ℕ) :
    (Matrix.of fun i j => k i j ^ m).PosSemidef := by
  induction m with
  | zero => simpa using one
  | succ m ih => simpa only [pow_succ] using mul ih hk

theorem scale {k : Fin n → Fin n → ℝ} (hk : (Matrix.of k).PosSemidef) {a : ℝ} (ha : 0 ≤ a) :
    (Matrix.of fun i j => a * k i j).PosSemidef := by
  have h := mul (rankOne (fun _ : Fin n => Real.sqrt a)) hk
  simpa [Real.mul_self_sqrt ha] using h

theorem add {k l : Fin n → Fin n → ℝ} (hk : (Matrix.of k).PosSemidef) (hl : (Matrix.of l).PosSemidef) :
    (Matrix.of fun i j => k i j + l i j).PosSemidef := by
  have h := hk.add hl
  exact h

theorem zero : (Matrix.of fun (_ _ : Fin n) => (0 : ℝ)).PosSemidef := by
  simpa using rankOne (fun _ : Fin n => (0 : ℝ))

theorem sum {k : ℕ → Fin n → Fin n → ℝ} (hk : ∀ m, (Matrix.of (k m)).PosSemidef) (N : ℕ) :
    (Matrix.of fun i j => ∑ m ∈ Finset.range N, k m i j).PosSemidef := by
  induction N with
  | zero => simpa using zero
  | succ N ih => simpa only [Finset.sum_range_succ] using add ih (hk N)

theorem limit {k : ℕ → Fin n → Fin n → ℝ} {l : Fin n → Fin n → ℝ} (hk : ∀ m, (Matrix.of (k m)).PosSemidef)
    (hl : ∀ i j, Tendsto (fun m => k m i j) atTop (𝓝 (l i j))) : (Matrix.of l).PosSemidef := by
  rw [posSemidef_iff]
  constructor
  · intro i j
    have h1 := hl i j
    have h2 := hl j i
    have e : (fun m => k m i j) = fun m => k m j i := by
      funext m; exact ((posSemidef_iff _).1 (hk m)).1 i j
    rw [e] at h1
    exact tendsto_nhds_unique h1 h2
  · intro c
    have ht : Tendsto (fun m => ∑ i, ∑ j, c i * k m i j * c j) atTop (𝓝 (∑ i, ∑ j, c i * l i j * c j)) := by
      refine tendsto_finsetSum _ fun i _ => tendsto_finsetSum _ fun j _ => ?_
      exact ((hl i j).const_mul (c i)).mul_const (c j)
    exact ge_of_tendsto' ht fun m => ((posSemidef_iff _).1 (hk m)).2 c

theorem exp {k : Fin n → Fin n → ℝ} (hk : (Matrix.of k).PosSemidef) :
    (Matrix.of fun i j => Real.exp (k i j)).PosSemidef := by
  refine limit (k := fun N i j => ∑ m ∈ Finset.range N, (1 / (m.factorial : ℝ)) * k i j ^ m) ?_ ?_
  · intro N
    exact sum (k := fun m i j => (1 / (m.factorial : ℝ)) * k i j ^ m) (fun m => scale (pow hk m) (by positivity)) N
  · intro i j
    have h := (NormedSpace.expSeries_div_hasSum_exp (k i j)).tendsto_sum_nat
    rw [← Real.exp_eq_exp_ℝ] at h
    refine h.congr fun N => Finset.sum_congr rfl fun m _ => by ring

theorem gaussian (f : Fin n → ℝ) : (Matrix.of fun i j => Real.exp (-(f i - f j) ^ 2)).PosSemidef := by
  have h := mul (rankOne fun i => Real.exp (-(f i) ^ 2)) (exp (scale (rankOne f) (by norm_num : (0 : ℝ) ≤ 2)))
  refine (congrArg Matrix.PosSemidef ?_).mp h
  ext i j
  simp only [Matrix.of_apply]
  rw [← Real.exp_add, ← Real.exp_add]
  congr 1; ring

theorem cauchy (x : Fin n → ℝ) (hx : ∀ i, 0 < x i) : (Matrix.of fun i j => 1 / (x i + x j)).PosSemidef := by
  have hu : ∀ i, |(x i - 1) / (x i + 1)| < 1 := by
    intro i
    have := hx i
    rw [abs_lt]
    constructor
    · rw [lt_div_iff₀ (by linarith)]; linarith
    · rw [div_lt_one (by linarith)]; linarith
  have hs : (Matrix.of fun i j => (1 - (x i - 1) / (x i + 1) * ((x j - 1) / (x j + 1)))⁻¹).PosSemidef := by
    refine limit (k := fun N i j => ∑ m ∈ Finset.range N, ((x i - 1) / (x i + 1) * ((x j - 1) / (x j + 1))) ^ m) ?_ ?_
    · intro N
      exact sum (k := fun m i j => ((x i - 1) / (x i + 1) * ((x j - 1) / (x j + 1))) ^ m)
        (fun m => pow (rankOne fun i => (x i - 1) / (x i + 1)) m) N
    · intro i j
      refine (hasSum_geometric_of_abs_lt_one ?_).tendsto_sum_nat
      rw [abs_mul]
      calc _ ≤ |(x i - 1) / (x i + 1)| * 1 := by gcongr; exact (hu j).le
        _ < 1 := by rw [mul_one]; exact hu i
  have h := scale (mul (rankOne fun i => 1 / (x i + 1)) hs) (by norm_num : (0 : ℝ) ≤ 2)
  refine (congrArg Matrix.PosSemidef ?_).mp h
  ext i j
  simp only [Matrix.of_apply]
  have hi := hx i
  have hj := hx j
  have h1 : x i + 1 ≠ 0 := by linarith
  have h2 : x j + 1 ≠ 0 := by linarith
  have h3 : x i + x j ≠ 0 := by linarith
  have e : 1 - (x i - 1) / (x i + 1) * ((x j - 1) / (x j + 1)) = 2 * (x i + x j) / ((x i + 1) * (x j + 1)) := by
    field_simp; ring
  rw [e]
  field_simp

/-- The kernel of the potential vorticity term. -/
theorem vorticity (a : Fin n → ℝ) (ha : ∀ i, a i ≠ 0) (phi : ℝ) :
    (Matrix.of fun i j => Real.exp (-((a i - a j) ^ 2 / (a i ^ 2 + a j ^ 2) / phi ^ 2))).PosSemidef := by
  have hpos : ∀ i, 0 < a i ^ 2 := fun i => by have := ha i; positivity
  have h := scale (exp (scale (mul (rankOne a) (cauchy (fun i => a i ^ 2) hpos)) (by positivity : 0 ≤ 2 / phi ^ 2)))
    (Real.exp_pos (-(1 / phi ^ 2))).le
  refine (congrArg Matrix.PosSemidef ?_).mp h
  ext i j
  simp only [Matrix.of_apply]
  rw [← Real.exp_add]
  congr 1
  have h3 : a i ^ 2 + a j ^ 2 ≠ 0 := by have := hpos i; have := hpos j; linarith
  by_cases hp : phi = 0
  · subst hp; simp
  · field_simp; ring

/-- Reading the rows and columns of a kernel at chosen points keeps it positive semi-definite. -/
theorem posDef_of_add {k : Fin n → Fin n → ℝ} (hk : (Matrix.of k).PosSemidef) {a b : ℝ} (ha : 0 ≤ a) (hb : 0 < b) :
    (Matrix.of fun i j => a * k i j + if i = j then b else 0).PosDef := by
  have h := Matrix.PosDef.posSemidef_add (scale hk ha) (Matrix.PosDef.smul (Matrix.PosDef.one (n := Fin n) (R := ℝ)) hb)
  refine (congrArg Matrix.PosDef ?_).mp h
  ext i j
  simp [Matrix.one_apply]

end Verif.Kernels
