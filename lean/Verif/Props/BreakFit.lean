import Verif.Lemmas.BreakFit
import Mathlib.Data.Fin.VecNotation
import Mathlib.Tactic.NormNum

/-!
# Properties of `brk_pt_fit` (C26 - C28)

The independent variable is ascending, as in `fit_cond`, and the break points are ascending and not left of the first point.
`w` are the weights: the diagonal of `w_i`, or all 1 if `w_i` is empty.
-/

set_option linter.unusedSectionVars false

namespace Verif.Props

open Verif.Np Verif.Spec Verif.BreakFit Matrix

variable {K : Type} [Field K] [LinearOrder K] [IsStrictOrderedRing K]

/-- The weights meant by the argument `w_i`: a diagonal matrix, or nothing for equal weights. -/
def Weights {n : ℕ} (arg : Option (Matrix (Fin n) (Fin n) K)) (w : Fin n → K) : Prop :=
  arg = some (diagonal w) ∨ (arg = none ∧ ∀ i, w i = 1)

theorem brkPtFit_eq {n b : ℕ} (x y : Fin (n + 1) → K) (breaks : Fin b → K) (arg : Option (Matrix (Fin (n + 1)) (Fin (n + 1)) K))
    (w : Fin (n + 1) → K) (hW : Weights arg w) (hdet : ((trends x breaks)ᵀ * diagonal w * trends x breaks).det ≠ 0) :
    brkPtFit x y arg breaks = .ok
      ((((trends x breaks)ᵀ * diagonal w * trends x breaks)⁻¹ * (trends x breaks)ᵀ * diagonal w) *ᵥ y,
        fun i => y i - (trends x breaks *ᵥ
          ((((trends x breaks)ᵀ * diagonal w * trends x breaks)⁻¹ * (trends x breaks)ᵀ * diagonal w) *ᵥ y)) i) := by
  rcases hW with rfl | ⟨rfl, hw⟩
  · unfold brkPtFit
    rw [dif_pos rfl]
    simp only [Fin.cast_eq_self]
    rw [if_neg hdet]
  · have e : diagonal w = (1 : Matrix (Fin (n + 1)) (Fin (n + 1)) K) := by
      rw [← diagonal_one]; congr; funext i; exact hw i
    rw [e] at hdet ⊢
    simp only [Matrix.mul_one] at hdet ⊢
    unfold brkPtFit
    rw [dif_pos rfl]
    simp only [Fin.cast_eq_self]
    rw [if_neg hdet]
    simp only [mulVec_mulVec]

theorem brkPtFit_singular {n b : ℕ} (x y : Fin (n + 1) → K) (breaks : Fin b → K) (arg : Option (Matrix (Fin (n + 1)) (Fin (n + 1)) K))
    (w : Fin (n + 1) → K) (hW : Weights arg w) (hdet : ((trends x breaks)ᵀ * diagonal w * trends x breaks).det = 0) :
    brkPtFit x y arg breaks = .ok (0, y) := by
  rcases hW with rfl | ⟨rfl, hw⟩
  · unfold brkPtFit
    rw [dif_pos rfl]
    simp only
    rw [if_pos hdet]
  · have e : diagonal w = (1 : Matrix (Fin (n + 1)) (Fin (n + 1)) K) := by
      rw [← diagonal_one]; congr; funext i; exact hw i
    rw [e, Matrix.mul_one] at hdet
    unfold brkPtFit
    rw [dif_pos rfl]
    simp only
    rw [if_pos hdet]

section

variable {n b : ℕ} (x y : Fin (n + 1) → K) (hx : Monotone x) (breaks : Fin b → K) (knot : Fin (b + 1) → K)
  (hknot : knot = Fin.cons (x 0) breaks) (hk : Monotone knot) (arg : Option (Matrix (Fin (n + 1)) (Fin (n + 1)) K))
  (w : Fin (n + 1) → K) (hw : ∀ i, 0 ≤ w i) (hW : Weights arg w)

include hx hknot hk

theorem determined_iff (hw : ∀ i, 0 ≤ w i) :
    Determined knot w x ↔ ((trends x breaks)ᵀ * diagonal w * trends x breaks).det ≠ 0 := by
  subst hknot
  have hx0 : ∀ i, (Fin.cons (x 0) breaks : Fin (b + 1) → K) 0 ≤ x i := fun i => by
    rw [Fin.cons_zero]; exact hx (Fin.zero_le i)
  rw [Ne, normal_singular_iff _ w hw]
  constructor
  · rintro hD ⟨v, hv, hz⟩
    apply hv
    obtain ⟨h0, hs⟩ := hD (fun j => v j.succ) (lineOf _ v) (lineOf_isBroken _ hk v) (fun i hi => by
      rw [← trends_apply x hx breaks hk v i]; exact hz i hi)
    rw [lineOf_start _ hk] at h0
    ext j
    refine Fin.cases h0 (fun j => ?_) j
    exact congrFun hs j
  · intro hno slope f hf hz
    by_contra hc
    apply hno
    refine ⟨Fin.cons (f ((Fin.cons (x 0) breaks : Fin (b + 1) → K) 0)) slope, ?_, ?_⟩
    · intro h0
      apply hc
      constructor
      · have := congrFun h0 0; simpa using this
      · ext j; have := congrFun h0 j.succ; simpa using this
    · intro i hi
      rw [trends_apply x hx breaks hk, ← isBroken_lineOf _ slope hk f hf (x i) (hx0 i)]
      exact hz i hi

include hw hW

/-- C26. If the points determine a broken line, the coefficients returned are the start value and the slopes of a broken line with the
given knots that minimises the weighted sum of squared deviations among all of them, and the residual is the data minus this line. -/
theorem brk_fit_least_squares (hD : Determined knot w x) :
    ∃ (a : Fin (b + 2) → K) (r : Fin (n + 1) → K) (f : K → K), brkPtFit x y arg breaks = .ok (a, r) ∧
      IsBrokenLine knot (fun j => a j.succ) f ∧ f (knot 0) = a 0 ∧ (∀ i, r i = y i - f (x i)) ∧
      ∀ (slope : Fin (b + 1) → K) (g : K → K), IsBrokenLine knot slope g → deviation w x y f ≤ deviation w x y g := by
  have hdet := (determined_iff x hx breaks knot hknot hk w hw).1 hD
  subst hknot
  refine ⟨_, _, lineOf (Fin.cons (x 0) breaks : Fin (b + 1) → K) _, brkPtFit_eq x y breaks arg w hW hdet,
    lineOf_isBroken _ hk _, lineOf_start _ hk _, fun i => ?_, fun slope g hg => ?_⟩
  · simp only [trends_apply x hx breaks hk]
  · have h := normal_minimal (trends x breaks) w y hw hdet
      (Fin.cons (g ((Fin.cons (x 0) breaks : Fin (b + 1) → K) 0)) slope)
    simp only [trends_apply x hx breaks hk] at h
    unfold deviation
    have e : ∀ i, g (x i) = lineOf (Fin.cons (x 0) breaks : Fin (b + 1) → K)
        (Fin.cons (g ((Fin.cons (x 0) breaks : Fin (b + 1) → K) 0)) slope) (x i) := fun i =>
      isBroken_lineOf _ slope hk g hg (x i) (by rw [Fin.cons_zero]; exact hx (Fin.zero_le i))
    simp only [e]
    exact h

/-- C27. Data on a broken line with these knots are reproduced: the coefficients are its start value and slopes, the residual is zero. -/
theorem brk_fit_exact (hD : Determined knot w x) (slope : Fin (b + 1) → K) (g : K → K) (hg : IsBrokenLine knot slope g)
    (hy : ∀ i, y i = g (x i)) : brkPtFit x y arg breaks = .ok (Fin.cons (g (knot 0)) slope, 0) := by
  have hdet := (determined_iff x hx breaks knot hknot hk w hw).1 hD
  subst hknot
  rw [brkPtFit_eq x y breaks arg w hW hdet]
  have e : y = trends x breaks *ᵥ (Fin.cons (g ((Fin.cons (x 0) breaks : Fin (b + 1) → K) 0)) slope) := by
    ext i
    rw [trends_apply x hx breaks hk, hy i]
    exact isBroken_lineOf _ slope hk g hg (x i) (by rw [Fin.cons_zero]; exact hx (Fin.zero_le i))
  rw [e, normal_exact _ w hdet]
  congr 2
  funext i
  simp

/-- C28. If the points do not determine a broken line, zero coefficients and the data as residual are returned. -/
theorem brk_fit_undetermined (hD : ¬ Determined knot w x) : brkPtFit x y arg breaks = .ok (0, y) := by
  have hdet := (not_congr (determined_iff x hx breaks knot hknot hk w hw)).1 hD
  push Not at hdet
  exact brkPtFit_singular x y breaks arg w hW hdet

end

/-- C28. Different lengths. -/
theorem brk_fit_mismatch {n m b : ℕ} (x : Fin n → K) (y : Fin m → K) (arg : Option (Matrix (Fin n) (Fin n) K)) (breaks : Fin b → K)
    (h : n ≠ m) : brkPtFit x y arg breaks = .ok (0, y) := by
  unfold brkPtFit; rw [dif_neg h]

/-- C28. The only failure: no points at all. -/
theorem brk_fit_fails_iff {n m b : ℕ} (x : Fin n → K) (y : Fin m → K) (arg : Option (Matrix (Fin n) (Fin n) K)) (breaks : Fin b → K) :
    (∃ e, brkPtFit x y arg breaks = .error e) ↔ n = 0 ∧ m = 0 := by
  unfold brkPtFit
  by_cases h : n = m
  · rw [dif_pos h]
    subst h
    cases n with
    | zero => simp
    | succ k =>
      simp only
      split_ifs <;> simp
  · rw [dif_neg h]
    simp; omega

/-- Four points and a break between the second and the third determine a broken line, so the hypotheses are met. -/
theorem determined_example : Determined (K := ℚ) (b := 1) ![0, 3/2] ![1, 1, 1, 1] ![0, 1, 2, 3] := by
  intro slope f hf hz
  have z0 : f 0 = 0 := by simpa using hz 0 (by simp)
  have z1 : f 1 = 0 := by simpa using hz 1 (by simp)
  have z2 : f 2 = 0 := by simpa using hz 2 (by simp)
  have z3 : f 3 = 0 := by simpa using hz 3 (by simp)
  have a1 := hf 0 1 (by norm_num) (fun _ => by norm_num)
  have a2 := hf 1 2 (by norm_num) (fun h => by simp at h)
  have a3 := hf 1 3 (by norm_num) (fun h => by simp at h)
  simp at a1 a2 a3
  rw [z0, z1] at a1
  rw [z2] at a2
  rw [z3] at a3
  refine ⟨z0, ?_⟩
  ext j
  fin_cases j
  · simp; linarith
  · simp; linarith

example : Monotone (![0, 1, 2, 3] : Fin 4 → ℚ) ∧ Monotone (Fin.cons 0 ![3/2] : Fin 2 → ℚ) := by
  constructor
  · intro i j; fin_cases i <;> fin_cases j <;> simp <;> norm_num
  · intro i j; fin_cases i <;> fin_cases j <;> simp <;> norm_num

/-- C26 and C27 need ascending points: for points on the line `y = x` listed as 1, 2, 0, 1/2 the fit is not exact, whatever it is. -/
theorem brk_fit_unsorted_wrong :
    ∀ (a : Fin 2 → ℚ) (r : Fin 4 → ℚ),
      brkPtFit (b := 0) (![1, 2, 0, 1/2] : Fin 4 → ℚ) (![1, 2, 0, 1/2] : Fin 4 → ℚ) none ![] = .ok (a, r) → r ≠ 0 := by
  intro a r h hr
  unfold brkPtFit at h
  rw [dif_pos rfl] at h
  simp only at h
  split_ifs at h with hd
  · have h' := Prod.ext_iff.1 (Except.ok.inj h)
    have := congrFun (h'.2.trans hr) 0
    norm_num at this
  · have h' := Prod.ext_iff.1 (Except.ok.inj h)
    set A := ((trends (b := 0) (![1, 2, 0, 1/2] : Fin 4 → ℚ) ![])ᵀ * trends (![1, 2, 0, 1/2] : Fin 4 → ℚ) ![])⁻¹ *ᵥ
      ((trends (b := 0) (![1, 2, 0, 1/2] : Fin 4 → ℚ) ![])ᵀ *ᵥ fun i : Fin 4 => (![1, 2, 0, 1/2] : Fin 4 → ℚ) (Fin.cast rfl i)) with hA
    have hrow : trends (b := 0) (![1, 2, 0, 1/2] : Fin 4 → ℚ) ![] 0 = trends (b := 0) (![1, 2, 0, 1/2] : Fin 4 → ℚ) ![] 1 := by
      funext j; revert j; decide +kernel
    have r0 := congrFun (h'.2.trans hr) 0
    have r1 := congrFun (h'.2.trans hr) 1
    simp only [mulVec, Fin.cast_eq_self] at r0 r1
    rw [← hrow] at r1
    have := r0.trans r1.symm
    simp at this

end Verif.Props
