import Mathlib.LinearAlgebra.Matrix.ToLinearEquiv
import Verif.Model.BreakFit
import Verif.Spec.BreakFit
import Verif.Props.Utilities
import Mathlib.LinearAlgebra.Matrix.NonsingularInverse
import Mathlib.Tactic.Linarith
import Mathlib.Tactic.Ring

/-!
# Lemmas about the design matrix and the normal equations
-/

set_option linter.unusedSectionVars false

namespace Verif.BreakFit

open Verif.Np Verif.Utilities Verif.Spec Matrix

variable {K : Type} [Field K] [LinearOrder K] [IsStrictOrderedRing K]

/-- The part of the way from knot `j` to the next one that lies left of `x`. -/
def seg {b : ℕ} (knot : Fin (b + 1) → K) (j : Fin (b + 1)) (x : K) : K :=
  if x < knot j then 0
  else if h : j.val + 1 < b + 1 then (if x < knot ⟨j.val + 1, h⟩ then x - knot j else knot ⟨j.val + 1, h⟩ - knot j)
  else x - knot j

/-- The function with coefficients `a`. -/
def lineOf {b : ℕ} (knot : Fin (b + 1) → K) (a : Fin (b + 2) → K) (x : K) : K :=
  a 0 + ∑ j : Fin (b + 1), a j.succ * seg knot j x

theorem seg_before {b : ℕ} (knot : Fin (b + 1) → K) (hk : Monotone knot) (j k : Fin (b + 1)) (hjk : j < k) (x : K) (hx : knot k ≤ x) :
    seg knot j x = seg knot j (knot k) := by
  have h1 : j.val + 1 < b + 1 := by have := k.isLt; have : j.val < k.val := hjk; omega
  have h2 : knot ⟨j.val + 1, h1⟩ ≤ knot k := hk (by show j.val + 1 ≤ k.val; exact hjk)
  have h3 : knot j ≤ knot k := hk hjk.le
  unfold seg
  rw [if_neg (not_lt.2 (h3.trans hx)), if_neg (not_lt.2 h3), dif_pos h1, dif_pos h1, if_neg (not_lt.2 (h2.trans hx)),
    if_neg (not_lt.2 h2)]

theorem seg_at {b : ℕ} (knot : Fin (b + 1) → K) (k : Fin (b + 1)) (x : K) (hx : knot k ≤ x)
    (hx' : ∀ h : k.val + 1 < b + 1, x ≤ knot ⟨k.val + 1, h⟩) : seg knot k x = x - knot k := by
  unfold seg
  rw [if_neg (not_lt.2 hx)]
  split_ifs with h1 h2
  · rfl
  · rw [le_antisymm (hx' h1) (not_lt.1 h2)]
  · rfl

theorem seg_after {b : ℕ} (knot : Fin (b + 1) → K) (hk : Monotone knot) (j k : Fin (b + 1)) (hkj : k < j) (x : K)
    (hx' : ∀ h : k.val + 1 < b + 1, x ≤ knot ⟨k.val + 1, h⟩) : seg knot j x = 0 := by
  have h1 : k.val + 1 < b + 1 := by have := j.isLt; have : k.val < j.val := hkj; omega
  have h2 : knot ⟨k.val + 1, h1⟩ ≤ knot j := hk (by show k.val + 1 ≤ j.val; exact hkj)
  have h3 := (hx' h1).trans h2
  unfold seg
  split_ifs with h4 h5 h6
  · rfl
  · rw [le_antisymm h3 (not_lt.1 h4)]; ring
  · have e := le_antisymm h3 (not_lt.1 h4)
    have : knot j ≤ knot ⟨j.val + 1, h5⟩ := hk (by show j.val ≤ j.val + 1; omega)
    rw [e] at h6
    rw [le_antisymm (not_lt.1 h6) this]; ring
  · rw [le_antisymm h3 (not_lt.1 h4)]; ring

theorem lineOf_isBroken {b : ℕ} (knot : Fin (b + 1) → K) (hk : Monotone knot) (a : Fin (b + 2) → K) :
    IsBrokenLine knot (fun j => a j.succ) (lineOf knot a) := by
  intro k x hx hx'
  have hself : ∀ h : k.val + 1 < b + 1, knot k ≤ knot ⟨k.val + 1, h⟩ := fun h => hk (by show k.val ≤ k.val + 1; omega)
  unfold lineOf
  have e : ∑ j : Fin (b + 1), a j.succ * seg knot j x =
      ∑ j : Fin (b + 1), (a j.succ * seg knot j (knot k) + if j = k then a k.succ * (x - knot k) else 0) := by
    refine Finset.sum_congr rfl fun j _ => ?_
    rcases lt_trichotomy j k with h | h | h
    · rw [seg_before knot hk j k h x hx, if_neg h.ne, add_zero]
    · subst h
      rw [seg_at knot j x hx hx', seg_at knot j (knot j) le_rfl hself, if_pos rfl]; ring
    · rw [seg_after knot hk j k h x hx', seg_after knot hk j k h (knot k) hself, if_neg h.ne']; ring
  rw [e, Finset.sum_add_distrib, Finset.sum_ite_eq' Finset.univ k]
  simp [add_assoc]

theorem lineOf_start {b : ℕ} (knot : Fin (b + 1) → K) (hk : Monotone knot) (a : Fin (b + 2) → K) :
    lineOf knot a (knot 0) = a 0 := by
  unfold lineOf
  rw [Finset.sum_eq_zero, add_zero]
  intro j _
  rcases (Fin.zero_le j).eq_or_lt with h | h
  · rw [← h, seg_at knot 0 (knot 0) le_rfl (fun h => hk (Fin.zero_le _))]; ring
  · rw [seg_after knot hk j 0 h (knot 0) (fun h => hk (Fin.zero_le _))]; ring

/-- A broken line is determined by its value at the first knot and its slopes. -/
theorem isBroken_eq {b : ℕ} (knot slope : Fin (b + 1) → K) (hk : Monotone knot) (f g : K → K) (hf : IsBrokenLine knot slope f)
    (hg : IsBrokenLine knot slope g) (h0 : f (knot 0) = g (knot 0)) (x : K) (hx : knot 0 ≤ x) : f x = g x := by
  have hkn : ∀ (m : ℕ) (hm : m < b + 1), f (knot ⟨m, hm⟩) = g (knot ⟨m, hm⟩) := by
    intro m
    induction m with
    | zero => intro _; exact h0
    | succ m ih =>
      intro hm
      have hle : knot ⟨m, by omega⟩ ≤ knot ⟨m + 1, hm⟩ := hk (by show m ≤ m + 1; omega)
      rw [hf ⟨m, by omega⟩ _ hle (fun _ => le_rfl), hg ⟨m, by omega⟩ _ hle (fun _ => le_rfl), ih (by omega)]
  -- the last knot left of `x`
  have hex : ∀ (m : ℕ) (hm : m < b + 1), (∀ i, (hi : i < b + 1) → m < i → x ≤ knot ⟨i, hi⟩) → f x = g x := by
    intro m
    induction m with
    | zero =>
      intro hm hall
      rw [hf 0 x hx (fun h => hall 1 h (by omega)), hg 0 x hx (fun h => hall 1 h (by omega)), h0]
    | succ m ih =>
      intro hm hall
      by_cases hc : knot ⟨m + 1, hm⟩ ≤ x
      · rw [hf ⟨m + 1, hm⟩ x hc (fun h => hall _ h (by simp)), hg ⟨m + 1, hm⟩ x hc (fun h => hall _ h (by simp)), hkn]
      · refine ih (by omega) fun i hi hmi => ?_
        rcases Nat.lt_or_ge (m + 1) i with h | h
        · exact hall i hi h
        · have : i = m + 1 := by omega
          subst this
          exact (not_le.1 hc).le
  exact hex b (by omega) fun i hi hbi => by omega

theorem isBroken_lineOf {b : ℕ} (knot slope : Fin (b + 1) → K) (hk : Monotone knot) (f : K → K) (hf : IsBrokenLine knot slope f)
    (x : K) (hx : knot 0 ≤ x) : f x = lineOf knot (Fin.cons (f (knot 0)) slope) x := by
  refine isBroken_eq knot slope hk f _ hf ?_ ?_ x hx
  · have := lineOf_isBroken knot hk (Fin.cons (f (knot 0)) slope)
    simpa using this
  · rw [lineOf_start knot hk]; simp

/-! ## The design matrix -/

theorem countP_ofFn_le {b : ℕ} (knot : Fin (b + 1) → K) (hk : Monotone knot) (x : K) (j : Fin (b + 1)) :
    (j.val : ℤ) ≤ ((List.ofFn knot).countP (fun c => decide (c ≤ x)) : ℤ) - 1 ↔ knot j ≤ x := by
  have hsort : (List.ofFn knot).Pairwise (· ≤ ·) := by
    rw [List.pairwise_ofFn]; intro i k hik; exact hk hik.le
  obtain ⟨r, hr, h1, h2, h3, h4⟩ := Props.sorter_interval (List.ofFn knot) [x] hsort 0 x (by simp)
  have e : r = ((List.ofFn knot).countP (fun c => decide (c ≤ x)) : ℤ) - 1 := by
    rw [Props.sorter_counts_boundaries] at hr
    simp [-List.ofFn_succ] at hr; exact hr.symm
  rw [← e]
  have hj : (List.ofFn knot)[j.val]? = some (knot j) := by simp [-List.ofFn_succ]; omega
  constructor
  · intro h; exact h3 j.val _ hj h
  · intro h
    by_contra hc
    exact absurd (h4 j.val _ hj (by omega)) (not_lt.2 h)

theorem trendEntry_eq {b : ℕ} (knot : Fin (b + 1) → K) (hk : Monotone knot) (x : K) (j : Fin (b + 1)) :
    trendEntry knot x (((List.ofFn knot).countP (fun c => decide (c ≤ x)) : ℤ) - 1) j.succ = seg knot j x := by
  set r := ((List.ofFn knot).countP (fun c => decide (c ≤ x)) : ℤ) - 1 with hr
  have hle := fun j => countP_ofFn_le knot hk x j
  have hmax : r ≤ b := by
    have := List.countP_le_length (p := fun c => decide (c ≤ x)) (l := List.ofFn knot)
    rw [List.length_ofFn] at this
    omega
  unfold trendEntry
  simp only [Fin.cases_succ]
  unfold seg
  by_cases h1 : x < knot j
  · rw [if_pos h1]
    have : ¬ (j.val : ℤ) ≤ r := fun hc => absurd ((hle j).1 hc) (not_le.2 h1)
    rw [if_neg (by omega), dif_neg (by omega)]
  · rw [if_neg h1]
    have hj : (j.val : ℤ) ≤ r := (hle j).2 (not_lt.1 h1)
    by_cases h2 : j.val + 1 < b + 1
    · rw [dif_pos h2]
      have hn := hle ⟨j.val + 1, h2⟩
      by_cases h3 : x < knot ⟨j.val + 1, h2⟩
      · rw [if_pos h3]
        have : ¬ ((j.val + 1 : ℕ) : ℤ) ≤ r := fun hc => absurd (hn.1 hc) (not_le.2 h3)
        rw [if_pos (by push_cast at this; omega)]
      · rw [if_neg h3]
        have : ((j.val + 1 : ℕ) : ℤ) ≤ r := hn.2 (not_lt.1 h3)
        push_cast at this
        rw [if_neg (by omega), dif_pos ⟨by omega, h2⟩]
    · rw [dif_neg h2]
      have := j.isLt
      rw [if_pos (by omega)]

theorem trends_apply {n b : ℕ} (x : Fin (n + 1) → K) (hx : Monotone x) (breaks : Fin b → K)
    (hk : Monotone (Fin.cons (x 0) breaks : Fin (b + 1) → K)) (a : Fin (b + 2) → K) (i : Fin (n + 1)) :
    (trends x breaks *ᵥ a) i = lineOf (Fin.cons (x 0) breaks : Fin (b + 1) → K) a (x i) := by
  set knot : Fin (b + 1) → K := Fin.cons (x 0) breaks with hknot
  have hsort : (List.ofFn x).insertionSort (· ≤ ·) = List.ofFn x := by
    apply List.Pairwise.insertionSort_eq
    rw [List.pairwise_ofFn]; intro i k hik; exact hx hik.le
  have hptr : (sorter (List.ofFn knot) (List.ofFn x)).getD i.val 0 =
      ((List.ofFn knot).countP (fun c => decide (c ≤ x i)) : ℤ) - 1 := by
    rw [Props.sorter_counts_boundaries, hsort]
    simp [-List.ofFn_succ, List.getD_eq_getElem?_getD]
    rw [if_pos (by omega)]; rfl
  unfold trends
  simp only [mulVec, dotProduct, Matrix.of_apply]
  rw [Fin.sum_univ_succ]
  unfold lineOf
  congr 1
  · simp [trendEntry]
  · refine Finset.sum_congr rfl fun j _ => ?_
    rw [← hknot, hptr, trendEntry_eq knot hk, mul_comm]

/-! ## Normal equations -/

theorem normal_orthogonal {n m : ℕ} (E : Matrix (Fin n) (Fin m) K) (w y : Fin n → K) (hdet : (Eᵀ * diagonal w * E).det ≠ 0) (c : Fin m → K) :
    ∑ i, w i * (y i - (E *ᵥ (((Eᵀ * diagonal w * E)⁻¹ * Eᵀ * diagonal w) *ᵥ y)) i) * (E *ᵥ c) i = 0 := by
  set a := ((Eᵀ * diagonal w * E)⁻¹ * Eᵀ * diagonal w) *ᵥ y with ha
  have h : (Eᵀ * diagonal w * E) *ᵥ a = (Eᵀ * diagonal w) *ᵥ y := by
    rw [ha, mulVec_mulVec, Matrix.mul_assoc _ Eᵀ, ← Matrix.mul_assoc, Matrix.mul_nonsing_inv _ (Ne.isUnit hdet), Matrix.one_mul]
  have h2 : c ⬝ᵥ ((Eᵀ * diagonal w) *ᵥ (y - E *ᵥ a)) = 0 := by
    rw [mulVec_sub, mulVec_mulVec, h, sub_self, dotProduct_zero]
  rw [← mulVec_mulVec, dotProduct_mulVec, ← mulVec_transpose, transpose_transpose] at h2
  rw [← h2]
  simp only [dotProduct, mulVec_diagonal, Pi.sub_apply]
  exact Finset.sum_congr rfl fun i _ => by ring

theorem normal_minimal {n m : ℕ} (E : Matrix (Fin n) (Fin m) K) (w y : Fin n → K) (hw : ∀ i, 0 ≤ w i)
    (hdet : (Eᵀ * diagonal w * E).det ≠ 0) (c : Fin m → K) :
    ∑ i, w i * (y i - (E *ᵥ (((Eᵀ * diagonal w * E)⁻¹ * Eᵀ * diagonal w) *ᵥ y)) i) ^ 2 ≤ ∑ i, w i * (y i - (E *ᵥ c) i) ^ 2 := by
  set a := ((Eᵀ * diagonal w * E)⁻¹ * Eᵀ * diagonal w) *ᵥ y with ha
  have h0 := normal_orthogonal E w y hdet (a - c)
  rw [← ha] at h0
  have e : ∑ i, w i * (y i - (E *ᵥ c) i) ^ 2 = ∑ i, w i * (y i - (E *ᵥ a) i) ^ 2 +
      2 * ∑ i, w i * (y i - (E *ᵥ a) i) * (E *ᵥ (a - c)) i + ∑ i, w i * ((E *ᵥ (a - c)) i) ^ 2 := by
    rw [Finset.mul_sum, ← Finset.sum_add_distrib, ← Finset.sum_add_distrib]
    refine Finset.sum_congr rfl fun i _ => ?_
    rw [mulVec_sub, Pi.sub_apply]; ring
  rw [e, h0]
  have : 0 ≤ ∑ i, w i * ((E *ᵥ (a - c)) i) ^ 2 := Finset.sum_nonneg fun i _ => mul_nonneg (hw i) (sq_nonneg _)
  linarith

theorem normal_exact {n m : ℕ} (E : Matrix (Fin n) (Fin m) K) (w : Fin n → K) (hdet : (Eᵀ * diagonal w * E).det ≠ 0) (a : Fin m → K) :
    ((Eᵀ * diagonal w * E)⁻¹ * Eᵀ * diagonal w) *ᵥ (E *ᵥ a) = a := by
  rw [mulVec_mulVec, Matrix.mul_assoc, Matrix.mul_assoc, ← Matrix.mul_assoc Eᵀ, Matrix.nonsing_inv_mul _ (Ne.isUnit hdet), one_mulVec]

theorem quad_eq {n m : ℕ} (E : Matrix (Fin n) (Fin m) K) (w : Fin n → K) (v : Fin m → K) :
    v ⬝ᵥ ((Eᵀ * diagonal w * E) *ᵥ v) = ∑ i, w i * ((E *ᵥ v) i) ^ 2 := by
  rw [← mulVec_mulVec, ← mulVec_mulVec, dotProduct_mulVec, ← mulVec_transpose, transpose_transpose]
  simp only [dotProduct, mulVec_diagonal]
  exact Finset.sum_congr rfl fun i _ => by ring

/-- The normal matrix is singular exactly if some non-zero coefficients give zero at all points of non-zero weight. -/
theorem normal_singular_iff {n m : ℕ} (E : Matrix (Fin n) (Fin m) K) (w : Fin n → K) (hw : ∀ i, 0 ≤ w i) :
    (Eᵀ * diagonal w * E).det = 0 ↔ ∃ v : Fin m → K, v ≠ 0 ∧ ∀ i, w i ≠ 0 → (E *ᵥ v) i = 0 := by
  rw [← Matrix.exists_mulVec_eq_zero_iff]
  constructor
  · rintro ⟨v, hv, h⟩
    refine ⟨v, hv, fun i hi => ?_⟩
    have hq := quad_eq E w v
    rw [h, dotProduct_zero] at hq
    have := (Finset.sum_eq_zero_iff_of_nonneg (fun i _ => mul_nonneg (hw i) (sq_nonneg ((E *ᵥ v) i)))).1 hq.symm i (Finset.mem_univ i)
    rcases mul_eq_zero.1 this with h1 | h1
    · exact absurd h1 hi
    · exact pow_eq_zero_iff (by norm_num) |>.1 h1
  · rintro ⟨v, hv, h⟩
    refine ⟨v, hv, ?_⟩
    rw [← mulVec_mulVec, ← mulVec_mulVec]
    have : diagonal w *ᵥ (E *ᵥ v) = 0 := by
      ext i
      rw [mulVec_diagonal]
      by_cases hi : w i = 0
      · simp [hi]
      · rw [h i hi]; simp
    rw [this, mulVec_zero]

end Verif.BreakFit
