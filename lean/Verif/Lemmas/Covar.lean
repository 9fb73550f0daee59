import Verif.Spec.Stats
import Verif.Lemmas.Kernels
import Verif.Props.Utilities

/-!
# Lemmas about the covariance functions
-/

set_option linter.unusedSectionVars false

namespace Verif.Stats

open Verif.Np Verif.Spec Verif.Utilities

theorem potentialVorticity_eq (lat z : ℝ) : potentialVorticity lat z = vorticity lat z := by
  unfold potentialVorticity vorticity
  simp only [one_mul]

theorem vorticity_ne_zero (lat z : ℝ) : vorticity lat z ≠ 0 := by
  rw [← potentialVorticity_eq]; exact Props.potential_vorticity_ne_zero lat z

theorem pvSq_eq (a b phi : ℝ) : ((a - b) / Real.sqrt (a ^ 2 + b ^ 2) / phi) ^ 2 = pvSq phi a b := by
  unfold pvSq
  rw [div_pow, div_pow, Real.sq_sqrt (by positivity)]

theorem pvSq_nonneg (phi a b : ℝ) : 0 ≤ pvSq phi a b := by unfold pvSq; positivity

theorem pvSq_symm (phi a b : ℝ) : pvSq phi a b = pvSq phi b a := by
  unfold pvSq
  rw [add_comm (a ^ 2), show (a - b) ^ 2 = (b - a) ^ 2 by ring]

theorem pvSq_self (phi a : ℝ) : pvSq phi a a = 0 := by unfold pvSq; simp

theorem scaledSq_nonneg (s1 s2 s3 : ℝ) (p q : Pos) : 0 ≤ scaledSq s1 s2 s3 p q := by
  unfold scaledSq; split_ifs <;> positivity

theorem scaledSq_symm (s1 s2 s3 : ℝ) (p q : Pos) : scaledSq s1 s2 s3 p q = scaledSq s1 s2 s3 q p := by
  unfold scaledSq
  rw [show (p.c0 - q.c0) ^ 2 = (q.c0 - p.c0) ^ 2 by ring, show (p.c1 - q.c1) ^ 2 = (q.c1 - p.c1) ^ 2 by ring,
    show (p.c2 - q.c2) ^ 2 = (q.c2 - p.c2) ^ 2 by ring]

theorem scaledSq_self (s1 s2 s3 : ℝ) (p : Pos) : scaledSq s1 s2 s3 p p = 0 := by unfold scaledSq; simp

theorem covarEntry_eq (S : Scales) (p q : Pos) :
    covarEntry S p q = Real.exp (-(scaledSq S.long S.lat S.age p q +
      if S.pvUse = 1 then pvSq S.phi (vorticity p.c0 p.c3) (vorticity q.c0 q.c3) else 0)) := by
  unfold covarEntry scaledSq pvTerm
  simp only [pvSq_eq, potentialVorticity_eq]
  congr 2
  simp only [div_pow]
  by_cases h : S.age = 0
  · simp [h]; ring
  · simp [h]; ring

theorem covarXytPv_ok {m n : ℕ} {p1 : Fin m → Pos} {p2 : Fin n → Pos} {S : Scales} {M : Matrix (Fin m) (Fin n) ℝ}
    (h : covarXytPv p1 p2 S = .ok M) : M = Matrix.of fun i j => covarEntry S (p1 i) (p2 j) := by
  unfold covarXytPv at h
  split_ifs at h
  exact (Except.ok.inj h).symm

theorem covarEntry_psd {n : ℕ} (S : Scales) (p : Fin n → Pos) :
    (Matrix.of fun i j => covarEntry S (p i) (p j)).PosSemidef := by
  have h1 := Kernels.gaussian fun i => (p i).c0 / S.long
  have h2 := Kernels.gaussian fun i => (p i).c1 / S.lat
  have h3 := Kernels.gaussian fun i => if S.age = 0 then 0 else (p i).c2 / S.age
  have h4 : (Matrix.of fun i j => Real.exp (-(if S.pvUse = 1 then
      pvSq S.phi (vorticity (p i).c0 (p i).c3) (vorticity (p j).c0 (p j).c3) else 0))).PosSemidef := by
    by_cases h : S.pvUse = 1
    · simp only [h, if_true]
      exact Kernels.vorticity (fun i => vorticity (p i).c0 (p i).c3) (fun i => vorticity_ne_zero _ _) S.phi
    · simp only [h, if_false, neg_zero, Real.exp_zero]
      exact Kernels.one
  have h := Kernels.mul (Kernels.mul (Kernels.mul h1 h2) h3) h4
  refine (congrArg Matrix.PosSemidef ?_).mp h
  ext i j
  simp only [Matrix.of_apply]
  rw [covarEntry_eq, ← Real.exp_add, ← Real.exp_add, ← Real.exp_add]
  congr 1
  unfold scaledSq
  by_cases ha : S.age = 0
  · simp only [ha, if_true]
    rw [← sub_div, ← sub_div, div_pow, div_pow]; ring
  · simp only [ha, if_false]
    rw [← sub_div, ← sub_div, ← sub_div, div_pow, div_pow, div_pow]; ring

/-! ## Vertical scales -/

theorem tableInterp_onLine (pre table : List (ℝ × ℝ)) (x y : ℝ) (h : tableInterp table x = some y)
    (hlo : ∀ a ∈ table.head?, a.1 ≤ x) (hsort : (table.map Prod.fst).Pairwise (· < ·)) :
    OnBrokenLine (pre ++ table) x y := by
  induction table generalizing pre with
  | nil => simp [tableInterp] at h
  | cons a t ih =>
    obtain ⟨x0, y0⟩ := a
    cases t with
    | nil => simp [tableInterp] at h
    | cons b t =>
      obtain ⟨x1, y1⟩ := b
      have hlt : x0 < x1 := by simpa using (List.pairwise_cons.1 hsort).1 x1 (by simp)
      unfold tableInterp at h
      by_cases hx : x ≤ x1
      · rw [if_pos hx] at h
        have h' := Option.some.inj h
        refine ⟨pre.length, x0, y0, x1, y1, by simp, by simp, hlo (x0, y0) (by simp), hx, ?_⟩
        rw [← h']
        have : x1 - x0 ≠ 0 := by linarith
        field_simp
        ring
      · rw [if_neg hx] at h
        have := ih (pre ++ [(x0, y0)]) h (by intro a ha; simp at ha; rw [← ha]; push Not at hx; exact hx.le)
          (List.pairwise_cons.1 hsort).2
        simpa using this

theorem tableInterp_isSome (table : List (ℝ × ℝ)) (x : ℝ) (h2 : 2 ≤ table.length)
    (hhi : ∀ a ∈ table.getLast?, x ≤ a.1) : ∃ y, tableInterp table x = some y := by
  induction table with
  | nil => simp at h2
  | cons a t ih =>
    obtain ⟨x0, y0⟩ := a
    cases t with
    | nil => simp at h2
    | cons b t =>
      obtain ⟨x1, y1⟩ := b
      unfold tableInterp
      by_cases hx : x ≤ x1
      · rw [if_pos hx]; exact ⟨_, rfl⟩
      · rw [if_neg hx]
        refine ih ?_ (by simpa using hhi)
        cases t with
        | nil => exact absurd (hhi (x1, y1) (by simp)) hx
        | cons c t => simp

theorem onLine_bounds (table : List (ℝ × ℝ)) (x y lo hi : ℝ) (h : OnBrokenLine table x y)
    (hb : ∀ a ∈ table, lo ≤ a.2 ∧ a.2 ≤ hi) (hsort : (table.map Prod.fst).Pairwise (· < ·)) : lo ≤ y ∧ y ≤ hi := by
  obtain ⟨k, x0, y0, x1, y1, h0, h1, hx0, hx1, he⟩ := h
  obtain ⟨a1, a2⟩ := hb _ (List.mem_of_getElem? h0)
  obtain ⟨b1, b2⟩ := hb _ (List.mem_of_getElem? h1)
  simp only at a1 a2 b1 b2
  have hlt : x0 < x1 := by
    obtain ⟨g0, e0⟩ := List.getElem?_eq_some_iff.1 h0
    obtain ⟨g1, e1⟩ := List.getElem?_eq_some_iff.1 h1
    have := List.pairwise_iff_getElem.1 hsort k (k + 1) (by simpa using g0) (by simpa using g1) (by omega)
    simpa [e0, e1] using this
  have hd : 0 < x1 - x0 := by linarith
  constructor
  · by_contra hc
    push Not at hc
    have : (x1 - x0) * (y - y0) < (x1 - x0) * (lo - y0) := by
      apply mul_lt_mul_of_pos_left _ hd; linarith
    have e2 : (y1 - y0) * (x - x0) ≥ (lo - y0) * (x - x0) := by
      apply mul_le_mul_of_nonneg_right _ (by linarith); linarith
    nlinarith
  · by_contra hc
    push Not at hc
    have : (x1 - x0) * (y - y0) > (x1 - x0) * (hi - y0) := by
      apply mul_lt_mul_of_pos_left _ hd; linarith
    have e2 : (y1 - y0) * (x - x0) ≤ (hi - y0) * (x - x0) := by
      apply mul_le_mul_of_nonneg_right _ (by linarith); linarith
    nlinarith

theorem sorted_down : (downScales.map Prod.fst).Pairwise (· < ·) := by
  simp only [downScales, List.map, List.pairwise_cons, List.mem_cons, List.not_mem_nil, or_false, forall_eq_or_imp, forall_eq]
  norm_num

theorem sorted_up : (upScales.map Prod.fst).Pairwise (· < ·) := by
  simp only [upScales, List.map, List.pairwise_cons, List.mem_cons, List.not_mem_nil, or_false, forall_eq_or_imp, forall_eq]
  norm_num

theorem bounds_down : ∀ a ∈ downScales, 1 ≤ a.2 ∧ a.2 ≤ 6 := by
  simp only [downScales, List.mem_cons, List.not_mem_nil, or_false, forall_eq_or_imp, forall_eq]; norm_num

theorem bounds_up : ∀ a ∈ upScales, 1 ≤ a.2 ∧ a.2 ≤ 6 := by
  simp only [upScales, List.mem_cons, List.not_mem_nil, or_false, forall_eq_or_imp, forall_eq]; norm_num

theorem interp_down (x : ℝ) (h1 : -2 ≤ x) (h2 : x ≤ 30) :
    ∃ s, tableInterp scaleDown x = some s ∧ OnBrokenLine downScales x s ∧ 1 ≤ s ∧ s ≤ 6 := by
  obtain ⟨s, hs⟩ := tableInterp_isSome scaleDown x (by simp [scaleDown]) (by simpa [scaleDown] using h2)
  have hl := tableInterp_onLine [] scaleDown x s hs (by simpa [scaleDown] using h1) sorted_down
  exact ⟨s, hs, hl, onLine_bounds _ x s 1 6 hl bounds_down sorted_down⟩

theorem interp_up (x : ℝ) (h1 : -2 ≤ x) (h2 : x ≤ 30) :
    ∃ s, tableInterp scaleUp x = some s ∧ OnBrokenLine upScales x s ∧ 1 ≤ s ∧ s ≤ 6 := by
  obtain ⟨s, hs⟩ := tableInterp_isSome scaleUp x (by simp [scaleUp]) (by simpa [scaleUp] using h2)
  have hl := tableInterp_onLine [] scaleUp x s hs (by simpa [scaleUp] using h1) sorted_up
  exact ⟨s, hs, hl, onLine_bounds _ x s 1 6 hl bounds_up sorted_up⟩

end Verif.Stats
