import Verif.Lemmas.Stations
import Verif.Spec.FitErrors
import Verif.Props.FitOrder

/-!
# C74, C124: the mean and the scatter of a profile
-/

set_option linter.unusedSectionVars false

namespace Verif.Props

open Verif.Np Verif.Spec Verif.BreakFit Verif.FitCond Verif.Lemmas Matrix

section

variable {n m : ℕ} (xfit : Fin (m + 1) → ℝ) (x y err : Fin (n + 1) → ℝ) (hx : Monotone x) (he : ∀ i, 0 < err i)
  (cov : Matrix (Fin (n + 1)) (Fin (n + 1)) ℝ) (args : List Arg) (opt : Externals)


include hx he

/-- C124. The mean and the scatter reported for a profile are those of the observations in its window: the first observation of the profile and all but
the first of the previous profile; NaN for a profile without good observations. -/
theorem fit_station_window (fit : Fit m) (hfit : fitCore xfit x y err cov args opt = .ok fit) (i : Fin (m + 1)) :
    ((∀ j, x j ≠ xfit i) → fit.staMean i = none ∧ fit.staRms i = none) ∧
    ((∃ j, x j = xfit i) → fit.staMean i = some (meanOver (stationWindow x (xfit i)) y err) ∧
      fit.staRms i = some (rmsOver (stationWindow x (xfit i)) y err)) := by
  obtain ⟨loops, f, rfl⟩ := fitCore_finish xfit x y err cov args opt fit hfit
  have hs := xScale_pos x hx
  have hys := yScale_pos y
  have e1 : ∀ a b : ℝ, (a - xCentre x) / xScale x = (b - xCentre x) / xScale x ↔ a = b := fun a b => by
    rw [div_left_inj' hs.ne', sub_left_inj]
  show (_ → (staMean (scaled x y err) ((xfit i - xCentre x) / xScale x)).map (fun v => v * yScale y + mean y) = none ∧
      (staRms (scaled x y err) ((xfit i - xCentre x) / xScale x)).map (fun v => v * yScale y) = none) ∧
    (_ → (staMean (scaled x y err) ((xfit i - xCentre x) / xScale x)).map (fun v => v * yScale y + mean y) = _ ∧
      (staRms (scaled x y err) ((xfit i - xCentre x) / xScale x)).map (fun v => v * yScale y) = _)
  have hmem : (xfit i - xCentre x) / xScale x ∈ uniqueReal (List.ofFn (scaled x y err).xf) ↔ ∃ j, x j = xfit i := by
    rw [uniqueReal_mem, List.mem_ofFn]
    exact exists_congr fun j => e1 _ _
  constructor
  · intro h
    have hn : ¬ ∃ j, x j = xfit i := by push Not; exact h
    unfold staRms staMean
    rw [if_neg (by rw [hmem]; exact hn)]
    exact ⟨rfl, rfl⟩
  · intro h
    obtain ⟨j0, hj0⟩ := h
    unfold staRms staMean
    rw [if_pos (by rw [hmem]; exact ⟨j0, hj0⟩), staWindow_eq (scaled x y err) (xf_mono x y err hx) _ j0 ((e1 _ _).2 hj0), scaled_window x y err hx]
    set S := stationWindow x (xfit i) with hS
    have hne : S.Nonempty := stationWindow_nonempty x (xfit i) j0 hj0
    obtain ⟨c, hc, hw⟩ := scaled_w_eq x y err he
    have hpos : 0 < ∑ i ∈ S, 1 / err i ^ 2 := Finset.sum_pos (fun i _ => by have := he i; positivity) hne
    have hsum : ∑ i ∈ S, (scaled x y err).w i = c * ∑ i ∈ S, 1 / err i ^ 2 := by
      rw [Finset.mul_sum]; exact Finset.sum_congr rfl fun i _ => hw i
    have hnum : ∑ i ∈ S, (scaled x y err).w i * (scaled x y err).yf i =
        c / yScale y * (∑ i ∈ S, y i / err i ^ 2 - mean y * ∑ i ∈ S, 1 / err i ^ 2) := by
      rw [Finset.mul_sum, ← Finset.sum_sub_distrib, Finset.mul_sum]
      refine Finset.sum_congr rfl fun i _ => ?_
      rw [hw i]
      show c * (1 / err i ^ 2) * ((y i - mean y) / yScale y) = _
      have := (he i).ne'
      field_simp
    have ha : (∑ i ∈ S, (scaled x y err).w i * (scaled x y err).yf i) / ∑ i ∈ S, (scaled x y err).w i =
        (meanOver S y err - mean y) / yScale y := by
      rw [hnum, hsum, meanOver]
      field_simp
    rw [ha]
    refine ⟨?_, ?_⟩
    · simp only [Option.map_some]
      congr 1
      field_simp
      ring
    · simp only [Option.map_some]
      congr 1
      have hr : ∑ i ∈ S, (scaled x y err).w i * ((meanOver S y err - mean y) / yScale y - (scaled x y err).yf i) ^ 2 =
          c / yScale y ^ 2 * ∑ i ∈ S, (y i - meanOver S y err) ^ 2 / err i ^ 2 := by
        rw [Finset.mul_sum]
        refine Finset.sum_congr rfl fun i _ => ?_
        rw [hw i]
        show c * (1 / err i ^ 2) * ((meanOver S y err - mean y) / yScale y - (y i - mean y) / yScale y) ^ 2 = _
        have := (he i).ne'
        field_simp
        ring
      rw [hr, hsum, rmsOver]
      have e : c / yScale y ^ 2 * (∑ i ∈ S, (y i - meanOver S y err) ^ 2 / err i ^ 2) / (c * ∑ i ∈ S, 1 / err i ^ 2) =
          (∑ i ∈ S, (y i - meanOver S y err) ^ 2 / err i ^ 2) / (∑ i ∈ S, 1 / err i ^ 2) / yScale y ^ 2 := by
        field_simp
      rw [e, Real.sqrt_div (div_nonneg (Finset.sum_nonneg fun i _ => by positivity) hpos.le), Real.sqrt_sq hys.le]
      field_simp

/-- C124. The mean reported for a profile is never outside the range of the observed values, the scatter is not negative and not more than the range. -/
theorem fit_station_bounds (fit : Fit m) (hfit : fitCore xfit x y err cov args opt = .ok fit) (i : Fin (m + 1)) (lo hi : ℝ)
    (hlo : ∀ j, lo ≤ y j) (hhi : ∀ j, y j ≤ hi) :
    (∀ v, fit.staMean i = some v → lo ≤ v ∧ v ≤ hi) ∧ ∀ v, fit.staRms i = some v → 0 ≤ v ∧ v ≤ hi - lo := by
  obtain ⟨h1, h2⟩ := fit_station_window xfit x y err hx he cov args opt fit hfit i
  by_cases h : ∃ j, x j = xfit i
  · obtain ⟨e1, e2⟩ := h2 h
    obtain ⟨j0, hj0⟩ := h
    set S := stationWindow x (xfit i) with hS
    have hne : S.Nonempty := stationWindow_nonempty x (xfit i) j0 hj0
    have hp : ∀ j, 0 < 1 / err j ^ 2 := fun j => by have := he j; positivity
    have hpos : 0 < ∑ i ∈ S, 1 / err i ^ 2 := Finset.sum_pos (fun i _ => hp i) hne
    have hb : lo ≤ meanOver S y err ∧ meanOver S y err ≤ hi := by
      unfold meanOver
      rw [le_div_iff₀ hpos, div_le_iff₀ hpos, Finset.mul_sum, Finset.mul_sum]
      constructor <;> refine Finset.sum_le_sum fun j _ => ?_
      · rw [div_eq_mul_one_div (y j)]; exact mul_le_mul_of_nonneg_right (hlo j) (hp j).le
      · rw [div_eq_mul_one_div (y j)]; exact mul_le_mul_of_nonneg_right (hhi j) (hp j).le
    refine ⟨fun v hv => ?_, fun v hv => ?_⟩
    · rw [e1] at hv; rw [← Option.some.inj hv]; exact hb
    · rw [e2] at hv
      rw [← Option.some.inj hv]
      refine ⟨Real.sqrt_nonneg _, ?_⟩
      unfold rmsOver
      rw [Real.sqrt_le_left (by linarith [hlo j0, hhi j0]), div_le_iff₀ hpos, Finset.mul_sum]
      refine Finset.sum_le_sum fun j _ => ?_
      rw [div_eq_mul_one_div ((y j - _) ^ 2)]
      refine mul_le_mul_of_nonneg_right ?_ (hp j).le
      have := hlo j
      have := hhi j
      exact sq_le_sq' (by linarith [hb.1, hb.2]) (by linarith [hb.1, hb.2])
  · obtain ⟨e1, e2⟩ := h1 (by push Not at h; exact h)
    rw [e1, e2]
    exact ⟨(fun v hv => by cases hv), (fun v hv => by cases hv)⟩

omit hx in
/-- C74, partial: with one observation per profile the profile mean is that observation. -/
theorem fit_profile_mean_partial (hx : StrictMono x) (fit : Fit m) (hfit : fitCore xfit x y err cov args opt = .ok fit) (i : Fin (m + 1)) (j : Fin (n + 1))
    (h : xfit i = x j) : fit.staMean i = some (y j) := by
  obtain ⟨loops, f, rfl⟩ := fitCore_finish xfit x y err cov args opt fit hfit
  exact finish_profile_mean xfit x y err hx he cov loops opt f i j h

end

/-- C74 is false: two profiles with the values 0, 0 and 1, 1 and equal errors get the means 0 and 1/2. -/
theorem fit_profile_mean_wrong (opt : Externals) :
    ∃ fit, fitCore (![1, 2] : Fin 2 → ℝ) (![1, 1, 2, 2] : Fin 4 → ℝ) ![0, 0, 1, 1] (fun _ => 1) 1 [.str "max_no_breaks", .int (-1)] opt = .ok fit ∧
      fit.staMean 1 = some (1 / 2) := by
  obtain ⟨fit, h, -⟩ := fit_offset_when_few (![1, 2] : Fin 2 → ℝ) (![1, 1, 2, 2] : Fin 4 → ℝ) ![0, 0, 1, 1] (fun _ => 1) (fun _ => one_pos) 1
    isCorrelation_one opt (-1) (by norm_num) (Or.inl rfl)
  refine ⟨fit, h, ?_⟩
  obtain ⟨loops, f, rfl⟩ := fitCore_finish _ _ _ _ _ _ opt fit h
  exact finish_profile_mean_wrong loops opt f

/-- Two profiles with two observations each: the hypotheses of C124 are met; the window of the second has the second observation of the first profile and
the first of its own. -/
example (opt : Externals) : ∃ fit, fitCore (![1, 2] : Fin 2 → ℝ) (![1, 1, 2, 2] : Fin 4 → ℝ) ![0, 0, 1, 1] (fun _ => 1) 1 [.str "max_no_breaks", .int (-1)] opt = .ok fit ∧
    Monotone (![1, 1, 2, 2] : Fin 4 → ℝ) ∧ stationWindow (![1, 1, 2, 2] : Fin 4 → ℝ) 2 = {1, 2} := by
  obtain ⟨fit, h, -⟩ := fit_offset_when_few (![1, 2] : Fin 2 → ℝ) (![1, 1, 2, 2] : Fin 4 → ℝ) ![0, 0, 1, 1] (fun _ => 1) (fun _ => one_pos) 1
    isCorrelation_one opt (-1) (by norm_num) (Or.inl rfl)
  refine ⟨fit, h, ?_, ?_⟩
  · intro i j hij
    fin_cases i <;> fin_cases j <;> simp_all
  · ext j
    unfold stationWindow
    simp only [Finset.mem_filter, Finset.mem_univ, true_and, Finset.mem_insert, Finset.mem_singleton]
    fin_cases j <;> simp [Fin.forall_fin_succ, Fin.exists_fin_succ]

end Verif.Props
