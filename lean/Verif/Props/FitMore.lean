import Verif.Props.FitExact

/-!
# More properties of `fit_cond`: units, order of the data, profile means, errors, free break points
-/

set_option linter.unusedSectionVars false

namespace Verif.Props

open Verif.Np Verif.Spec Verif.BreakFit Verif.FitCond Matrix

/-! ## Change of units -/

theorem mean_affine {n : ℕ} (y : Fin (n + 1) → ℝ) (α β : ℝ) : mean (fun i => α * y i + β) = α * mean y + β := by
  unfold mean
  rw [Finset.sum_add_distrib, ← Finset.mul_sum]
  simp
  field_simp

theorem std_affine {n : ℕ} (y : Fin (n + 1) → ℝ) (α β : ℝ) (hα : 0 < α) : std (fun i => α * y i + β) = α * std y := by
  unfold std
  rw [mean_affine]
  have : (fun i => (α * y i + β - (α * mean y + β)) ^ 2) = fun i => α ^ 2 * (y i - mean y) ^ 2 + 0 := by
    funext i; ring
  rw [this, mean_affine, add_zero, Real.sqrt_mul (by positivity), Real.sqrt_sq hα.le]

theorem yScale_affine {n : ℕ} (y : Fin (n + 1) → ℝ) (α β : ℝ) (hα : 0 < α) (hs : std y ≠ 0) :
    yScale (fun i => α * y i + β) = α * yScale y := by
  unfold yScale
  rw [std_affine y α β hα, if_neg hs, if_neg (mul_ne_zero hα.ne' hs)]

theorem scaled_affine {n : ℕ} (x y err : Fin (n + 1) → ℝ) (α β : ℝ) (hα : 0 < α) (hs : std y ≠ 0) :
    scaled x (fun i => α * y i + β) (fun i => α * err i) = scaled x y err := by
  have e1 : (fun i => (α * err i / yScale (fun i => α * y i + β)) ^ 2) = fun i => (err i / yScale y) ^ 2 := by
    funext i
    rw [yScale_affine y α β hα hs, mul_div_mul_left _ _ hα.ne']
  have e2 : (fun i => (α * y i + β - mean (fun i => α * y i + β)) / yScale (fun i => α * y i + β)) =
      fun i => (y i - mean y) / yScale y := by
    funext i
    rw [yScale_affine y α β hα hs, mean_affine, show α * y i + β - (α * mean y + β) = α * (y i - mean y) by ring,
      mul_div_mul_left _ _ hα.ne']
  have e3 := fun i => congrFun e1 i
  have e4 : (fun i => α * err i / yScale (fun i => α * y i + β)) = fun i => err i / yScale y := by
    funext i
    rw [yScale_affine y α β hα hs, mul_div_mul_left _ _ hα.ne']
  unfold scaled
  simp only [e1, e2, e3, e4]

/-- The data are all equal exactly if their standard deviation is 0. -/
theorem std_eq_zero {n : ℕ} (y : Fin (n + 1) → ℝ) : std y = 0 ↔ ∀ i j, y i = y j := by
  unfold std
  have hnn : 0 ≤ mean fun i => (y i - mean y) ^ 2 := by
    unfold mean; exact div_nonneg (Finset.sum_nonneg fun i _ => sq_nonneg _) (by positivity)
  rw [Real.sqrt_eq_zero hnn]
  constructor
  · intro h
    have h' : ∑ i, (y i - mean y) ^ 2 = 0 := by
      have hp : ((n : ℝ) + 1) ≠ 0 := by positivity
      unfold mean at h ⊢
      rcases div_eq_zero_iff.1 h with h | h
      · exact h
      · exact absurd h hp
    have h2 := (Finset.sum_eq_zero_iff_of_nonneg (fun i _ => sq_nonneg _)).1 h'
    have h3 : ∀ i, y i = mean y := fun i => by
      have := pow_eq_zero_iff (by norm_num) |>.1 (h2 i (Finset.mem_univ i)); linarith
    intro i j; rw [h3 i, h3 j]
  · intro h
    have hm : mean y = y 0 := by
      unfold mean
      rw [Finset.sum_congr rfl (fun i _ => h i 0)]
      simp; field_simp
    unfold mean at hm ⊢
    rw [Finset.sum_eq_zero, zero_div]
    intro i _
    rw [hm, h i 0]; ring

/-- The result in other units. -/
noncomputable def rescaleFit {m : ℕ} (α β : ℝ) (fit : Fit m) : Fit m :=
  { xfit := fit.xfit
    condslope := fun i => α * fit.condslope i + β
    condslopeErr := fun i => (fit.condslopeErr i).map fun e => α * e
    timeDeriv := fun i => (fit.timeDeriv i).map fun v => α * v
    timeDerivErr := fun i => (fit.timeDerivErr i).map fun v => α * v
    staMean := fun i => (fit.staMean i).map fun v => α * v + β
    staRms := fun i => (fit.staRms i).map fun v => α * v
    ndf := fit.ndf
    coef := match fit.coef with
      | [] => []
      | a :: l => (α * a + β) :: l.map fun v => α * v
    breaks := fit.breaks }

theorem finish_affine {n m : ℕ} (xfit : Fin (m + 1) → ℝ) (x y : Fin (n + 1) → ℝ) (d : Scaled n)
    (cov : Matrix (Fin (n + 1)) (Fin (n + 1)) ℝ) (α β : ℝ) (hα : 0 < α) (hs : std y ≠ 0) (loops : ℤ) (opt : Externals) (f : Fitted) :
    finish loops opt x (fun i => α * y i + β) d cov xfit f = rescaleFit α β (finish loops opt x y d cov xfit f) := by
  have h1 := yScale_affine y α β hα hs
  have h2 := mean_affine y α β
  unfold finish rescaleFit
  rw [h1, h2]
  simp only [Fit.mk.injEq, true_and, and_true]
  refine ⟨?_, ?_, ?_, ?_, ?_, ?_, ?_⟩
  · funext i; ring
  · cases f with
    | offset a r =>
      funext i
      simp only [Option.map_map]
      congr 1; funext v; simp only [Function.comp_apply]; ring
    | line b br co r =>
      funext i
      simp only [Option.map_map]
      congr 1; funext v; simp only [Function.comp_apply]; ring
  · cases f with
    | offset a r => simp
    | line b br co r =>
      cases b with
      | zero => funext i; simp; ring
      | succ b =>
        funext i
        simp only
        split_ifs
        · simp only [Option.map_some]; congr 1; ring
        · rfl
  · cases f with
    | offset a r => rfl
    | line b br co r =>
      cases b with
      | zero => funext i; simp; ring
      | succ b =>
        funext i
        simp only
        split_ifs
        · simp only [Option.map_some]; congr 1; ring
        · rfl
  · funext i
    cases staMean d ((xfit i - xCentre x) / xScale x) with
    | none => rfl
    | some v => simp only [Option.map_some]; congr 1; ring
  · funext i
    simp only [Option.map_map]
    congr 1; funext v; simp only [Function.comp_apply]; ring
  · cases f with
    | offset a r => simp; ring
    | line b br co r =>
      simp only [List.map_ofFn]
      congr 1
      · ring
      · congr 1; funext j; simp; ring

/-- C72. `fit_cond` does not depend on the unit and zero of the values: if all (not all equal) values are transformed by `v ↦ α v + β`
with `α > 0` and all errors by `e ↦ α e`, the fit is transformed accordingly, for every choice of options and of the optimiser. -/
theorem fit_affine {n m : ℕ} (xfit : Fin (m + 1) → ℝ) (x y err : Fin (n + 1) → ℝ) (cov : Matrix (Fin (n + 1)) (Fin (n + 1)) ℝ)
    (args : List Arg) (opt : Externals) (α β : ℝ) (hα : 0 < α) (hne : ∃ i j, y i ≠ y j) :
    fitCore xfit x (fun i => α * y i + β) (fun i => α * err i) cov args opt =
      (fitCore xfit x y err cov args opt).map (rescaleFit α β) := by
  have hs : std y ≠ 0 := by
    rw [Ne, std_eq_zero]; push Not; exact hne
  unfold fitCore
  rw [scaled_affine x y err α β hα hs]
  simp only [bind, Except.bind, Except.map, pure, Except.pure]
  cases parseArgs args with
  | error e => rfl
  | ok o0 =>
    simp only
    generalize ({ o0 with breaks := o0.breaks.map fun l => l.map fun v => (v - xCentre x) / xScale x } : Opts) = o
    cases maxBreaks o with
    | error e => rfl
    | ok maxIn =>
      simp only
      by_cases hpf : presetFails (scaled x y err) o maxIn
      · simp only [if_pos hpf]
      simp only [if_neg hpf]
      generalize (List.mapM _ _ : Except PyErr (List Fitted)) = t
      cases t with
      | error e => rfl
      | ok tried =>
        simp only
        generalize chooseModel _ _ _ _ _ = cm
        cases cm with
        | error e => rfl
        | ok f =>
          simp only
          split_ifs with hdet
          · rfl
          · cases f with
            | offset a r => simp only [finish_affine xfit x y _ cov α β hα hs]
            | line b br co r =>
              simp only
              generalize errorLoop _ _ = el
              cases el with
              | error e => rfl
              | ok u => simp only [finish_affine xfit x y _ cov α β hα hs]

/-! ## Errors -/

/-- C73. For uncorrelated data and an offset, the error reported for every profile is the standard error of the weighted mean. -/
theorem fit_offset_error {n m : ℕ} (xfit : Fin (m + 1) → ℝ) (x y err : Fin (n + 1) → ℝ) (he : ∀ i, 0 < err i) (opt : Externals) :
    ∃ fit, fitCore xfit x y err 1 [.str "max_no_breaks", .int (-1)] opt = .ok fit ∧
      ∀ i, fit.condslopeErr i = some (Real.sqrt (1 / ∑ i, 1 / err i ^ 2)) := by
  obtain ⟨cand, f, hcand, h1, h2, h3, h4⟩ := choice xfit x y err he 1 isCorrelation_one (-1) (by norm_num) opt (noneDegenerate_offset _ _ _ _ _)
  have hoff := tryModel_offset (scaled x y err) (scaled_w_sum x y err he).ne' (limits (scaled x y err).xf).1
        (limits (scaled x y err).xf).2 (freeOpts (-1)) (-1) (plan none (-1) (-1) (ndfOf (1 : Matrix (Fin (n + 1)) (Fin (n + 1)) ℝ))) opt
  rw [show nbrOf f = -1 by omega, hcand, hoff] at h2
  have hf := (Except.ok.inj h2).symm
  have hd : normalDet (scaled x y err) f ≠ 0 := by rw [hf]; exact (scaled_w_sum x y err he).ne'
  rw [if_neg hd, hf] at h4
  refine ⟨_, h4, fun _ => ?_⟩
  show (Mapping.npSqrt (offsetVar (scaled x y err) 1)).map (fun v => v * yScale y) = _
  have hys := yScale_pos y
  obtain ⟨c, hcp, hw⟩ := scaled_w_eq x y err he
  have hS : 0 < ∑ i, 1 / err i ^ 2 := Finset.sum_pos (fun i _ => by have := he i; positivity) ⟨0, Finset.mem_univ _⟩
  have hsum : ∑ i, (scaled x y err).w i = c * ∑ i, 1 / err i ^ 2 := by
    rw [Finset.mul_sum]; exact Finset.sum_congr rfl fun i _ => hw i
  have hwv : ∀ i, (scaled x y err).w i * (scaled x y err).errVar i = c / yScale y ^ 2 := fun i => by
    rw [hw i]
    show c * (1 / err i ^ 2) * (err i / yScale y) ^ 2 = _
    have := (he i).ne'
    field_simp
  have hv : offsetVar (scaled x y err) 1 = 1 / (∑ i, 1 / err i ^ 2) / yScale y ^ 2 := by
    unfold offsetVar
    have : ∀ i, ∑ j, (scaled x y err).w i * (scaled x y err).errVar i * (1 : Matrix (Fin (n + 1)) (Fin (n + 1)) ℝ) i j * (scaled x y err).w j =
        c / yScale y ^ 2 * (scaled x y err).w i := fun i => by
      rw [Finset.sum_eq_single i]
      · rw [Matrix.one_apply_eq, hwv]; ring
      · intro j _ hj; rw [Matrix.one_apply_ne hj.symm]; ring
      · intro h; exact absurd (Finset.mem_univ i) h
    simp only [this]
    rw [← Finset.mul_sum, hsum]
    field_simp
  rw [hv, Mapping.npSqrt, if_neg (not_lt.2 (by positivity)), Option.map_some, Real.sqrt_div (by positivity), Real.sqrt_sq hys.le]
  congr 1
  field_simp

/-! ## Profile means -/

theorem idxOf_ofFn {n : ℕ} (f : Fin n → ℝ) (hf : Function.Injective f) (j : Fin n) : (List.ofFn f).idxOf (f j) = j.val := by
  have hl : j.val < (List.ofFn f).length := by simp
  have := List.Nodup.idxOf_getElem (List.nodup_ofFn.2 hf) j.val hl
  rw [List.getElem_ofFn] at this
  exact this

theorem uniqueReal_ofFn {n : ℕ} (f : Fin n → ℝ) (hf : StrictMono f) : uniqueReal (List.ofFn f) = List.ofFn f := by
  unfold uniqueReal
  rw [List.Nodup.dedup (List.nodup_ofFn.2 hf.injective)]
  apply List.Pairwise.insertionSort_eq
  rw [List.pairwise_ofFn]
  exact fun i j h => (hf h).le

/-- With one observation per profile the profile mean is that observation. -/
theorem finish_profile_mean {n m : ℕ} (xfit : Fin (m + 1) → ℝ) (x y err : Fin (n + 1) → ℝ) (hx : StrictMono x) (he : ∀ i, 0 < err i)
    (cov : Matrix (Fin (n + 1)) (Fin (n + 1)) ℝ) (loops : ℤ) (opt : Externals) (f : Fitted) (i : Fin (m + 1)) (j : Fin (n + 1)) (h : xfit i = x j) :
    (finish loops opt x y (scaled x y err) cov xfit f).staMean i = some (y j) := by
  have hxs := xScale_pos x hx.monotone
  have hmono : StrictMono (scaled x y err).xf := fun a b hab => by
    show (x a - xCentre x) / xScale x < (x b - xCentre x) / xScale x
    have := hx hab
    gcongr
  show (staMean (scaled x y err) ((xfit i - xCentre x) / xScale x)).map (fun v => v * yScale y + mean y) = _
  rw [h]
  have hv : (x j - xCentre x) / xScale x = (scaled x y err).xf j := rfl
  rw [hv]
  have hsel : staMean (scaled x y err) ((scaled x y err).xf j) = some ((scaled x y err).yf j) := by
    unfold staMean staWindow
    simp only
    rw [uniqueReal_ofFn _ hmono, if_pos (by rw [List.mem_ofFn]; exact ⟨j, rfl⟩), idxOf_ofFn _ hmono.injective]
    have hfirst : (if j.val = 0 then 0 else (List.ofFn (scaled x y err).xf).idxOf ((List.ofFn (scaled x y err).xf).getD (j.val - 1) 0) + 1) = j.val := by
      split_ifs with h0
      · exact h0.symm
      · have hl : j.val - 1 < n + 1 := by omega
        have e : (List.ofFn (scaled x y err).xf).getD (j.val - 1) 0 = (scaled x y err).xf ⟨j.val - 1, hl⟩ := by
          rw [List.getD_eq_getElem?_getD, List.getElem?_eq_getElem (by simpa using hl), List.getElem_ofFn]; rfl
        rw [e, idxOf_ofFn _ hmono.injective]
        simp only; omega
    rw [hfirst]
    have : (Finset.univ.filter fun i : Fin (n + 1) => j.val ≤ i.val ∧ i.val ≤ j.val) = {j} := by
      ext a
      simp only [Finset.mem_filter, Finset.mem_univ, true_and, Finset.mem_singleton]
      constructor
      · intro h; exact Fin.ext (by omega)
      · rintro rfl; simp
    rw [this, Finset.sum_singleton, Finset.sum_singleton]
    have := (scaled_w_pos x y err he j).ne'
    congr 1
    field_simp
  rw [hsel]
  simp only [Option.map_some]
  congr 1
  show (y j - mean y) / yScale y * yScale y + mean y = y j
  have := (yScale_pos y).ne'
  field_simp
  ring

end Verif.Props
