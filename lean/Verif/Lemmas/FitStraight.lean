import Verif.Props.FitCond
import Verif.Props.FitOrder

/-! # A successful free fit has no break points -/

set_option linter.unusedSectionVars false

namespace Verif.FitCond

open Verif.Np Verif.Spec Verif.BreakFit Verif.Props Matrix

/-- The fitted values of a model without break points. -/
theorem finish_straight {n m : ℕ} (xfit : Fin (m + 1) → ℝ) (hxm : Monotone xfit) (x y err : Fin (n + 1) → ℝ) (hx : Monotone x)
    (cov : Matrix (Fin (n + 1)) (Fin (n + 1)) ℝ) (f : Fitted) (hf : ∀ b br co r, f ≠ .line (b + 1) br co r) :
    (finish 200 opt x y (scaled x y err) cov xfit f).breaks = [] ∧ ∃ a b, ((finish 200 opt x y (scaled x y err) cov xfit f).coef = [a] ∧ b = 0 ∨
        (finish 200 opt x y (scaled x y err) cov xfit f).coef = [a, b]) ∧
      ∀ i, (finish 200 opt x y (scaled x y err) cov xfit f).condslope i = a + b * (xfit i - xfit 0) ∧
        (finish 200 opt x y (scaled x y err) cov xfit f).timeDeriv i = some b := by
  cases f with
  | offset c r => exact ⟨rfl, c * yScale y + mean y, 0, Or.inl ⟨rfl, rfl⟩, fun i => ⟨by simp [finish, yfit], rfl⟩⟩
  | line b br co r =>
    cases b with
    | succ b => exact absurd rfl (hf b br co r)
    | zero =>
      obtain rfl : br = ![] := Subsingleton.elim _ _
      have hs := xScale_pos x hx
      refine ⟨by simp [finish], co 0 * yScale y + mean y, co 1 * yScale y / xScale x, Or.inr (by simp [finish]), fun i => ⟨?_, rfl⟩⟩
      show (trends (fun i => (xfit i - xCentre x) / xScale x) (![] : Fin 0 → ℝ) *ᵥ co) i * yScale y + mean y = _
      rw [trends_apply _ (fun i j hij => by
            have := hxm hij
            show (xfit i - xCentre x) / xScale x ≤ (xfit j - xCentre x) / xScale x
            gcongr) _ (mono_one _)]
      rw [lineOf_zero _ _ _ (by
            have := hxm (Fin.zero_le i)
            show (xfit 0 - xCentre x) / xScale x ≤ (xfit i - xCentre x) / xScale x
            gcongr)]
      simp only [Fin.cons_zero]
      field_simp
      ring

/-- `fit_cond` with a limit of the number of break points only: a result is an offset or one straight line. -/
theorem fitCore_straight {n m : ℕ} (xfit : Fin (m + 1) → ℝ) (hxm : Monotone xfit) (x y err : Fin (n + 1) → ℝ) (hx : Monotone x)
    (cov : Matrix (Fin (n + 1)) (Fin (n + 1)) ℝ) (k : ℤ) (opt : Externals) (fit : Fit m)
    (h : fitCore xfit x y err cov [.str "max_no_breaks", .int k] opt = .ok fit) :
    fit.breaks = [] ∧ ∃ a b, (fit.coef = [a] ∧ b = 0 ∨ fit.coef = [a, b]) ∧
      ∀ i, fit.condslope i = a + b * (xfit i - xfit 0) ∧ fit.timeDeriv i = some b := by
  unfold fitCore at h
  rw [parse_free] at h
  have ho : ({ freeOpts k with breaks := (freeOpts k).breaks.map fun l => l.map fun v => (v - xCentre x) / xScale x } : Opts) = freeOpts k := rfl
  simp only [bind, Except.bind] at h
  rw [ho] at h
  cases hmb : maxBreaks (freeOpts k) with
  | error e => rw [hmb] at h; cases h
  | ok mb =>
    rw [hmb] at h
    simp only at h
    rw [if_neg (show ¬ presetFails (scaled x y err) (freeOpts k) mb from id)] at h
    simp only [pure, Except.pure] at h
    split at h
    · cases h
    · next tried htried =>
      split at h
      · cases h
      · next f hf =>
        by_cases hd : normalDet (scaled x y err) f = 0
        · rw [if_pos hd] at h; cases h
        · rw [if_neg hd] at h
          have hnl : (freeOpts k).nloops = .int 200 := rfl
          have hbn : (freeOpts k).breaks = none := rfl
          have key : (∀ b br co r, f ≠ .line (b + 1) br co r) ∧ fit = finish 200 opt x y (scaled x y err) cov xfit f := by
            cases f with
            | offset a r => exact ⟨by simp, (Except.ok.inj h).symm⟩
            | line b br co r =>
              cases b with
              | zero =>
                simp only [errorLoop, hnl] at h
                simp [pure, Except.pure] at h
                exact ⟨by simp, h.symm⟩
              | succ b => simp [errorLoop, hnl, hbn] at h
          rw [key.2]
          exact finish_straight xfit hxm x y err hx cov f key.1

/-- The same for `fit_cond`: the fitted values belong to the distinct profile numbers in ascending order. -/
theorem fitCond_coef (obs : List Obs) (lvcov : ℕ → ℕ → ℝ) (k : ℤ) (opt : Externals) (m : ℕ) (fit : Fit m)
    (h : fitCond obs lvcov [.str "max_no_breaks", .int k] opt = .ok (some ⟨m, fit⟩)) :
    (uniqueReal (obs.map Obs.x)).length = m + 1 ∧ fit.breaks = [] ∧
      ∃ a b, (fit.coef = [a] ∧ b = 0 ∨ fit.coef = [a, b]) ∧
        ∀ i : Fin (m + 1), fit.condslope i = a + b * ((uniqueReal (obs.map Obs.x)).getD i.val 0 - (uniqueReal (obs.map Obs.x)).getD 0 0) ∧
          fit.timeDeriv i = some b := by
  rw [fitCond_eq] at h
  split at h
  · next n m' hn hm =>
    have hmono : ∀ (l : List ℝ) (q : ℕ), l.Pairwise (· ≤ ·) → l.length = q + 1 → Monotone fun i : Fin (q + 1) => l.getD i.val 0 := by
      intro l q hl hq i j hij
      rcases hij.lt_or_eq with hlt | rfl
      · have hi : i.val < l.length := by omega
        have hj : j.val < l.length := by omega
        show l.getD i.val 0 ≤ l.getD j.val 0
        rw [List.getD_eq_getElem?_getD, List.getD_eq_getElem?_getD, List.getElem?_eq_getElem hi, List.getElem?_eq_getElem hj, Option.getD_some,
          Option.getD_some]
        exact List.pairwise_iff_getElem.1 hl _ _ hi hj hlt
      · exact le_refl _
    have hx1 := hmono _ m' ((uniqueReal_strict (obs.map Obs.x)).imp le_of_lt) hm
    have hx2 := hmono (((goodObs obs).map Obs.x).insertionSort (· ≤ ·)) n (List.pairwise_insertionSort _ _) (by
      rw [List.length_insertionSort, List.length_map, hn])
    cases hc : fitCore (n := n) (m := m') (fun i => (uniqueReal (obs.map Obs.x)).getD i.val 0)
          (fun i => (((goodObs obs).map Obs.x).insertionSort (· ≤ ·)).getD i.val 0)
          (fun i => ((goodObs obs).map fun o => o.y.getD 0).getD i.val 0) (fun i => ((goodObs obs).map Obs.err).getD i.val 0)
          (Matrix.of fun i j => lvcov ((argwhere (fun o : Obs => o.y.isSome) obs).getD i.val 0)
            ((argwhere (fun o : Obs => o.y.isSome) obs).getD j.val 0)) [.str "max_no_breaks", .int k] opt with
    | error e => rw [hc] at h; cases h
    | ok g =>
      rw [hc] at h
      have h' := Option.some.inj (Except.ok.inj h)
      cases h'
      exact ⟨hm, fitCore_straight _ hx1 _ _ _ hx2 _ _ _ _ hc⟩
  · cases h

/-- The fitted values lie on a straight line whose slope is the derivative. -/
theorem fitCond_straight (obs : List Obs) (lvcov : ℕ → ℕ → ℝ) (k : ℤ) (opt : Externals) (m : ℕ) (fit : Fit m)
    (h : fitCond obs lvcov [.str "max_no_breaks", .int k] opt = .ok (some ⟨m, fit⟩)) :
    (uniqueReal (obs.map Obs.x)).length = m + 1 ∧ fit.breaks = [] ∧
      ∃ a b, ∀ i : Fin (m + 1), fit.condslope i = a + b * (uniqueReal (obs.map Obs.x)).getD i.val 0 ∧ fit.timeDeriv i = some b := by
  obtain ⟨h1, h2, a, b, -, h3⟩ := fitCond_coef obs lvcov k opt m fit h
  refine ⟨h1, h2, a - b * (uniqueReal (obs.map Obs.x)).getD 0 0, b, fun i => ⟨?_, (h3 i).2⟩⟩
  rw [(h3 i).1]; ring

/-- No good observation: no result. -/
theorem fitCond_no_good (obs : List Obs) (lvcov : ℕ → ℕ → ℝ) (args : List Arg) (opt : Externals) (h : ∀ o ∈ obs, o.y = none) :
    fitCond obs lvcov args opt = .ok none := by
  rw [fitCond_eq]
  have : goodObs obs = [] := by
    unfold goodObs
    rw [List.filter_eq_nil_iff]
    intro o ho
    rw [h o ho]; simp
  rw [this]
  rfl

end Verif.FitCond
