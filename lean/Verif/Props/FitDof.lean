import Verif.Props.FitOrder

/-!
# Properties of `fit_cond`: the number of degrees of freedom reported (C31)
-/

set_option linter.unusedSectionVars false

namespace Verif.Props

open Verif.Np Verif.Spec Verif.BreakFit Verif.FitCond Matrix

/-- The number of degrees of freedom reported, whatever the arguments. -/
theorem fitCore_ndf {n m : ℕ} (xfit : Fin (m + 1) → ℝ) (x y err : Fin (n + 1) → ℝ) (cov : Matrix (Fin (n + 1)) (Fin (n + 1)) ℝ) (args : List Arg)
    (opt : Externals) (fit : Fit m) (h : fitCore xfit x y err cov args opt = .ok fit) : fit.ndf = effectiveNumber cov := by
  unfold fitCore at h
  simp only [bind, Except.bind] at h
  repeat' split at h
  all_goals first
    | (exact absurd h (by simp))
    | (have := Except.ok.inj h
       rw [← this]
       rfl)

/-- The degrees of freedom for the good observations in terms of all observations. -/
theorem fit_ndf_eq (obs : List Obs) (lvcov : ℕ → ℕ → ℝ) (args : List Arg) (opt : Externals) (m : ℕ) (fit : Fit m)
    (h : fitCond obs lvcov args opt = .ok (some ⟨m, fit⟩)) :
    ∃ n, (obs.filter fun o => o.y.isSome).length = n + 1 ∧
      fit.ndf = effectiveNumber (Matrix.of fun i j : Fin (n + 1) => lvcov ((argwhere (fun o : Obs => o.y.isSome) obs).getD i.val 0)
        ((argwhere (fun o : Obs => o.y.isSome) obs).getD j.val 0)) := by
  rw [fitCond_eq] at h
  split at h
  · rename_i n m' hn hm
    refine ⟨n, hn, ?_⟩
    cases hf : fitCore (n := n) (m := m') (fun i => (uniqueReal (obs.map Obs.x)).getD i.val 0)
          (fun i => (((goodObs obs).map Obs.x).insertionSort (· ≤ ·)).getD i.val 0)
          (fun i => ((goodObs obs).map fun o => o.y.getD 0).getD i.val 0) (fun i => ((goodObs obs).map Obs.err).getD i.val 0)
          (Matrix.of fun i j => lvcov ((argwhere (fun o : Obs => o.y.isSome) obs).getD i.val 0)
            ((argwhere (fun o : Obs => o.y.isSome) obs).getD j.val 0)) args opt with
    | error e => rw [hf] at h; simp [Except.map] at h
    | ok fit' =>
      rw [hf] at h
      simp only [Except.map, Except.ok.injEq, Option.some.injEq, Sigma.mk.injEq] at h
      obtain ⟨rfl, h⟩ := h
      obtain rfl := eq_of_heq h
      exact fitCore_ndf _ _ _ _ _ _ _ _ hf
  · simp at h

/-- C31. If the observations are correlated with coefficients between 0 and 1, the number of degrees of freedom reported lies between 1 and the number of good observations. -/
theorem fit_ndf_between (obs : List Obs) (lvcov : ℕ → ℕ → ℝ) (hc : ∀ i j, 0 ≤ lvcov i j ∧ lvcov i j ≤ 1) (hd : ∀ i, lvcov i i = 1) (args : List Arg)
    (opt : Externals) (m : ℕ) (fit : Fit m) (h : fitCond obs lvcov args opt = .ok (some ⟨m, fit⟩)) :
    1 ≤ fit.ndf ∧ fit.ndf ≤ (obs.filter fun o => o.y.isSome).length := by
  obtain ⟨n, hn, e⟩ := fit_ndf_eq obs lvcov args opt m fit h
  rw [e, hn]
  exact ndf_between _ ⟨fun i j => hc _ _, fun i => hd _⟩

/-- C31. Uncorrelated observations have as many degrees of freedom as there are good ones. -/
theorem fit_ndf_independent (obs : List Obs) (args : List Arg) (opt : Externals) (m : ℕ) (fit : Fit m)
    (h : fitCond obs (fun i j => if i = j then 1 else 0) args opt = .ok (some ⟨m, fit⟩)) :
    fit.ndf = (obs.filter fun o => o.y.isSome).length := by
  obtain ⟨n, hn, e⟩ := fit_ndf_eq obs _ args opt m fit h
  rw [e, hn, ← (ndf_bounds_sharp n).1]
  congr 1
  ext i j
  have hl : (argwhere (fun o : Obs => o.y.isSome) obs).length = n + 1 := by
    rw [argwhere_length, List.countP_eq_length_filter]; exact hn
  have hi : i.val < (argwhere (fun o : Obs => o.y.isSome) obs).length := by rw [hl]; exact i.isLt
  have hj : j.val < (argwhere (fun o : Obs => o.y.isSome) obs).length := by rw [hl]; exact j.isLt
  simp only [Matrix.of_apply, Matrix.one_apply, List.getD_eq_getElem?_getD, List.getElem?_eq_getElem hi, List.getElem?_eq_getElem hj, Option.getD_some]
  simp only [List.Nodup.getElem_inj_iff (argwhere_nodup _ _), Fin.ext_iff]

/-- C31. Completely correlated observations have one degree of freedom. -/
theorem fit_ndf_dependent (obs : List Obs) (args : List Arg) (opt : Externals) (m : ℕ) (fit : Fit m)
    (h : fitCond obs (fun _ _ => 1) args opt = .ok (some ⟨m, fit⟩)) : fit.ndf = 1 := by
  obtain ⟨n, -, e⟩ := fit_ndf_eq obs _ args opt m fit h
  rw [e]
  exact (ndf_bounds_sharp n).2

end Verif.Props
