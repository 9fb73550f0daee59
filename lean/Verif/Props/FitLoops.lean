import Verif.Props.FitExamples
import Verif.Lemmas.FitLoops
import Verif.Spec.Repeat

/-!
# C140: what the option `nloops` of `fit_cond` changes
-/

set_option linter.unusedSectionVars false

namespace Verif.Props

open Verif.Np Verif.Spec Verif.BreakFit Verif.FitCond Matrix

section
variable (obs : List Obs) (lvcov : ℕ → ℕ → ℝ) (args : List Arg) (opt : Externals)

/-- The result of `fit_cond` with `nloops` given last, in terms of what does not depend on it. -/
theorem nloops_split (v : Arg) (r : Except PyErr (Option (Σ m, Fit m)))
    (h : fitCond obs lvcov (args ++ [.str "nloops", v]) opt = r) :
    (∀ v', fitCond obs lvcov (args ++ [.str "nloops", v']) opt = r) ∨
    ∃ (n m : ℕ) (xfit : Fin (m + 1) → ℝ) (x y err : Fin (n + 1) → ℝ) (cov : Matrix (Fin (n + 1)) (Fin (n + 1)) ℝ) (o : Opts)
      (b : ℕ) (br : Fin b → ℝ) (c : Fin (b + 2) → ℝ) (res : ℝ), parseArgs args = .ok o ∧
      ∀ v', fitCond obs lvcov (args ++ [.str "nloops", v']) opt =
        (errorLoop (decide (b ≠ 0) && o.breaks.isNone) v').map fun _ =>
          some ⟨m, finish (loopsOf v') opt x y (scaled x y err) cov xfit (.line b br c res)⟩ := by
  rcases fitCond_cases obs lvcov opt with h0 | ⟨n, m, xfit, x, y, err, cov, hall⟩
  · left; intro v'; rw [← h, h0, h0]
  · simp only [hall, fitCore_nloops] at h ⊢
    cases hp : parseArgs args with
    | error e => left; intro v'; rw [hp] at h; exact h
    | ok o =>
      rw [hp] at h
      simp only [Except.bind] at h ⊢
      cases hc : chosen x y err cov o opt with
      | error e => left; intro v'; rw [hc] at h; exact h
      | ok f =>
        rw [hc] at h
        cases f with
        | offset a r => left; intro v'; exact h
        | line b br c res =>
          right
          refine ⟨n, m, xfit, x, y, err, cov, o, b, br, c, res, rfl, fun v' => ?_⟩
          simp only [hall, fitCore_nloops, hp, hc, Except.bind]
          cases errorLoop (decide (b ≠ 0) && o.breaks.isNone) v' <;> rfl

/-- C140. As long as it is positive, `nloops` has no influence on whether `fit_cond` returns, nor on anything it returns but the errors of the fitted values. -/
theorem nloops_positive (k k' : ℤ) (hk : 0 < k) (hk' : 0 < k') :
    (fitCond obs lvcov (args ++ [.str "nloops", .int k]) opt).map (Option.map eraseFit) =
      (fitCond obs lvcov (args ++ [.str "nloops", .int k']) opt).map (Option.map eraseFit) := by
  rcases nloops_split obs lvcov args opt (.int k) _ rfl with h | ⟨n, m, xfit, x, y, err, cov, o, b, br, c, res, -, h⟩
  · rw [h (.int k')]
  · rw [h, h]
    simp only [errorLoop, hk.ne', hk'.ne', hk, hk', true_and, if_false]
    split_ifs <;> rfl

/-- C140. If the fit is a constant, `nloops` has no influence at all: not even its type matters. -/
theorem nloops_offset (v v' : Arg) (fit : Σ m, Fit m) (hfit : fitCond obs lvcov (args ++ [.str "nloops", v]) opt = .ok (some fit))
    (hc : fit.2.coef.length = 1) : fitCond obs lvcov (args ++ [.str "nloops", v']) opt = .ok (some fit) := by
  rcases nloops_split obs lvcov args opt v _ hfit with h | ⟨n, m, xfit, x, y, err, cov, o, b, br, c, res, -, h⟩
  · exact h v'
  · rw [h] at hfit
    cases he : errorLoop (decide (b ≠ 0) && o.breaks.isNone) v with
    | error e => rw [he] at hfit; cases hfit
    | ok u =>
      rw [he] at hfit
      simp only [Except.map, Except.ok.injEq, Option.some.injEq] at hfit
      subst hfit
      simp [finish] at hc

/-- C140. If the fit is a line, broken or not, then with `nloops` 0 `fit_cond` raises `ZeroDivisionError`, and `TypeError` if `nloops` is no integer. -/
theorem nloops_refused (v : Arg) (fit : Σ m, Fit m) (hfit : fitCond obs lvcov (args ++ [.str "nloops", v]) opt = .ok (some fit))
    (hc : fit.2.coef.length ≠ 1) : fitCond obs lvcov (args ++ [.str "nloops", .int 0]) opt = .error .zeroDivision ∧
      (∀ s, fitCond obs lvcov (args ++ [.str "nloops", .str s]) opt = .error .typeError) ∧
      (∀ l, fitCond obs lvcov (args ++ [.str "nloops", .arr l]) opt = .error .typeError) ∧ ∃ k : ℤ, v = .int k ∧ k ≠ 0 := by
  rcases fitCond_cases obs lvcov opt with h0 | ⟨n, m, xfit, x, y, err, cov, hall⟩
  · rw [h0] at hfit; cases hfit
  · simp only [hall, fitCore_nloops] at hfit ⊢
    cases hp : parseArgs args with
    | error e => rw [hp] at hfit; cases hfit
    | ok o =>
      rw [hp] at hfit
      simp only [Except.bind] at hfit ⊢
      cases hch : chosen x y err cov o opt with
      | error e => rw [hch] at hfit; cases hfit
      | ok f =>
        rw [hch] at hfit
        cases f with
        | offset a r =>
          simp only [Except.map, Except.ok.injEq, Option.some.injEq] at hfit
          subst hfit
          simp [finish] at hc
        | line b br c res =>
          refine ⟨rfl, fun s => rfl, fun l => rfl, ?_⟩
          cases v with
          | int k =>
            refine ⟨k, rfl, ?_⟩
            rintro rfl
            cases hfit
          | str s => cases hfit
          | arr l => cases hfit

/-- C140, finding. A negative `nloops` is accepted; the errors of a fitted line are then all 0 (or missing). -/
theorem nloops_negative_errors (k : ℤ) (hk : k < 0) (fit : Σ m, Fit m) (hfit : fitCond obs lvcov (args ++ [.str "nloops", .int k]) opt = .ok (some fit))
    (hc : fit.2.coef.length ≠ 1) (i : Fin (fit.1 + 1)) : fit.2.condslopeErr i = none ∨ fit.2.condslopeErr i = some 0 := by
  rcases nloops_split obs lvcov args opt (.int k) _ hfit with h | ⟨n, m, xfit, x, y, err, cov, o, b, br, c, res, -, h⟩
  · have := (nloops_refused obs lvcov args opt _ _ hfit hc).1
    rw [h] at this
    cases this
  · rw [h] at hfit
    simp only [errorLoop, hk.ne, if_false, show ¬ (k > 0) by omega, false_and, Except.map, Except.ok.injEq, Option.some.injEq] at hfit
    subst hfit
    simp only [finish, lineErr, loopsOf]
    rw [show k.toNat = 0 by omega]
    simp only [Finset.range_zero, Finset.sum_empty, zero_div, zero_mul]
    cases Mapping.npDiv _ _ with
    | none => left; rfl
    | some p => right; simp [Mapping.npSqrt]

/-- C140, finding. Where a negative `nloops` gives a fit, a positive one gives the same fit up to the errors of the fitted values, or - only if the fit has break points - a
`TypeError`. -/
theorem nloops_negative_fit (k k' : ℤ) (hk : k < 0) (hk' : 0 < k') (fit : Σ m, Fit m)
    (hfit : fitCond obs lvcov (args ++ [.str "nloops", .int k]) opt = .ok (some fit)) :
    (fitCond obs lvcov (args ++ [.str "nloops", .int k']) opt = .error .typeError ∧ fit.2.breaks ≠ []) ∨
    ∃ fit', fitCond obs lvcov (args ++ [.str "nloops", .int k']) opt = .ok (some fit') ∧ eraseFit fit' = eraseFit fit := by
  rcases nloops_split obs lvcov args opt (.int k) _ hfit with h | ⟨n, m, xfit, x, y, err, cov, o, b, br, c, res, -, h⟩
  · right; exact ⟨fit, h _, rfl⟩
  · rw [h] at hfit ⊢
    simp only [errorLoop, hk.ne, if_false, show ¬ (k > 0) by omega, false_and, Except.map, Except.ok.injEq, Option.some.injEq] at hfit
    subst hfit
    simp only [errorLoop, hk'.ne', if_false, hk', true_and]
    by_cases hf : (decide (b ≠ 0) && o.breaks.isNone) = true
    · left
      rw [if_pos hf]
      refine ⟨rfl, ?_⟩
      have hb : b ≠ 0 := by simp only [Bool.and_eq_true, decide_eq_true_eq] at hf; exact hf.1
      intro hnil
      have := congrArg List.length hnil
      simp [finish] at this
      exact hb this
    · right
      rw [if_neg hf]
      exact ⟨_, rfl, rfl⟩

theorem parseStep_breaks (o o' : Opts) (p v : Arg) (h : parseStep o p v = .ok o') (hn : ∀ s, p = .str s → s.toLower ≠ "breaks") : o'.breaks = o.breaks := by
  cases p with
  | str s =>
    have hs := hn s rfl
    unfold parseStep at h
    simp only [if_neg hs] at h
    split_ifs at h
    · cases v <;> simp only [Except.ok.injEq, reduceCtorEq] at h <;> rw [← h]
    all_goals (simp only [Except.ok.injEq] at h; rw [← h])
  | int k => cases h
  | arr l => cases h

theorem parsePairs_breaks (l : List Arg) (o o' : Opts) (h : parsePairs o l = .ok o') (hn : ∀ s, Arg.str s ∈ l → s.toLower ≠ "breaks") : o'.breaks = o.breaks := by
  induction l using List.twoStepInduction generalizing o with
  | nil => simp only [parsePairs, Except.ok.injEq] at h; rw [h]
  | singleton a => simp only [parsePairs, Except.ok.injEq] at h; rw [h]
  | cons_cons a b l ih _ =>
    simp only [parsePairs, bind, Except.bind] at h
    cases hs : parseStep o a b with
    | error e => rw [hs] at h; cases h
    | ok o1 =>
      rw [hs] at h
      rw [ih o1 h fun s hs => hn s (by simp [hs]), parseStep_breaks o o1 a b hs fun s e => hn s (by simp [e])]

/-- C140, finding. A fit with break points that were not given is only ever returned for a negative `nloops`. -/
theorem nloops_free (v : Arg) (fit : Σ m, Fit m) (hfit : fitCond obs lvcov (args ++ [.str "nloops", v]) opt = .ok (some fit))
    (hb : fit.2.breaks ≠ []) (hn : ∀ s, Arg.str s ∈ args → s.toLower ≠ "breaks") : ∃ k : ℤ, v = .int k ∧ k < 0 := by
  have hlen : fit.2.coef.length ≠ 1 := by
    rcases fitCond_cases obs lvcov opt with h0 | ⟨n, m, xfit, x, y, err, cov, hall⟩
    · rw [h0] at hfit; cases hfit
    · rw [hall, fitCore_split] at hfit
      cases hp : parseArgs (args ++ [.str "nloops", v]) with
      | error e => rw [hp] at hfit; cases hfit
      | ok o =>
        rw [hp] at hfit
        simp only [Except.bind] at hfit
        cases hch : chosen x y err cov o opt with
        | error e => rw [hch] at hfit; cases hfit
        | ok f =>
          rw [hch] at hfit
          simp only at hfit
          cases hl : loopCheck (scaledOpts x o) f with
          | error e => rw [hl] at hfit; cases hfit
          | ok u =>
            rw [hl] at hfit
            simp only [Except.map, Except.ok.injEq, Option.some.injEq] at hfit
            subst hfit
            cases f with
            | offset a r => simp [finish] at hb
            | line b br c r => simp [finish]
  obtain ⟨h0, -, -, k, rfl, hk⟩ := nloops_refused obs lvcov args opt v fit hfit hlen
  refine ⟨k, rfl, ?_⟩
  rcases nloops_split obs lvcov args opt (.int k) _ hfit with h | ⟨n, m, xfit, x, y, err, cov, o, b, br, c, res, hp, h⟩
  · rw [h] at h0; cases h0
  · have hob : o.breaks = none := by
      unfold parseArgs at hp
      split_ifs at hp
      exact parsePairs_breaks args {} o hp hn
    by_contra hk2
    rw [h] at hfit
    have hpos : k > 0 := by omega
    simp only [errorLoop, hk, if_false, hpos, true_and, hob, Option.isNone_none, Bool.and_true] at hfit
    cases b with
    | zero =>
      simp only [ne_eq, not_true, decide_false, Bool.false_eq_true, if_false, Except.map, Except.ok.injEq, Option.some.injEq] at hfit
      subst hfit
      simp [finish] at hb
    | succ b => simp [Except.map] at hfit

theorem parseStep_nloops (o o' : Opts) (p v : Arg) (h : parseStep o p v = .ok o') (hn : ∀ s, p = .str s → s.toLower ≠ "nloops") : o'.nloops = o.nloops := by
  cases p with
  | str s =>
    have hs := hn s rfl
    unfold parseStep at h
    simp only [if_neg hs] at h
    split_ifs at h
    · cases v <;> simp only [Except.ok.injEq, reduceCtorEq] at h <;> rw [← h]
    · simp only [Except.ok.injEq] at h; rw [← h]
    · simp only [Except.ok.injEq] at h; rw [← h]
    · cases v with
      | int k => cases h
      | arr l => simp only [Except.ok.injEq] at h; rw [← h]; split_ifs <;> rfl
      | str t => simp only at h; split_ifs at h; simp only [Except.ok.injEq] at h; rw [h]
  | int k => cases h
  | arr l => cases h

theorem parsePairs_nloops (l : List Arg) (o o' : Opts) (h : parsePairs o l = .ok o') (hn : ∀ s, Arg.str s ∈ l → s.toLower ≠ "nloops") : o'.nloops = o.nloops := by
  induction l using List.twoStepInduction generalizing o with
  | nil => simp only [parsePairs, Except.ok.injEq] at h; rw [h]
  | singleton a => simp only [parsePairs, Except.ok.injEq] at h; rw [h]
  | cons_cons a b l ih _ =>
    simp only [parsePairs, bind, Except.bind] at h
    cases hs : parseStep o a b with
    | error e => rw [hs] at h; cases h
    | ok o1 =>
      rw [hs] at h
      rw [ih o1 h fun s hs => hn s (by simp [hs]), parseStep_nloops o o1 a b hs fun s e => hn s (by simp [e])]

/-- C140. Without the option, `fit_cond` behaves as for 200 loops. -/
theorem nloops_default (hn : ∀ s, Arg.str s ∈ args → s.toLower ≠ "nloops") :
    fitCond obs lvcov args opt = fitCond obs lvcov (args ++ [.str "nloops", .int 200]) opt := by
  rcases fitCond_cases obs lvcov opt with h0 | ⟨n, m, xfit, x, y, err, cov, hall⟩
  · rw [h0, h0]
  · rw [hall, hall, fitCore_split, fitCore_split, parseArgs_append]
    cases hp : parseArgs args with
    | error e => rfl
    | ok o =>
      have ho : o.nloops = .int 200 := by
        unfold parseArgs at hp
        split_ifs at hp
        exact parsePairs_nloops args {} o hp hn
      have : ({ o with nloops := .int 200 } : Opts) = o := by rw [← ho]
      simp only [Except.map, this]

end

/-! ## Free break points with a negative number of loops -/

theorem chosen_free {n : ℕ} (x y err : Fin (n + 1) → ℝ) (he : ∀ i, 0 < err i)
    (cov : Matrix (Fin (n + 1)) (Fin (n + 1)) ℝ) (hc : IsPosCorrelation cov) (k : ℤ) (hk : -1 ≤ k) (opt : Externals)
    (hd : NoneDegenerate x y err cov k opt) :
    ∃ tried f, (plan none k (-1) (ndfOf cov)).pbrk.mapM (tryModel (scaled x y err) (limits (scaled x y err).xf).1
        (limits (scaled x y err).xf).2 (freeOpts k) k (plan none k (-1) (ndfOf cov)) opt) = .ok tried ∧
      firstBest (aic (ndfOf cov) (n + 1)) tried = some f ∧ chosen x y err cov (freeOpts k) opt = .ok f := by
  obtain ⟨tried, f, htried, hf, -⟩ := fitCore_free (m := 0) (fun _ => 0) x y err he cov hc k hk opt hd
  refine ⟨tried, f, htried, hf, ?_⟩
  obtain ⟨hn, hm⟩ := plan_free_nbr1 k (-1) (ndfOf cov)
  obtain ⟨h1, h2, -⟩ := best_choice x y err he cov hc k hk opt hd _ rfl tried f htried hf
  obtain ⟨g, hg, -, hdet⟩ := (tryModel_free (scaled x y err) (scaled_w_sum x y err he).ne' (limits (scaled x y err).xf).1
      (limits (scaled x y err).xf).2 k (plan none k (-1) (ndfOf cov)) (by rw [hn]; norm_num) opt (nbrOf f) h1.1 h1.2.1 (free_few cov hc _ h1.2.2)).2 (hd _ h1)
  rw [hg] at h2
  obtain rfl := Except.ok.inj h2
  have hmb : maxBreaks (freeOpts k) = .ok k := by
    simp only [maxBreaks, freeOpts]; rw [if_neg (by omega)]
  have hch : chooseModel (ndfOf cov) (n + 1) false (plan none k (-1) (ndfOf cov)) tried = .ok g := by
    unfold chooseModel
    rw [if_neg (by simp), if_neg (by rw [hn]; norm_num), hf]
  unfold chosen
  have ho : ({ freeOpts k with breaks := (freeOpts k).breaks.map fun l => l.map fun v => (v - xCentre x) / xScale x } : Opts) = freeOpts k := rfl
  simp only [bind, Except.bind]
  rw [ho, hmb]
  simp only
  rw [if_neg (show ¬ presetFails (scaled x y err) (freeOpts k) k from id)]
  simp only [pure, Except.pure]
  have hb : (freeOpts k).breaks = none := rfl
  have hb1 : (freeOpts k).nbr1 = -1 := rfl
  rw [hb, hb1]
  simp only [Option.map_none]
  rw [htried]
  simp only [Option.isSome_none]
  rw [hch]
  simp only
  rw [if_neg hdet]

/-- C140, finding. With a negative `nloops` the choice between offset, line and broken lines with free break points works: if the data determine the broken lines allowed,
`fit_cond` returns, and the Akaike criterion of the model it returns is least among those allowed, and smaller than that of every one with fewer break points. -/
theorem nloops_negative_chooses {n m : ℕ} (xfit : Fin (m + 1) → ℝ) (x y err : Fin (n + 1) → ℝ) (hx : Monotone x) (hx0 : x 0 < x (Fin.last n))
    (he : ∀ i, 0 < err i) (cov : Matrix (Fin (n + 1)) (Fin (n + 1)) ℝ) (hc : IsPosCorrelation cov) (k : ℤ) (hk : -1 ≤ k) (opt : Externals)
    (hD : BrokenDetermined x (fun b => (opt.search b).1) k (effectiveNumber cov)) (chi : ℤ → ℝ)
    (hchi : Residuals x y err (fun b => (opt.search b).2) chi) (loops : ℤ) (hl : loops < 0) :
    ∃ (fit : Fit m) (nbr : ℤ), fitCore xfit x y err cov [.str "max_no_breaks", .int k, .str "nloops", .int loops] opt = .ok fit ∧
      (fit.coef.length : ℤ) = nbr + 2 ∧ (fit.breaks.length : ℤ) = max nbr 0 ∧ MayBreak k (effectiveNumber cov) nbr ∧
      ∀ nbr', MayBreak k (effectiveNumber cov) nbr' →
        akaike (effectiveNumber cov) (n + 1) (parameterCount nbr) (chi nbr) ≤ akaike (effectiveNumber cov) (n + 1) (parameterCount nbr') (chi nbr') ∧
        (nbr' < nbr →
          akaike (effectiveNumber cov) (n + 1) (parameterCount nbr) (chi nbr) < akaike (effectiveNumber cov) (n + 1) (parameterCount nbr') (chi nbr')) := by
  have hnd := (noneDegenerate_iff x y err hx he cov opt hx0 k).2 hD
  obtain ⟨tried, f, htried, hf, hch⟩ := chosen_free x y err he cov hc k hk opt hnd
  obtain ⟨h1, h2, h3⟩ := best_choice x y err he cov hc k hk opt hnd _ rfl tried f htried hf
  refine ⟨finish loops opt x y (scaled x y err) cov xfit f, nbrOf f, ?_, ?_, ?_, h1, fun nbr' hn' => ?_⟩
  · have := fitCore_nloops xfit x y err cov [.str "max_no_breaks", .int k] (.int loops) opt
    rw [List.cons_append, List.cons_append, List.nil_append] at this
    rw [this, parse_free]
    simp only [Except.bind, hch]
    cases f with
    | offset a r => rfl
    | line b br c r =>
      simp only [errorLoop, hl.ne, if_false, show ¬ (loops > 0) by omega, false_and]
      rfl
  · cases f with
    | offset a r => simp [finish, nbrOf]
    | line b br c r => simp [finish, nbrOf]; ring
  · cases f with
    | offset a r => simp [finish, nbrOf]
    | line b br c r => simp [finish, nbrOf]
  · obtain ⟨g, hg, -, hle, hlt⟩ := h3 nbr' hn'
    rw [candidate_aic x y err hx hx0 he cov hc k opt chi hchi nbr' hn' g hg, candidate_aic x y err hx hx0 he cov hc k opt chi hchi _ h1 f h2] at hle hlt
    exact ⟨hle, hlt⟩

/-! ## Cases that meet the hypotheses -/

/-- The observations (0,0), …, (4,4) give a line for every number of loops but 0. -/
example (opt : Externals) : ∃ (obs : List Obs) (fit fit' : Σ m, Fit m), fit.2.coef.length = 2 ∧ fit'.2.coef.length = 2 ∧
    fitCond obs (fun i j => if i = j then 1 else 0) ([.str "max_no_breaks", .int 0] ++ [.str "nloops", .int 7]) opt = .ok (some fit) ∧
    fitCond obs (fun i j => if i = j then 1 else 0) ([.str "max_no_breaks", .int 0] ++ [.str "nloops", .int (-7)]) opt = .ok (some fit') ∧
    fitCond obs (fun i j => if i = j then 1 else 0) ([.str "max_no_breaks", .int 0] ++ [.str "nloops", .int 0]) opt = .error .zeroDivision := by
  obtain ⟨obs, -, -, -, m, -, fit, -, h, hc, -⟩ := fit_order_matters opt
  rw [nloops_default] at h
  · have h0 := nloops_refused obs _ _ opt _ _ h (by rw [hc]; simp)
    rcases nloops_split obs _ _ opt _ _ h with hs | ⟨n, m', xfit, x, y, err, cov, o, b, br, c, res, -, hs⟩
    · have := hs (.int 0)
      rw [h0.1] at this
      cases this
    · have hb : b = 0 := by
        rw [hs] at h
        cases he : errorLoop (decide (b ≠ 0) && o.breaks.isNone) (.int 200) with
        | error e => rw [he] at h; cases h
        | ok u =>
          rw [he] at h
          simp only [Except.map, Except.ok.injEq, Option.some.injEq] at h
          have := congrArg (fun z : Σ m, Fit m => z.2.coef.length) h
          simp only [hc, finish, List.length_cons, List.length_ofFn, List.length_nil] at this
          omega
      subst hb
      refine ⟨obs, _, _, ?_, ?_, (hs _).trans rfl, (hs _).trans rfl, h0.1⟩ <;> simp [finish]
  · intro s hs
    simp only [List.mem_cons, Arg.str.injEq, reduceCtorEq, List.not_mem_nil, or_false] at hs
    subst hs
    decide +kernel

/-- Seven observations |x - 3| at 0, …, 6, an optimiser that finds the break point 3, and -1 loops: a line with one break point. -/
example (xfit : Fin 7 → ℝ) : ∃ fit, fitCore xfit sevenX sevenY (fun _ => 1) 1 [.str "max_no_breaks", .int 3, .str "nloops", .int (-1)]
    ⟨fun _ => (fun _ => 0, fun _ => 0), fun _ _ => 0⟩ = .ok fit ∧ fit.breaks.length = 1 := by
  obtain ⟨chi, hchi⟩ := residuals_exist sevenX sevenY (fun _ => 1) sevenX_strict.monotone (sevenX_strict (by decide)) (fun _ => one_pos) (fun _ _ => 0)
  obtain ⟨fit, nbr, h1, h2, h3, h4, h5⟩ := nloops_negative_chooses xfit sevenX sevenY (fun _ => 1) sevenX_strict.monotone (sevenX_strict (by decide))
    (fun _ => one_pos) 1 isCorrelation_one 3 (by norm_num) ⟨fun _ => (fun _ => 0, fun _ => 0), fun _ _ => 0⟩ seven_brokenDetermined chi hchi (-1) (by norm_num)
  refine ⟨fit, h1, ?_⟩
  have h7 : effectiveNumber (1 : Matrix (Fin 7) (Fin 7) ℝ) = 7 := by rw [(ndf_bounds_sharp 6).1]; norm_num
  have hle : nbr ≤ 1 := by
    rcases h4.2.2 with h | h
    · omega
    · rw [h7] at h
      have : (nbr : ℝ) ≤ 1 := by linarith
      exact_mod_cast this
  have hz : chi 1 = 0 := by
    have := hchi.broken 0 ![3] ((seven_sought _).2 rfl) seven_determined
    obtain ⟨⟨s', g', -, he'⟩, hlow⟩ := this
    norm_num at he' hlow
    refine le_antisymm ?_ ?_
    · refine (hlow ⟨_, _, seven_broken, rfl⟩).trans_eq ?_
      simpa using (deviation_eq_zero sevenX sevenY (fun _ => 1) (fun _ => one_pos) (fun t => |t - 3|)).2 fun i => rfl
    · rw [he']
      exact Finset.sum_nonneg fun i _ => by positivity
  have hnz : ∀ p q : ℝ, deviation (fun i => 1 / (fun _ : Fin 7 => (1 : ℝ)) i ^ 2) sevenX sevenY (fun t => p + q * t) ≠ 0 := fun p q h =>
    seven_not_straight ⟨p, q, (deviation_eq_zero sevenX sevenY (fun _ => 1) (fun _ => one_pos) _).1 h⟩
  have hm1 := (h5 1 ⟨by norm_num, by norm_num, Or.inr (by rw [h7]; norm_num)⟩).1
  have hne : chi nbr = 0 := by
    by_contra hne
    rw [akaike, akaike, if_neg hne, if_pos hz] at hm1
    exact absurd hm1 (not_le.2 (WithBot.bot_lt_coe _))
  have hn1 : nbr ≠ -1 := by
    rintro rfl
    rw [hchi.offset] at hne
    exact hnz (weightedMean sevenY fun _ => 1) 0 (by simpa using hne)
  have hn0 : nbr ≠ 0 := by
    rintro rfl
    obtain ⟨⟨u, v, huv⟩, -⟩ := hchi.line
    rw [huv] at hne
    exact hnz u v hne
  have := h4.1
  omega

/-- Equal values give a constant: `nloops` may be a text. -/
example (opt : Externals) : ∃ fit : Σ m, Fit m, fit.2.coef.length = 1 ∧
    fitCond [⟨1, some 5, 1⟩, ⟨2, some 5, 1⟩] (fun i j => if i = j then 1 else 0) ([.str "max_no_breaks", .int (-1)] ++ [.str "nloops", .str "many"]) opt = .ok (some fit) := by
  have e := fit_order_partial (n := 1) (m := 1) [⟨1, some 5, 1⟩, ⟨2, some 5, 1⟩] ![0, 1] (by intro i j h; fin_cases i <;> fin_cases j <;> simp_all)
    ![1, 2] ![5, 5] ![1, 1] (by intro i; fin_cases i <;> rfl)
    (by
      intro k o h _
      rcases k with - | - | k
      · exact ⟨0, rfl⟩
      · exact ⟨1, rfl⟩
      · simp at h)
    (by intro i j h; fin_cases i <;> fin_cases j <;> simp_all) ![1, 2]
    (by intro i j h; fin_cases i <;> fin_cases j <;> simp_all)
    (by intro v; simp [Fin.exists_fin_two]) (fun i j => if i = j then 1 else 0) [.str "max_no_breaks", .int (-1)] opt
  have hcov : (Matrix.of fun i j : Fin 2 => if (![0, 1] : Fin 2 → ℕ) i = (![0, 1] : Fin 2 → ℕ) j then (1 : ℝ) else 0) = 1 := by
    ext i j
    fin_cases i <;> fin_cases j <;> simp
  rw [hcov] at e
  obtain ⟨fit, h1, h2, -⟩ := fit_constant_aux ![1, 2] ![1, 2] ![5, 5] ![1, 1] (by intro i; fin_cases i <;> simp) 1 isCorrelation_one opt 5
    (by intro i; fin_cases i <;> rfl) (-1) le_rfl (noneDegenerate_offset _ _ _ _ _)
  rw [h1, nloops_default] at e
  · exact ⟨⟨1, fit⟩, by simp [h2], nloops_offset _ _ _ _ _ _ _ e (by simp [h2])⟩
  · intro s hs
    simp only [List.mem_cons, Arg.str.injEq, reduceCtorEq, List.not_mem_nil, or_false] at hs
    subst hs
    decide +kernel

end Verif.Props
