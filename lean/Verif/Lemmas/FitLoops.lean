import Verif.Model.FitCond

/-!
# Lemmas: where the number of turns of the error loop enters `fit_cond`
-/

set_option linter.unusedSectionVars false

namespace Verif.FitCond

open Verif.Np Verif.BreakFit Matrix

theorem parsePairs_append (args : List Arg) (h : args.length % 2 = 0) (o : Opts) (p v : Arg) :
    parsePairs o (args ++ [p, v]) = (parsePairs o args).bind fun o' => parseStep o' p v := by
  induction args using List.twoStepInduction generalizing o with
  | nil =>
    simp only [List.nil_append, parsePairs]
    show (parseStep o p v).bind _ = _
    simp only [Except.bind]
    cases parseStep o p v <;> rfl
  | singleton a => simp at h
  | cons_cons a b l ih _ =>
    have h' : l.length % 2 = 0 := by simp at h; omega
    simp only [List.cons_append, parsePairs]
    show (parseStep o a b).bind _ = ((parseStep o a b).bind _).bind _
    cases parseStep o a b with
    | error e => rfl
    | ok o' => exact ih h' o'

theorem parseArgs_append (args : List Arg) (v : Arg) :
    parseArgs (args ++ [.str "nloops", v]) = (parseArgs args).map fun o => { o with nloops := v } := by
  unfold parseArgs
  have hl : (args ++ [Arg.str "nloops", v]).length % 2 = args.length % 2 := by simp
  rw [hl]
  by_cases h : args.length % 2 = 0
  · rw [if_neg (by omega), if_neg (by omega), parsePairs_append _ h]
    cases parsePairs {} args with
    | error e => rfl
    | ok o =>
      simp only [Except.bind, Except.map]
      have h1 : "nloops".toLower = "nloops" := by decide +kernel
      simp [parseStep, h1]
  · rw [if_pos (by omega), if_pos (by omega)]
    rfl

/-- The options in scaled units. -/
noncomputable def scaledOpts {n : ℕ} (x : Fin (n + 1) → ℝ) (o : Opts) : Opts :=
  { o with breaks := o.breaks.map fun l => l.map fun v => (v - xCentre x) / xScale x }

open Classical in
/-- `fitCore` up to the chosen model. -/
noncomputable def chosen {n : ℕ} (x y err : Fin (n + 1) → ℝ) (cov : Matrix (Fin (n + 1)) (Fin (n + 1)) ℝ) (o0 : Opts) (opt : Externals) :
    Except PyErr Fitted := do
  let d := scaled x y err
  let (lo, hi) := limits d.xf
  let o := { o0 with breaks := o0.breaks.map fun l => l.map fun v => (v - xCentre x) / xScale x }
  let maxIn ← maxBreaks o
  let p := plan (o.breaks.map List.length) maxIn o.nbr1 (ndfOf cov)
  if presetFails d o maxIn then .error .valueError
  let tried ← p.pbrk.mapM (tryModel d lo hi o maxIn p opt)
  let f ← chooseModel (ndfOf cov) (n + 1) o.breaks.isSome p tried
  if normalDet d f = 0 then .error .linAlgError
  pure f

/-- The error loop is entered only for lines. -/
def loopCheck (o : Opts) : Fitted → Except PyErr Unit
  | .offset _ _ => .ok ()
  | .line b _ _ _ => errorLoop (decide (b ≠ 0) && o.breaks.isNone) o.nloops

theorem fitCore_split {n m : ℕ} (xfit : Fin (m + 1) → ℝ) (x y err : Fin (n + 1) → ℝ)
    (cov : Matrix (Fin (n + 1)) (Fin (n + 1)) ℝ) (args : List Arg) (opt : Externals) :
    fitCore xfit x y err cov args opt = (parseArgs args).bind fun o => (chosen x y err cov o opt).bind fun f =>
      (loopCheck (scaledOpts x o) f).bind fun _ => .ok (finish (loopsOf o.nloops) opt x y (scaled x y err) cov xfit f) := by
  unfold fitCore
  simp only [bind, Except.bind]
  cases parseArgs args with
  | error e => rfl
  | ok o =>
    unfold chosen scaledOpts
    simp only [bind, Except.bind]
    generalize maxBreaks _ = mb
    cases mb with
    | error e => rfl
    | ok maxIn =>
      simp only
      by_cases hp : presetFails (scaled x y err) { o with breaks := o.breaks.map fun l => l.map fun v => (v - xCentre x) / xScale x } maxIn
      · simp only [hp, if_true]
      · simp only [hp, if_false]
        generalize (List.mapM _ _ : Except PyErr (List Fitted)) = t
        cases t with
        | error e => rfl
        | ok t =>
          simp only
          generalize chooseModel _ _ _ _ _ = cm
          cases cm with
          | error e => rfl
          | ok f =>
            simp only
            by_cases hd : normalDet (scaled x y err) f = 0
            · simp only [hd, if_true]
            · simp only [hd, if_false]
              cases f <;> rfl

theorem chosen_nloops {n : ℕ} (x y err : Fin (n + 1) → ℝ) (cov : Matrix (Fin (n + 1)) (Fin (n + 1)) ℝ) (o : Opts) (v : Arg) (opt : Externals) :
    chosen x y err cov { o with nloops := v } opt = chosen x y err cov o opt := rfl

theorem fitCore_nloops {n m : ℕ} (xfit : Fin (m + 1) → ℝ) (x y err : Fin (n + 1) → ℝ)
    (cov : Matrix (Fin (n + 1)) (Fin (n + 1)) ℝ) (args : List Arg) (v : Arg) (opt : Externals) :
    fitCore xfit x y err cov (args ++ [.str "nloops", v]) opt = (parseArgs args).bind fun o => (chosen x y err cov o opt).bind fun f =>
      (match f with
        | .offset _ _ => (.ok () : Except PyErr Unit)
        | .line b _ _ _ => errorLoop (decide (b ≠ 0) && o.breaks.isNone) v).bind fun _ =>
        .ok (finish (loopsOf v) opt x y (scaled x y err) cov xfit f) := by
  rw [fitCore_split, parseArgs_append]
  cases parseArgs args with
  | error e => rfl
  | ok o =>
    simp only [Except.map, Except.bind, chosen_nloops]
    cases chosen x y err cov o opt with
    | error e => rfl
    | ok f =>
      simp only
      cases f with
      | offset a r => rfl
      | line b br c r =>
        have : (scaledOpts x { o with nloops := v }).breaks.isNone = o.breaks.isNone := by
          simp [scaledOpts]
        simp only [loopCheck, this]
        rfl

theorem fitCond_cases (obs : List Obs) (lvcov : ℕ → ℕ → ℝ) (opt : Externals) :
    (∀ args, fitCond obs lvcov args opt = .ok none) ∨
    ∃ (n m : ℕ) (xfit : Fin (m + 1) → ℝ) (x y err : Fin (n + 1) → ℝ) (cov : Matrix (Fin (n + 1)) (Fin (n + 1)) ℝ),
      ∀ args, fitCond obs lvcov args opt = (fitCore xfit x y err cov args opt).map fun f => some ⟨m, f⟩ := by
  unfold fitCond
  simp only
  generalize hg : (argwhere (fun o : Obs => o.y.isSome) obs).length = a
  generalize hm : (uniqueReal (obs.map Obs.x)).length = b
  cases a with
  | zero => left; intro args; rfl
  | succ n =>
    cases b with
    | zero => left; intro args; rfl
    | succ m => right; exact ⟨n, m, _, _, _, _, _, fun args => rfl⟩

end Verif.FitCond
