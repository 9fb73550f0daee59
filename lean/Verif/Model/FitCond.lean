import Verif.Model.BreakFit
import Verif.Model.Mapping
import Mathlib.Analysis.SpecialFunctions.Log.Basic
import Mathlib.Analysis.Real.Sqrt
import Mathlib.Algebra.Order.Floor.Ring
import Mathlib.Order.WithBot

/-!
# Model of `fit_cond` (pyowc/core/stats.py:26-657)

Real numbers are exact. The non-linear optimiser (`scipy.optimize.least_squares`) and the random numbers of the error estimate
are parameters: the optimiser proposes break-point vectors, the random numbers only enter `condslope_err`. Of the arguments `x` is
finite (profile numbers).
-/

namespace Verif.FitCond

open Verif.Np Verif.Utilities Verif.BreakFit Matrix

/-! ## `nlbpfun` -/

/-- `fnumer` (pyowc/core/stats.py:91-96): running sums of the exponentials. -/
noncomputable def runningExp {b : ℕ} (u : Fin (b + 1) → ℝ) (i : Fin (b + 1)) : ℝ :=
  ∑ k ∈ Finset.univ.filter (fun k => k ≤ i), Real.exp (u k)

/-- Lines 98-102: `breaks` before equal neighbours are moved. `lo`, `hi` are `xblim`. -/
noncomputable def rawBreaks {b : ℕ} (lo hi : ℝ) (u : Fin (b + 1) → ℝ) (i : Fin (b + 1)) : ℝ :=
  lo + (hi - lo) / (1 + runningExp u (Fin.last b)) * runningExp u i

/-- Lines 104-106: every break point equal to its left neighbour is moved right by 0.00001. -/
noncomputable def nlbpBreaks {b : ℕ} (lo hi : ℝ) (u : Fin (b + 1) → ℝ) (i : Fin (b + 1)) : ℝ :=
  if h : 0 < i.val then
    if rawBreaks lo hi u i - rawBreaks lo hi u ⟨i.val - 1, by omega⟩ = 0 then rawBreaks lo hi u i + 0.00001
    else rawBreaks lo hi u i
  else rawBreaks lo hi u i

/-! ## Arguments -/

/-- An extra argument: a text, an integer or an array. -/
inductive Arg where
  | str (s : String)
  | int (k : ℤ)
  | arr (l : List ℝ)

/-- The options set by the extra arguments (defaults: lines 117-125). `initLen` is the length of `brk_init`. `breaks` are the
fixed break points, `none` if `setbreaks` is 0. -/
structure Opts where
  maxBrkIn : Option Arg := none
  nbr1 : ℤ := -1
  initLen : ℕ := 0
  nloops : Arg := .int 200
  breaks : Option (List ℝ) := none

/-- One turn of the loop of lines 244-281. Subtracting a number from a text is a `TypeError`, a number has no `__len__`. -/
def parseStep (o : Opts) (parm value : Arg) : Except PyErr Opts :=
  match parm with
  | .str s =>
    if s.toLower = "initial_breaks" then
      match value with
      | .arr l => .ok { o with initLen := l.length }
      | .int _ => .ok { o with initLen := 1 }
      | .str _ => .error .typeError
    else if s.toLower = "max_no_breaks" then .ok { o with maxBrkIn := some value, nbr1 := -1 }
    else if s.toLower = "number_breaks" then
      .ok { o with maxBrkIn := some value, nbr1 := match value with | .int k => k | _ => -1 }  -- not an integer: line 284 fails
    else if s.toLower = "nloops" then .ok { o with nloops := value }
    else if s.toLower = "breaks" then
      match value with
      | .arr l => .ok (if l.length > 0 then { o with breaks := some l } else o)
      | .int _ => .error .attributeError
      | .str t => if t.length > 0 then .error .typeError else .ok o
    else .error .valueError
  | _ => .error .valueError

/-- The loop of lines 244-281 over a list of even length. -/
def parsePairs : Opts → List Arg → Except PyErr Opts
  | o, p :: v :: rest => do
    let o' ← parseStep o p v
    parsePairs o' rest
  | o, _ => .ok o

/-- Lines 238-281. -/
def parseArgs (args : List Arg) : Except PyErr Opts :=
  if args.length % 2 ≠ 0 then .error .valueError else parsePairs {} args

/-- `int(max_brk_in)` (line 284) and the allocations of lines 286-295, which refuse negative sizes. The default `[]` and other lists
are refused by `int`; texts are taken not to be numerals. -/
def maxBreaks (o : Opts) : Except PyErr ℤ :=
  match o.maxBrkIn with
  | some (.int k) => if k < -1 then .error .valueError else .ok k
  | some (.str _) => .error .valueError
  | some (.arr _) => .error .typeError
  | none => .error .typeError

/-! ## Which models are tried -/

/-- `np.arange(a, b)` for integers. -/
def irange (a b : ℤ) : List ℤ := (List.range (b - a).toNat).map fun (i : ℕ) => a + (i : ℤ)

/-- `pbrk`, `nbr1` and `max_brk`. -/
structure Plan where
  pbrk : List ℤ
  nbr1 : ℤ
  maxBrk : ℤ

/-- Lines 297-346. `fixed` is the number of fixed break points, `maxIn` is `max_brk_in`, `nbr1` comes from the arguments. -/
noncomputable def plan (fixed : Option ℕ) (maxIn nbr1 : ℤ) (ndf : ℝ) : Plan :=
  let q : ℤ × ℤ :=
    match fixed with
    | some nbr => if maxIn = 0 then ((nbr : ℤ), (nbr : ℤ)) else if maxIn > nbr then ((nbr : ℤ) + 1, maxIn) else ((nbr : ℤ), maxIn)
    | none => (nbr1, maxIn)
  if ndf < 2 * ((q.2 : ℝ) + 2) + 1 then
    if ndf > 2 * ((q.1 : ℝ) + 2) + 1 then ⟨irange q.1 (⌊(ndf - 1) / 2 - 2⌋ + 1), q.1, q.2⟩
    else match fixed with
      | some nbr => ⟨[(nbr : ℤ)], (nbr : ℤ), (nbr : ℤ)⟩
      | none => ⟨[-1], q.1, q.2⟩
  else ⟨irange q.1 (q.2 + 1), q.1, q.2⟩

/-- A fitted model: an offset, or a broken line with `b` break points (none for the linear trend), and its `rss`. -/
inductive Fitted where
  | offset (a rss : ℝ)
  | line (b : ℕ) (breaks : Fin b → ℝ) (coef : Fin (b + 2) → ℝ) (rss : ℝ)

def Fitted.rss : Fitted → ℝ
  | .offset _ r => r
  | .line _ _ _ r => r

/-- The penalty added to the criterion (lines 361, 368, 420-421); `no_param` is 2 for the linear trend and `2 (nbr + 1)` else. -/
noncomputable def penalty (ndf : ℝ) : Fitted → ℝ
  | .offset _ _ => ndf * (ndf + 1) / (ndf - 3)
  | .line 0 _ _ _ => ndf * (ndf + 2) / (ndf - 4)
  | .line (b + 1) _ _ _ => ndf * (ndf + 2 * ((b : ℝ) + 1 + 1)) / (ndf - 2 * ((b : ℝ) + 1 + 1) - 2)

/-- `aic`: minus infinity (`⊥`) if the residuals vanish. -/
noncomputable def aic (ndf : ℝ) (npts : ℕ) (f : Fitted) : WithBot ℝ :=
  if f.rss = 0 then ⊥ else ((ndf * Real.log (f.rss / (npts : ℝ)) + penalty ndf f : ℝ) : WithBot ℝ)

/-- `np.argmin`: the first of the models with the least criterion. -/
noncomputable def firstBest (crit : Fitted → WithBot ℝ) : List Fitted → Option Fitted
  | [] => none
  | f :: l =>
    match firstBest crit l with
    | none => some f
    | some g => if crit f ≤ crit g then some f else some g

/-- What other libraries contribute. `search b` is what `least_squares` leaves behind for `b + 1` free break points: the vector of the last
evaluation of `nlbpfun` (which set the globals `A` and `breaks`) and the vector of the solution (whose residual is returned). `noise l i` is
the number `np.random.randn` draws for observation `i` in turn `l` of the error loop (line 534). -/
structure Externals where
  search : (b : ℕ) → (Fin (b + 1) → ℝ) × (Fin (b + 1) → ℝ)
  noise : ℕ → ℕ → ℝ

/-- The scaled data the models are fitted to: `xf`, `yf`, `n_err`, `err_var` and the weights. -/
structure Scaled (n : ℕ) where
  xf : Fin (n + 1) → ℝ
  yf : Fin (n + 1) → ℝ
  nErr : Fin (n + 1) → ℝ
  errVar : Fin (n + 1) → ℝ
  w : Fin (n + 1) → ℝ

/-- `rss` (e.g. line 360). -/
noncomputable def rssOf {n : ℕ} (d : Scaled n) (r : Fin (n + 1) → ℝ) : ℝ := ∑ i, r i ^ 2 / d.errVar i

/-- The normal equations of a broken line have no unique solution. Then `brk_pt_fit` returns the coefficients as a column (lines 1035-1039), an array of shape `(b + 2, 1)`,
which cannot be stored in part of a column of `b_A` (lines 308, 366, 418): a `ValueError`. -/
def singular {n b : ℕ} (d : Scaled n) (breaks : Fin b → ℝ) : Prop := ((trends d.xf breaks)ᵀ * diagonal d.w * trends d.xf breaks).det = 0

open Classical in
/-- The body of the loop of lines 348-421 for one number of break points. -/
noncomputable def tryModel {n : ℕ} (d : Scaled n) (lo hi : ℝ) (o : Opts) (maxIn : ℤ) (p : Plan) (opt : Externals) (nbr : ℤ) :
    Except PyErr Fitted :=
  if nbr = -1 then
    if ∑ i, d.w i = 0 then .error .linAlgError
    else
      let a := (∑ i, d.w i * d.yf i) / ∑ i, d.w i
      .ok (.offset a (rssOf d fun i => d.yf i - a))
  else if nbr = 0 then do
    let (a, r) ← brkPtFit d.xf d.yf (some (diagonal d.w)) ![]
    if singular d (![] : Fin 0 → ℝ) then .error .valueError                 -- line 366
    pure (.line 0 ![] a (rssOf d r))
  else if (o.initLen : ℤ) ≥ nbr then .error .indexError                     -- line 375: `brk_init.shape[1]`
  else
    match o.breaks with
    | some l =>
      if p.nbr1 = p.maxBrk then
        if nbr > maxIn then .error .indexError                              -- line 413: outside of `b_pts`
        else if (l.length : ℤ) ≠ nbr then .error .valueError                -- lines 413-418: shapes differ
        else do
          let (a, r) ← brkPtFit d.xf d.yf (some (diagonal d.w)) (fun i : Fin l.length => l[i])
          if singular d (fun i : Fin l.length => l[i]) then .error .valueError   -- line 418
          pure (.line l.length (fun i => l[i]) a (rssOf d r))
      else .error .attributeError                                           -- line 92: a list has no `shape`
    | none =>
      if p.nbr1 > 1 then .error .valueError                                 -- lines 83-86, 418: the proposal is ignored, shapes differ
      else if nbr > maxIn then .error .indexError
      else if (n : ℤ) + 1 < nbr then .error .valueError                     -- `least_squares`, method 'lm'
      else
        match nbr.toNat with
        | 0 => .error .valueError                                           -- not reached: `nbr` is positive
        | b + 1 => do
          let (a, _) ← brkPtFit d.xf d.yf (some (diagonal d.w)) (nlbpBreaks lo hi (opt.search b).1)
          let (_, r) ← brkPtFit d.xf d.yf (some (diagonal d.w)) (nlbpBreaks lo hi (opt.search b).2)
          if singular d (nlbpBreaks lo hi (opt.search b).1) then .error .valueError   -- line 418
          pure (.line (b + 1) (nlbpBreaks lo hi (opt.search b).1) a (rssOf d r))

/-- Lines 423-437. With `nbr1 > 1` other columns than those filled are compared: they are NaN, and the fit
with NaN break points is singular (line 479). -/
noncomputable def chooseModel (ndf : ℝ) (npts : ℕ) (fixed : Bool) (p : Plan) (tried : List Fitted) : Except PyErr Fitted :=
  if fixed ∧ p.nbr1 = p.maxBrk then
    match tried.getLast? with
    | some f => .ok f
    | none => .error .indexError
  else if p.nbr1 > 1 then
    if irange (p.nbr1 - 1) p.maxBrk = [] then .error .valueError else .error .linAlgError
  else
    match firstBest (aic ndf npts) tried with
    | some f => .ok f
    | none => .error .valueError                                            -- `argmin` of nothing

/-! ## Scaling and the whole function -/

/-- `np.mean`. -/
noncomputable def mean {n : ℕ} (y : Fin (n + 1) → ℝ) : ℝ := (∑ i, y i) / ((n : ℝ) + 1)

/-- `np.std`. -/
noncomputable def std {n : ℕ} (y : Fin (n + 1) → ℝ) : ℝ := Real.sqrt (mean fun i => (y i - mean y) ^ 2)

/-- Lines 188-194: centre and scale of `x`. -/
noncomputable def xCentre {n : ℕ} (x : Fin (n + 1) → ℝ) : ℝ := (x (Fin.last n) + x 0) / 2
noncomputable def xScale {n : ℕ} (x : Fin (n + 1) → ℝ) : ℝ := if x 0 ≠ x (Fin.last n) then (x (Fin.last n) - x 0) / 2 else 1

/-- Lines 199-202. -/
noncomputable def yScale {n : ℕ} (y : Fin (n + 1) → ℝ) : ℝ := if std y = 0 then 1 else std y

/-- Lines 205-222. -/
noncomputable def scaled {n : ℕ} (x y err : Fin (n + 1) → ℝ) : Scaled n :=
  let ev : Fin (n + 1) → ℝ := fun i => (err i / yScale y) ^ 2
  { xf := fun i => (x i - xCentre x) / xScale x
    yf := fun i => (y i - mean y) / yScale y
    nErr := fun i => err i / yScale y
    errVar := ev
    w := fun i => mean ev / ev i }

/-- Line 226: effective degrees of freedom. -/
noncomputable def ndfOf {n : ℕ} (cov : Matrix (Fin n) (Fin n) ℝ) : ℝ := ∑ i, 1 / ∑ j, cov i j

/-- `np.unique` of reals. -/
noncomputable def uniqueReal (l : List ℝ) : List ℝ := l.dedup.insertionSort (· ≤ ·)

/-- `xblim` (lines 230-236). -/
noncomputable def limits {n : ℕ} (xf : Fin (n + 1) → ℝ) : ℝ × ℝ :=
  let u := uniqueReal (List.ofFn xf)
  if u.length > 3 then (u.getD 1 0, u.getD (u.length - 2) 0) else (1, 1)

/-- The design matrix at the observations for the chosen model (lines 464-476). -/
noncomputable def normalDet {n : ℕ} (d : Scaled n) : Fitted → ℝ
  | .offset _ _ => ∑ i, d.w i
  | .line _ breaks _ _ => ((trends d.xf breaks)ᵀ * diagonal d.w * trends d.xf breaks).det

/-- `yfit` (lines 496-513) in scaled units: the design matrix is built again with the first value of `xfit`. -/
noncomputable def yfit {m : ℕ} (xfit : Fin (m + 1) → ℝ) : Fitted → Fin (m + 1) → ℝ
  | .offset a _ => fun _ => a
  | .line _ breaks coef _ => trends xfit breaks *ᵥ coef

/-- The loop of lines 532-575 as far as it can fail. -/
def errorLoop (free : Bool) (nloops : Arg) : Except PyErr Unit :=
  match nloops with
  | .int k =>
    if k = 0 then .error .zeroDivision                                      -- line 575
    else if k > 0 ∧ free then .error .typeError                             -- line 558: `np.concatenate([xfit[0]], breaks)`
    else .ok ()
  | _ => .error .typeError

/-- Lines 589-604: the observations that count for the profile at `v` (scaled): from the one after the first of the previous
profile to the first of this profile. -/
noncomputable def staWindow {n : ℕ} (d : Scaled n) (v : ℝ) : Finset (Fin (n + 1)) :=
  let xs := List.ofFn d.xf
  let u := uniqueReal xs
  let k := u.idxOf v
  let last := xs.idxOf v
  let first := if k = 0 then 0 else xs.idxOf (u.getD (k - 1) 0) + 1
  Finset.univ.filter fun i : Fin (n + 1) => first ≤ i.val ∧ i.val ≤ last

/-- `sta_mean` (line 601) in scaled units for the profile at `v`. -/
noncomputable def staMean {n : ℕ} (d : Scaled n) (v : ℝ) : Option ℝ :=
  if v ∈ uniqueReal (List.ofFn d.xf) then some ((∑ i ∈ staWindow d v, d.w i * d.yf i) / ∑ i ∈ staWindow d v, d.w i) else none

/-- `sta_rms` (lines 603-604) in scaled units for the profile at `v`. -/
noncomputable def staRms {n : ℕ} (d : Scaled n) (v : ℝ) : Option ℝ :=
  (staMean d v).map fun a => Real.sqrt ((∑ i ∈ staWindow d v, d.w i * (a - d.yf i) ^ 2) / ∑ i ∈ staWindow d v, d.w i)

/-- The result of `fit_cond`. -/
structure Fit (m : ℕ) where
  xfit : Fin (m + 1) → ℝ
  condslope : Fin (m + 1) → ℝ
  condslopeErr : Fin (m + 1) → Option ℝ
  timeDeriv : Fin (m + 1) → Option ℝ
  timeDerivErr : Fin (m + 1) → Option ℝ
  staMean : Fin (m + 1) → Option ℝ
  staRms : Fin (m + 1) → Option ℝ
  ndf : ℝ
  coef : List ℝ
  breaks : List ℝ

/-- Variance of the offset (lines 479-493): `P_2[0]` for the column of ones. -/
noncomputable def offsetVar {n : ℕ} (d : Scaled n) (cov : Matrix (Fin (n + 1)) (Fin (n + 1)) ℝ) : ℝ :=
  (∑ i, ∑ j, d.w i * d.errVar i * cov i j * d.w j) / (∑ i, d.w i) ^ 2

/-- Variances of the coefficients (lines 479-493) with the design matrix `E`: `P_2`, and `P_1` if `cov` is the identity. -/
noncomputable def coefVar {n k : ℕ} (d : Scaled n) (cov : Matrix (Fin (n + 1)) (Fin (n + 1)) ℝ) (E : Matrix (Fin (n + 1)) (Fin k) ℝ) : Fin k → ℝ :=
  let B := (Eᵀ * diagonal d.w * E)⁻¹
  (B * Eᵀ * diagonal d.w * diagonal d.errVar * cov * diagonal d.w * E * B).diag

/-- `A` in one turn of the error loop (lines 534-541): the fit to the data with noise added. -/
noncomputable def noisyCoef {n b : ℕ} (d : Scaled n) (breaks : Fin b → ℝ) (z : Fin (n + 1) → ℝ) : Fin (b + 2) → ℝ :=
  match brkPtFit d.xf (fun i => d.yf i + d.nErr i * z i) (some (diagonal d.w)) breaks with
  | .ok (a, _) => a
  | .error _ => 0

/-- `err` (lines 515-580) of a line at the profile `i`, in scaled units, after the square root of line 624: the mean square of the
deviations caused by the noise, times `P_3`. -/
noncomputable def lineErr {n m b : ℕ} (loops : ℤ) (noise : ℕ → ℕ → ℝ) (d : Scaled n) (cov : Matrix (Fin (n + 1)) (Fin (n + 1)) ℝ)
    (xfit : Fin (m + 1) → ℝ) (breaks : Fin b → ℝ) (coef : Fin (b + 2) → ℝ) (i : Fin (m + 1)) : Option ℝ :=
  let E := trends d.xf breaks
  let E' := trends xfit breaks
  let err := (∑ l ∈ Finset.range loops.toNat, ((E' *ᵥ coef) i - (E' *ᵥ noisyCoef d breaks fun j => noise l j.val) i) ^ 2) / (loops : ℝ)
  (Mapping.npDiv ((E' *ᵥ coefVar d cov E) i) ((E' *ᵥ coefVar d 1 E) i)).bind fun p3 => Mapping.npSqrt (err * p3)

/-- Lines 606-657: back to the original units, and the derivatives. `P_2`, from which the errors of the derivatives are taken, is a view of the diagonal of `P`
(`np.diag`, line 493; NumPy 1.9 and later), so lines 617 and 621 convert it like a coefficient; its root is not taken (lines 639, 647). -/
noncomputable def finish {n m : ℕ} (loops : ℤ) (opt : Externals) (x y : Fin (n + 1) → ℝ) (d : Scaled n) (cov : Matrix (Fin (n + 1)) (Fin (n + 1)) ℝ)
    (xfit : Fin (m + 1) → ℝ) (f : Fitted) : Fit m :=
  let xs := xScale x
  let x0 := xCentre x
  let ys := yScale y
  let y0 := mean y
  let xfitBack : Fin (m + 1) → ℝ := fun i => (xfit i - x0) / xs * xs + x0
  let pointer {b : ℕ} (breaks : Fin b → ℝ) (i : Fin (m + 1)) : ℤ :=
    (sorter ((xfitBack 0) :: List.ofFn fun j => breaks j * xs + x0) (List.ofFn xfitBack)).getD i.val 0
  { xfit := xfitBack
    condslope := fun i => yfit (fun i => (xfit i - x0) / xs) f i * ys + y0
    condslopeErr := match f with
      | .offset _ _ => fun _ => (Mapping.npSqrt (offsetVar d cov)).map fun v => v * ys
      | .line _ breaks coef _ => fun i => (lineErr loops opt.noise d cov (fun i => (xfit i - x0) / xs) breaks coef i).map fun v => v * ys
    timeDeriv := match f with
      | .offset _ _ => fun _ => some 0
      | .line 0 _ coef _ => fun _ => some (coef 1 * ys / xs)
      | .line (b + 1) breaks coef _ => fun i =>
        if 0 ≤ pointer breaks i ∧ pointer breaks i < (b : ℤ) + 2 then some (coef (Fin.ofNat _ ((pointer breaks i).toNat + 1)) * ys / xs) else none
    timeDerivErr := match f with
      | .offset _ _ => fun _ => none
      | .line 0 breaks _ _ => fun _ => some (coefVar d cov (trends d.xf breaks) 1 * ys / xs)
      | .line (b + 1) breaks _ _ => fun i =>
        if 0 ≤ pointer breaks i ∧ pointer breaks i < (b : ℤ) + 2 then
          some (coefVar d cov (trends d.xf breaks) (Fin.ofNat _ ((pointer breaks i).toNat + 1)) * ys / xs) else none
    staMean := fun i => (staMean d ((xfit i - x0) / xs)).map fun v => v * ys + y0
    staRms := fun i => (staRms d ((xfit i - x0) / xs)).map fun v => v * ys
    ndf := ndfOf cov
    coef := match f with
      | .offset a _ => [a * ys + y0]
      | .line _ _ coef _ => (coef 0 * ys + y0) :: List.ofFn fun j : Fin _ => coef j.succ * ys / xs
    breaks := match f with
      | .offset _ _ => []
      | .line _ breaks _ _ => List.ofFn fun j => breaks j * xs + x0 }

/-- The number of turns of the error loop; `errorLoop` refuses other arguments. -/
def loopsOf : Arg → ℤ
  | .int k => k
  | _ => 0

/-- Lines 303-308: with fewer fixed break points than allowed they are fitted at once. -/
def presetFails {n : ℕ} (d : Scaled n) (o : Opts) (maxIn : ℤ) : Prop :=
  match o.breaks with
  | some l => maxIn > l.length ∧ singular d (fun i : Fin l.length => l[i])
  | none => False

open Classical in
/-- `fit_cond` from line 188 on, for `n + 1` good observations with ascending `x`; `xfit` are the distinct profiles, ascending. -/
noncomputable def fitCore {n m : ℕ} (xfit : Fin (m + 1) → ℝ) (x y err : Fin (n + 1) → ℝ)
    (cov : Matrix (Fin (n + 1)) (Fin (n + 1)) ℝ) (args : List Arg) (opt : Externals) : Except PyErr (Fit m) := do
  let d := scaled x y err
  let ndf := ndfOf cov
  let (lo, hi) := limits d.xf
  let o0 ← parseArgs args
  let o := { o0 with breaks := o0.breaks.map fun l => l.map fun v => (v - xCentre x) / xScale x }    -- line 276
  let maxIn ← maxBreaks o
  let p := plan (o.breaks.map List.length) maxIn o.nbr1 ndf
  if presetFails d o maxIn then .error .valueError                           -- line 308
  let tried ← p.pbrk.mapM (tryModel d lo hi o maxIn p opt)
  let f ← chooseModel ndf (n + 1) o.breaks.isSome p tried
  if normalDet d f = 0 then .error .linAlgError                              -- line 479
  match f with
  | .offset _ _ => pure ()
  | .line b _ _ _ => errorLoop (decide (b ≠ 0) && o.breaks.isNone) o.nloops
  pure (finish (loopsOf o.nloops) opt x y d cov xfit f)

/-- An observation: profile number, value (NaN is `none`) and error. The arrays `x`, `y`, `n_err` as flattened in lines 135-137, one
profile after the other. -/
structure Obs where
  x : ℝ
  y : Option ℝ
  err : ℝ

/-- `fit_cond` (pyowc/core/stats.py:26-657). `none` if there are no good data (lines 162-176). Lines 181-184 sort `x` first and take the
sorting permutation of the sorted `x`. -/
noncomputable def fitCond (obs : List Obs) (lvcov : ℕ → ℕ → ℝ) (args : List Arg) (opt : Externals) :
    Except PyErr (Option ((m : ℕ) × Fit m)) :=
  let xfit := uniqueReal (obs.map Obs.x)
  let good := argwhere (fun o : Obs => o.y.isSome) obs
  let x0 := good.map fun i => ((obs[i]?).map Obs.x).getD 0
  let y0 := good.map fun i => ((obs[i]?).bind Obs.y).getD 0
  let e0 := good.map fun i => ((obs[i]?).map Obs.err).getD 0
  let x := x0.insertionSort (· ≤ ·)
  let order := stableArgsort x
  let y := order.map fun i => y0.getD i 0
  let e := order.map fun i => e0.getD i 0
  match good.length, xfit.length with
  | n + 1, m + 1 =>
    (fitCore (n := n) (m := m) (fun i => xfit.getD i.val 0) (fun i => x.getD i.val 0) (fun i => y.getD i.val 0) (fun i => e.getD i.val 0)
      (Matrix.of fun i j => lvcov (good.getD i.val 0) (good.getD j.val 0)) args opt).map fun f => some ⟨m, f⟩
  | _, _ => .ok none

end Verif.FitCond
