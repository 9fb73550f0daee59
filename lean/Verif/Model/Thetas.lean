import Verif.Np

/-!
# Model of `find_10thetas` (pyowc/core/finders.py:442-709)

The four arrays have one row per level and one column per profile. Here a profile is a list of levels and the data a list of
profiles. NaN is `none`. The bounds are `[]` (`none`) or one number, as `set_calseries` ensures. `use_percent_gt` is one
number.
-/

namespace Verif.Thetas

open Verif.Np

variable {K : Type} [Field K] [LinearOrder K] [IsStrictOrderedRing K] [FloorRing K]

/-- One cell of the arrays `pres`, `sal`, `ptmp`, `la_ptmp`. -/
structure Level (K : Type) where
  pres : Option K
  sal : Option K
  ptmp : Option K
  mapped : Option K
  deriving Inhabited

/-- The user's limits: `use_theta_lt`, `use_theta_gt`, `use_pres_lt`, `use_pres_gt`. -/
structure Bounds (K : Type) where
  thetaLt : Option K
  thetaGt : Option K
  presLt : Option K
  presGt : Option K

/-- The three assignments of NaN (e.g. lines 487-489). -/
def blank (l : Level K) : Level K := { l with pres := none, sal := none, ptmp := none }

/-- Lines 484-489. -/
def maskUnmapped (l : Level K) : Level K := if l.mapped.isNone then blank l else l

/-- The range test shared by lines 493-522 and 524-551: is the value excluded? A comparison with NaN is false. -/
def excluded (lt gt v : Option K) : Bool :=
  match lt, gt, v with
  | some a, none, some t => decide (t > a)
  | none, some b, some t => decide (t < b)
  | some a, some b, some t => if a < b then decide (t < b ∧ t > a) else decide (t > a ∨ t < b)
  | _, _, _ => false

/-- Lines 493-522. -/
def maskTheta (B : Bounds K) (l : Level K) : Level K := if excluded B.thetaLt B.thetaGt l.ptmp then blank l else l

/-- Lines 524-551. -/
def maskPres (B : Bounds K) (l : Level K) : Level K := if excluded B.presLt B.presGt l.pres then blank l else l

/-- Lines 484-551: the value left in each cell. The caller's arrays are changed in this way. -/
def mask (B : Bounds K) (l : Level K) : Level K := maskPres B (maskTheta B (maskUnmapped l))

/-- Lines 553-569: `pres_levels` for the masked data. Simplified for arrays without any element, which no mapped file holds: there `np.nanmin` of line 554
raises a ValueError already, here it is the NameError of line 573. -/
def presLevels (data : List (List (Level K))) : Except PyErr (List K) :=
  match nanmin (data.flatten.map Level.ptmp), nanmax (data.flatten.map Level.ptmp) with
  | some lo, some hi =>
    if (⌈lo * 10⌉ : K) / 10 < (⌊hi * 10⌋ : K) / 10 then
      match nanmin (data.flatten.map Level.pres), nanmax (data.flatten.map Level.pres) with
      | some minP, some maxP =>
        let levels := arange minP maxP 50
        if levels.length < 10 then
          let inc : K := (⌊(maxP - minP) / 10⌋ : K)
          if inc = 0 then .error .valueError      -- a step of 0: numpy cannot compute the length
          else .ok (arange minP maxP inc)
        else .ok levels
      | _, _ => .error .valueError                -- arange of NaN
    else .error .nameError                        -- `pres_levels` is unbound (line 573)
  | _, _ => .error .nameError

/-- Linear interpolation in points sorted by abscissa (`scipy.interpolate.interp1d`, linear): the segment found is the first one whose
right end is not left of `x`. -/
def interpSorted : List (K × K) → K → Option K
  | (x0, y0) :: (x1, y1) :: rest, x =>
    if x ≤ x1 then some (y0 + (y1 - y0) / (x1 - x0) * (x - x0)) else interpSorted ((x1, y1) :: rest) x
  | _, _ => none

/-- `interp1d(xs, ys)(x)`: the points are sorted by abscissa first. Simplification: if `x` is the abscissa of several points, scipy takes the first or the
last of them, depending on its version; the model takes the first. -/
def interp1d (pts : List (K × K)) (x : K) : Option K :=
  interpSorted (pts.insertionSort (fun a b => a.1 ≤ b.1)) x

/-- The cells of a profile with pressure and temperature (lines 576-577). -/
def goodPT (prof : List (Level K)) : List (K × K) :=
  prof.filterMap fun l => match l.pres, l.ptmp with
    | some p, some t => some (p, t)
    | _, _ => none

/-- `interp_t[pres_i, depth]` (lines 579-584). -/
def interpT (p : K) (prof : List (Level K)) : Option K :=
  let good := goodPT prof
  match (good.map Prod.fst).min?, (good.map Prod.fst).max? with
  | some lo, some hi => if hi > p ∧ p > lo then interp1d good p else none
  | _, _ => none

/-- `theta_levels[pres_i]` (lines 591-595): the mean over the profiles. -/
def thetaLevel (data : List (List (Level K))) (p : K) : Option K := nanmean (data.map (interpT p))

/-- `theta_level_indices[level, depth]` (lines 605-618). -/
def thetaIndex (theta : Option K) (prof : List (Level K)) : Option ℕ :=
  match theta, nanmin (prof.map Level.ptmp), nanmax (prof.map Level.ptmp) with
  | some th, some lo, some hi =>
    if hi > th ∧ th > lo then nanArgmin (prof.map fun l => l.ptmp.map fun t => |t - th|) else none
  | _, _, _ => none

/-- `np.arange(max(i - 1, 0), min(i + 1, n - 1) + 1)` (lines 631-633). -/
def neighbours (i n : ℕ) : List ℕ := (List.range n).filter fun j => decide (j ≤ i + 1 ∧ i ≤ j + 1)

/-- `k_index` (lines 635-659), for the temperature `t` at the level `i`: all neighbours at the least positive distance below (above)
`t`. -/
def kIndex (prof : List (Level K)) (i : ℕ) (t th : K) : List ℕ :=
  let temps := (neighbours i prof.length).map fun j => (j, (prof[j]?.bind Level.ptmp))
  if t > th then
    match ((temps.filterMap fun p => p.2.map fun u => t - u).filter fun d => decide (d > 0)).min? with
    | some m => (temps.filter fun p => decide (p.2.map (fun u => t - u) = some m)).map Prod.fst
    | none => [i]
  else if t < th then
    match ((temps.filterMap fun p => p.2.map fun u => u - t).filter fun d => decide (d > 0)).min? with
    | some m => (temps.filter fun p => decide (p.2.map (fun u => u - t) = some m)).map Prod.fst
    | none => [i]
  else [i]

/-- `sal_temp[level, depth]` (lines 622-674). Two neighbours at the same distance make `k_index` an array of two, whose
truth value (line 662) is a `ValueError`. `interp1d` of
lines 666-669 is given a list of a number and a 1 x 1 array, which NumPy 1.24 and later refuse; the result modelled is that of
earlier versions. -/
def salOn (theta : Option K) (prof : List (Level K)) : Except PyErr (Option K) :=
  match theta, thetaIndex theta prof with
  | some th, some i =>
    match prof[i]? with
    | none => .error .indexError
    | some li =>
      match li.ptmp with
      | none => .ok li.sal
      | some t =>
        match kIndex prof i t th with
        | [k] =>
          if k ≠ i then
            match li.sal, prof[k]?.bind Level.sal, prof[k]?.bind Level.ptmp with
            | some s, some sk, some tk => .ok (some (sk + (s - sk) / (t - tk) * (th - tk)))
            | _, _, _ => .ok li.sal
          else .ok li.sal
        | _ => .error .valueError
  | _, _ => .ok none

/-- One row of `sal_temp`. -/
def salRow (data : List (List (Level K))) (theta : Option K) : Except PyErr (List (Option K)) :=
  data.mapM (salOn theta)

/-- Lines 676-695: the variances, NaN where fewer than `percent` of the best-covered level's profiles have data. `bad` is an
array of pairs `(i, 0)`, so `var_sal_tlevels[bad] = nan` sets row 0 too whenever `bad` is not empty. -/
def filteredVar (percent : K) (rows : List (List (Option K))) : List (Option K) :=
  let numGood : List ℕ := rows.map fun r => (r.filterMap id).length
  let maxGood : ℕ := numGood.foldr max 0
  let bad : List Bool := numGood.map fun (n : ℕ) => decide (maxGood ≠ 0 ∧ (n : K) / (maxGood : K) < percent)
  let anyBad := bad.any id
  (rows.zip bad).zipIdx.map fun (p : (List (Option K) × Bool) × ℕ) =>
    if p.1.2 || (anyBad && p.2 == 0) then none else nanvar1 p.1.1

/-- Lines 699-707: repeatedly the first level of least variance. -/
def select : ℕ → List (Option K) → List ℕ
  | 0, _ => []
  | n + 1, v =>
    match nanArgmin v with
    | none => []
    | some i => i :: select n (v.set i none)

/-- The five results of `find_10thetas`; `tLevels`, `pLevels` and `index` have one entry per level found, the code pads them with NaN
to ten. -/
structure Thetas (K : Type) where
  tLevels : List (Option K)
  pLevels : List (Option K)
  index : List (List (Option ℕ))
  varSalTheta : List (Option K)
  thetaLevels : List (Option K)

/-- `find_10thetas` (pyowc/core/finders.py:442-709). -/
def find10thetas (B : Bounds K) (percent : K) (data0 : List (List (Level K))) : Except PyErr (Thetas K) := do
  let data := data0.map fun prof => prof.map (mask B)
  let pl ← presLevels data
  let tl := pl.map (thetaLevel data)
  let rows ← tl.mapM (salRow data)
  let v := filteredVar percent rows
  let chosen := select 10 v
  pure
    { tLevels := chosen.map fun (i : ℕ) => (tl[i]?).join
      pLevels := chosen.map fun (i : ℕ) => pl[i]?
      index := chosen.map fun (i : ℕ) => data.map (thetaIndex (tl[i]?).join)
      varSalTheta := v
      thetaLevels := tl }

/-- The arrays `pres`, `sal`, `ptmp` of the caller after `find_10thetas`, whether it returns or raises: lines 484-551 write into the arrays given, nothing after
them does (line 707 writes into `var_sal_tlevels`). -/
def arraysAfter (B : Bounds K) (data0 : List (List (Level K))) : List (List (Level K)) := data0.map fun prof => prof.map (mask B)

end Verif.Thetas
