import Verif.Model.Utilities
import Mathlib.LinearAlgebra.Matrix.NonsingularInverse
import Mathlib.Analysis.SpecialFunctions.Exp

/-!
# Model of `pyowc/core/stats.py`: `signal_variance`, `noise_variance`, `covar_xyt_pv`, `covarxy_pv`, `build_cov`

`brk_pt_fit` is in `Verif.Model.BreakFit`, `fit_cond` in `Verif.Model.FitCond`.
-/

namespace Verif.Stats

open Verif.Np Verif.Utilities

section Field

variable {K : Type} [Field K] [LinearOrder K] [IsStrictOrderedRing K]

/-- `np.nanvar(l)` (denominator n) of a list with at least one number. -/
def nanvar0 (l : List (Option K)) : K :=
  let vs := l.filterMap id
  let m := vs.sum / (vs.length : K)
  (vs.map fun v => (v - m) ^ 2).sum / (vs.length : K)

/-- `signal_variance` (pyowc/core/stats.py:660-684). NaN is `none`; `np.all` of nothing is true. -/
def signalVariance (sal : List (Option K)) : Except PyErr K :=
  if sal.all Option.isNone then .error .runtimeError else .ok (nanvar0 sal)

/-- One cast of `noise_variance`: an entry of `sal`, `lat`, `long`. -/
structure Obs (K : Type) where
  sal : Option K
  lat : Option K
  long : Option K
  deriving Inhabited

/-- `dist[i, j]` (pyowc/core/stats.py:716). -/
def dist (a b : Obs K) : Option K := do
  let la ← a.lat
  let lb ← b.lat
  let xa ← a.long
  let xb ← b.long
  some ((la - lb) ^ 2 + (xa - xb) ^ 2)

/-- `dist[dist == 0.0] = np.nan` (line 723). -/
def dropZero (d : Option K) : Option K := if d = some 0 then none else d

/-- `min_distances_indices[i]` (lines 723-724): `nanargmin` raises `ValueError` if the whole row is NaN. -/
def nearest (obs : List (Obs K)) (a : Obs K) : Except PyErr ℕ :=
  match nanArgmin (obs.map fun b => dropZero (dist a b)) with
  | some j => .ok j
  | none => .error .valueError

/-- `sal_noise[i]` squared (lines 726-727). -/
def noiseSq (a b : Obs K) : Option K := do
  let x ← a.sal
  let y ← b.sal
  some ((x - y) ^ 2)

/-- `noise_variance` (pyowc/core/stats.py:687-729); `none` is NaN (`nanmean` of nothing). The three arrays are 1-D of equal length, as
`update_salinity_mapping` passes them. -/
def noiseVariance (obs : List (Obs K)) : Except PyErr (Option K) :=
  if obs.all fun a => obs.all fun b => decide (dist a b = some 0) then .ok (some 0)      -- lines 718-720
  else do
    let idx ← obs.mapM (nearest obs)                                                    -- lines 723-724
    let other ← gather obs idx                                                          -- line 726
    pure ((nanmean (List.zipWith noiseSq obs other)).map (· / 2))                       -- line 727

end Field

/-- A row of the position arrays: columns 0 to 3. The documentation calls them latitude, longitude, date and depth. Positions are
numbers here (no NaN). -/
structure Pos where
  c0 : ℝ
  c1 : ℝ
  c2 : ℝ
  c3 : ℝ

/-- The scale arguments of `covar_xyt_pv` in the order of the code: `lat, long, age, phi, map_pv_use`. -/
structure Scales where
  lat : ℝ
  long : ℝ
  age : ℝ
  phi : ℝ
  pvUse : ℤ

/-- `p_v_covar` (lines 767-782) for two points. -/
noncomputable def pvTerm (S : Scales) (p q : Pos) : ℝ :=
  if S.pvUse = 1 then
    let a := potentialVorticity p.c0 p.c3
    let b := potentialVorticity q.c0 q.c3
    ((a - b) / Real.sqrt (a ^ 2 + b ^ 2) / S.phi) ^ 2
  else 0

/-- One entry of the result (lines 765-784). Column 0 is divided by `long`, column 1 by `lat`. For a zero `long`, `lat` or `phi` numpy
yields infinities or NaN where Lean yields 0: the theorems exclude them. -/
noncomputable def covarEntry (S : Scales) (p q : Pos) : ℝ :=
  let longCovar := ((p.c0 - q.c0) / S.long) ^ 2
  let latCovar := ((p.c1 - q.c1) / S.lat) ^ 2
  let ageCovar := if S.age ≠ 0 then ((p.c2 - q.c2) / S.age) ^ 2 else 0
  Real.exp (-(latCovar + longCovar + ageCovar + pvTerm S p q))

open Classical in
/-- `covar_xyt_pv` (pyowc/core/stats.py:733-784). With the potential vorticity, `np.vectorize` (lines 776-779) raises `ValueError`
for an empty array, and hands Python numbers to `potential_vorticity`, so a zero depth is a `ZeroDivisionError`. -/
noncomputable def covarXytPv {m n : ℕ} (p1 : Fin m → Pos) (p2 : Fin n → Pos) (S : Scales) :
    Except PyErr (Matrix (Fin m) (Fin n) ℝ) :=
  if S.pvUse = 1 ∧ m = 0 then .error .valueError
  else if S.pvUse = 1 ∧ ∃ i, (p1 i).c3 = 0 then .error .zeroDivision
  else if S.pvUse = 1 ∧ n = 0 then .error .valueError
  else if S.pvUse = 1 ∧ ∃ i, (p2 i).c3 = 0 then .error .zeroDivision
  else .ok (Matrix.of fun i j => covarEntry S (p1 i) (p2 j))

/-! ## `covarxy_pv` and `build_cov` -/

/-- A row of `coord_float`: columns 0 to 2. -/
structure Coord where
  c0 : ℝ
  c1 : ℝ
  c2 : ℝ

/-- The potential vorticity of `covarxy_pv` (lines 936-938), for a non-zero depth. -/
noncomputable def pvXy (c : Coord) : ℝ := (2 * 7.292 * 10 ^ (-5 : ℤ) * Real.sin (c.c0 * Real.pi / 180)) / c.c2

open Classical in
/-- One entry of the result of `covarxy_pv` (pyowc/core/stats.py:909-957): column 0 is divided by `lat`, column 1 by `long`. The potential
vorticity is used only if it is non-zero at the input point and at some point (line 950). -/
noncomputable def covarxyPv {n : ℕ} (input : Coord) (coords : Fin n → Coord) (long lat phi : ℝ) (usePv : Bool) (j : Fin n) : ℝ :=
  let cor := ((input.c0 - (coords j).c0) / lat) ^ 2 + ((input.c1 - (coords j).c1) / long) ^ 2
  let a := pvXy input
  let b := pvXy (coords j)
  let cor' := if usePv = true ∧ a ≠ 0 ∧ (∃ k, pvXy (coords k) ≠ 0) then
      cor + ((a - b) / Real.sqrt (a ^ 2 + b ^ 2) / phi) ^ 2 else cor
  Real.exp (-cor')

/-- `ptboundaries` and `ptscale_down` (lines 826-827), sorted by boundary as `interp1d` does. -/
noncomputable def scaleDown : List (ℝ × ℝ) :=
  [(-2, 1), (1, 1), (2.5, 1.5), (4, 1.5), (8, 4), (12, 4), (18, 6), (24, 6), (30, 6)]

/-- `ptboundaries` and `ptscale_up` (lines 826, 828), sorted by boundary. -/
noncomputable def scaleUp : List (ℝ × ℝ) :=
  [(-2, 1), (1, 1.5), (2.5, 1.5), (4, 4), (8, 4), (12, 6), (18, 6), (24, 6), (30, 6)]

/-- Piecewise linear interpolation in a sorted table, first segment whose right end is not left of `x`. -/
noncomputable def tableInterp : List (ℝ × ℝ) → ℝ → Option ℝ
  | (x0, y0) :: (x1, y1) :: rest, x =>
    if x ≤ x1 then some (y0 + (y1 - y0) / (x1 - x0) * (x - x0)) else tableInterp ((x1, y1) :: rest) x
  | _, _ => none

/-- `upper_interp(t)` / `lower_interp(t)` (lines 844-845): `ValueError` outside the table; NaN gives NaN. -/
noncomputable def verticalScale (table : List (ℝ × ℝ)) (t : Option ℝ) : Except PyErr (Option ℝ) :=
  match t with
  | none => .ok none
  | some x => if x < -2 ∨ 30 < x then .error .valueError else .ok (tableInterp table x)

/-- `cov[i + profile_1, j]` (lines 856-874) for one profile `pt`. -/
noncomputable def verticalEntry {m : ℕ} (pt : Fin m → Option ℝ) (i j : Fin m) : Except PyErr ℝ :=
  if i = j then .ok 1
  else do
    let l ← verticalScale (if i < j then scaleDown else scaleUp) (pt i)
    match l, pt i, pt j with
    | some s, some a, some b => .ok (Real.exp (-1 * (b - a) ^ 2 / s ^ 2))
    | _, _, _ => .ok 1

open Classical in
/-- `build_cov` (pyowc/core/stats.py:788-905). `ptmp p i` is `ptmp[i, p]`, `coord p` a row of `coord_float`. Row `p * ptmp_rows + i` of the code's
matrix is the pair `(p, i)` here. The loops evaluate every vertical entry, so the call fails if any of them does. -/
noncomputable def buildCov {n m : ℕ} (ptmp : Fin n → Fin m → Option ℝ) (coord : Fin n → Coord) (long lat phi : ℝ)
    (usePv : Bool) : Except PyErr (Fin n × Fin m → Fin n × Fin m → ℝ) :=
  if ∃ p i j e, verticalEntry (ptmp p) i j = .error e then .error .valueError
  else .ok fun a b => covarxyPv (coord a.1) coord long lat phi usePv b.1 *
    (match verticalEntry (ptmp a.1) a.2 b.2 with
    | .ok v => v
    | .error _ => 1)                                     -- does not occur in this branch

end Verif.Stats
