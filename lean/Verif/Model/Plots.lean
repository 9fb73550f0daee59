import Verif.Model.Thetas

/-!
# Model of the computations in the other plots (pyowc/plot/plots.py, pyowc/plot/dashboard.py)

Only the numbers drawn are modelled, not the drawing. NaN is `none`.
-/

namespace Verif.Plots

open Verif.Np

variable {K : Type} [Field K] [LinearOrder K] [IsStrictOrderedRing K] [FloorRing K]

/-- A level of a profile: temperature and salinity. -/
abbrev TS (K : Type) := Option K × Option K

/-- The first of every run of equal temperatures: `sorted[np.unique(sorted[:, 0], return_index=True)[1]]` (pyowc/plot/plots.py:703-705), the missing
temperatures left out already (line 707 drops them). -/
def firstOfEach : List (K × Option K) → List (K × Option K)
  | a :: b :: l => if a.1 = b.1 then firstOfEach (a :: l) else a :: firstOfEach (b :: l)
  | l => l
termination_by l => l.length

/-- The points `good_temp[good_data]`, `good_sal[good_data]` of a profile (pyowc/plot/plots.py:696-710). -/
def anomPoints (argsort : List (Option K) → List ℕ) (prof : List (TS K)) : Except PyErr (List (K × K)) := do
  let sorted ← gather prof (argsort (prof.map Prod.fst))
  let measured := sorted.filterMap fun p => p.1.map fun t => (t, p.2)
  pure ((firstOfEach measured).filterMap fun p => p.2.map fun s => (p.1, s))

/-- `interp1d(x, y, bounds_error=False)(theta)` for sorted points (lines 710-712): NaN outside the range. -/
def interpFill (pts : List (K × K)) (theta : K) : Option K :=
  match pts.head?, pts.getLast? with
  | some lo, some hi => if theta < lo.1 ∨ hi.1 < theta then none else Thetas.interpSorted pts theta
  | _, _ => none

/-- `sal_int[theta, k]` (lines 709-712). -/
def anomValue (argsort : List (Option K) → List ℕ) (prof : List (TS K)) (theta : K) : Except PyErr (Option K) := do
  let pts ← anomPoints argsort prof
  pure (if 3 ≤ pts.length then interpFill pts theta else none)

/-- `np.nanmedian` of at least one value. -/
def median (vs : List K) : Option K :=
  let s := vs.insertionSort (· ≤ ·)
  let n := s.length
  if n = 0 then none
  else if n % 2 = 1 then s[n / 2]?
  else match s[n / 2 - 1]?, s[n / 2]? with
    | some a, some b => some ((a + b) / 2)
    | _, _ => none

/-- The row of `sal_anom` for one temperature (lines 695-727). The range of profiles (lines 691-693) goes from the first to the last one with a
temperature; the profiles outside have no value in `sal_int` either. -/
def anomRow (argsort : List (Option K) → List ℕ) (data : List (List (TS K))) (theta : K) : Except PyErr (List (Option K)) := do
  let row ← data.mapM fun prof => anomValue argsort prof theta
  match median (row.filterMap id) with
  | none => pure (row.map fun _ => none)
  | some m => pure (row.map fun v => v.map fun x => x - m)

/-- `sal_anom_plot` (lines 663-727): the matrix drawn, one row for each temperature of the grid. Without any temperature `np.nanmin` of an empty array raises (line
692). -/
def salAnom (argsort : List (Option K) → List ℕ) (grid : List K) (data : List (List (TS K))) : Except PyErr (List (List (Option K))) :=
  if data.flatten.all fun p => p.1.isNone then .error .valueError
  else grid.mapM (anomRow argsort data)

/-- One element of `cal_sal - sal` (line 591) or `sta_sal - sal` (line 594). -/
def offsetOf (p : Option K × Option K) : Option K :=
  match p.1, p.2 with
  | some c, some s => some (c - s)
  | _, _ => none

/-- One profile of `avg_sal_offset` (line 599) or `avg_sta_offset` (line 601) of `cal_sal_curve_plot`: the pairs are calibrated and measured salinity. -/
def avgOffset (prof : List (Option K × Option K)) : Option K :=
  nanmean (prof.map offsetOf)

/-- `i in n_legend` (lines 176-180 of `theta_sal_plot`) for `n` profiles, the last of which has the number `last`. -/
def inLegend (n : ℕ) (last : K) (i : ℕ) : Bool :=
  decide ((i : K) ∈ arange 0 last ((⌈(n : K) / 30⌉ : ℤ) : K))

/-- `long[long > 180] -= 360` (pyowc/plot/dashboard.py:45, 49). -/
def wrap180 (x : K) : K := if x > 180 then x - 360 else x

end Verif.Plots
