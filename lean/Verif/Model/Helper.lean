import Verif.Np

/-!
# Model of `pyowc/helper.py`: the cast selection of one level, outlier removal, selected historical points

The loading and saving helpers are in `Verif.Model.Update`.
-/

namespace Verif.Helper

open Verif.Np

variable {K : Type} [Field K] [LinearOrder K] [IsStrictOrderedRing K]

/-- The part of `grid_data` that the helpers read: position, date and depth of the casts. Simplification: no NaN among them. -/
structure GridData (K : Type) where
  long : List K
  lat : List K
  dates : List K
  z : List K

/-- The dictionary `hist_data`: six arrays. The code's shape `(k, 1)` is a list of `k` here. -/
structure HistData (K : Type) where
  sal : List K
  pres : List K
  long : List K
  lat : List K
  dates : List K
  z : List K
  deriving DecidableEq

/-- `a[n]`, or `IndexError`. -/
def item {α : Type} (l : List α) (n : ℕ) : Except PyErr α :=
  match l[n]? with
  | some a => .ok a
  | none => .error .indexError

/-- `np.abs(q - p) < delta`: false if one is NaN. -/
def within (delta : K) (p q : Option K) : Bool :=
  match p, q with
  | some x, some y => decide (|y - x| < delta)
  | _, _ => false

/-- The values at `idx`, all of which are numbers: the caller passes only positions of numbers. -/
def gatherKnown {α : Type} (l : List (Option α)) (idx : List ℕ) : List α := idx.filterMap fun i => (l[i]?).join

/-- `process_profile_hist_variables` (pyowc/helper.py:226-259). The matrices `hist_interp_sal` and `hist_interp_pres` are lists of rows. -/
def processProfileHist (g : GridData K) (floatPres : List (Option K)) (interpSal interpPres : List (List (Option K))) (nLevel : ℕ)
    (delta : K) : Except PyErr (HistData K) := do
  let salRow ← item interpSal nLevel
  let casts := argwhere Option.isSome salRow                    -- line 242
  let sal := gatherKnown salRow casts                           -- line 243
  let presRow ← item interpPres nLevel
  let pres ← gather presRow casts                               -- line 244
  let long ← gather g.long casts                                -- lines 245-248
  let lat ← gather g.lat casts
  let dates ← gather g.dates casts
  let z ← gather g.z casts
  let p ← item floatPres nLevel
  let idx := argwhere (within delta p) pres                     -- line 251
  let sal' ← gather sal idx                                     -- lines 252-257
  let long' ← gather long idx
  let lat' ← gather lat idx
  let dates' ← gather dates idx
  let z' ← gather z idx
  pure ⟨sal', gatherKnown pres idx, long', lat', dates', z'⟩

/-- `np.delete(a, idx)` for indices in range. -/
def npDelete {α : Type} (l : List α) (idx : List ℕ) : Except PyErr (List α) :=
  if idx.all (· < l.length) then
    .ok (((List.range l.length).filter fun i => decide (i ∉ idx)).filterMap fun i => l[i]?)
  else .error .indexError

/-- `remove_statical_outliers` (pyowc/helper.py:262-282). -/
def removeOutliers (outlier : List ℕ) (h : HistData K) : Except PyErr (HistData K) :=
  if outlier.length > 0 then do
    let sal ← npDelete h.sal outlier
    let pres ← npDelete h.pres outlier
    let long ← npDelete h.long outlier
    let lat ← npDelete h.lat outlier
    let dates ← npDelete h.dates outlier
    let z ← npDelete h.z outlier
    pure ⟨sal, pres, long, lat, dates, z⟩
  else .ok h

/-- A row of `selected_hist`: longitude, latitude, profile number. -/
structure Selected (K : Type) where
  long : K
  lat : K
  profileNo : K
  deriving DecidableEq

/-- One pass of the loop in `selected_historical_points` (pyowc/helper.py:357-369): rows near in longitude, and among these rows near in
latitude; the point is added if there is none. -/
def selectPoint (no : K) (sel : List (Selected K)) (x y : K) : List (Selected K) :=
  let d0 := sel.filter fun s => decide (|s.long - x| < 1 / 60)        -- line 361
  let d1 := d0.filter fun s => decide (|s.lat - y| < 1 / 60)          -- line 362
  if d1.length = 0 then sel ++ [⟨x, y, no⟩] else sel

/-- `selected_historical_points` (pyowc/helper.py:334-371). `no` is `la_profile_no[profile_index]`. An empty selection starts with the
first cast (`IndexError` without casts). -/
def selectedHistoricalPoints (no : K) (sel : List (Selected K)) (h : HistData K) : Except PyErr (List (Selected K)) := do
  let start ←
    if sel.length = 0 then do                                          -- lines 348-353
      let x ← item h.long 0
      let y ← item h.lat 0
      pure [⟨x, y, no⟩]
    else .ok sel
  let lats ← gather h.lat (List.range h.long.length)                  -- `hist_data['hist_lat'][j]`
  pure ((h.long.zip lats).foldl (fun s p => selectPoint no s p.1 p.2) start)

end Verif.Helper
