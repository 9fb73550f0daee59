import Verif.Model.Utilities
import Verif.Model.Helper

/-!
# Model of the reference data reader: `get_data`, `get_region_hist_locations`, `get_region_data`,
`_sync_nans` (pyowc/data/fetchers.py) and of the cache in front of the files

A reference file is a list of casts. `pymatreader.read_mat` squeezes arrays of length one away: with a
single cast the positions and dates are plain numbers, with at most one level the profiles are one-dimensional.
-/

namespace Verif.Region

open Verif.Np Verif.Utilities Verif.Helper

variable {K : Type} [Field K] [LinearOrder K] [IsStrictOrderedRing K]

/-- One cast of a reference file: its entry in `lat`, `long`, `dates`, `source` and its column in `pres`,
`sal`, `ptmp`. The date is the text of the number in the file. -/
structure RefCast (K : Type) where
  lat : Option K
  long : Option K
  date : List Char
  source : List Char
  pres : List (Option K)
  sal : List (Option K)
  ptmp : List (Option K)
  deriving DecidableEq

/-- A reference file: its casts and the number of rows of its profiles. -/
structure RefFile (K : Type) where
  casts : List (RefCast K)
  levels : ℕ

/-- A row of the table of WMO boxes: the number of the box (NaN is `none`) and the flags for CTD, bottle and
Argo data. -/
structure WmoBox where
  number : Option ℤ
  ctd : ℤ
  bottle : ℤ
  argo : ℤ
  deriving DecidableEq

/-- `wmo_box[data_type]` -/
def WmoBox.flag (b : WmoBox) (dtype : ℕ) : ℤ :=
  if dtype = 1 then b.ctd else if dtype = 2 then b.bottle else b.argo

/-- The files in the historical directories: by data type and box number (the file name is made of the
prefix of the data type and the box number, pyowc/data/fetchers.py:193-206). -/
abbrev Disk (K : Type) := ℕ → ℤ → Option (RefFile K)

/-- What `get_data` hands out: the casts, the number of rows of the profiles, and whether positions and dates
are plain numbers because the file had a single cast. -/
structure Loaded (K : Type) where
  casts : List (RefCast K)
  levels : ℕ
  scalar : Bool

/-- `read_mat_ctd` (pyowc/data/fetchers.py:22-25). -/
def readCtd (f : RefFile K) : Except PyErr (Loaded K) :=
  .ok ⟨f.casts, f.levels, decide (f.casts.length = 1)⟩

/-- `read_mat_bottle` (pyowc/data/fetchers.py:28-40). A single position has no `.size` or `.shape[1]`; the
one-dimensional `lat` has no `shape[1]` either, which is evaluated if `lat` and `pres` have the same size. The
transposition of lines 35-38 is therefore never reached. -/
def readBottle (f : RefFile K) : Except PyErr (Loaded K) :=
  if f.casts.length = 1 then .error .attributeError
  else if f.casts.length = f.casts.length * f.levels then .error .indexError
  else .ok ⟨f.casts, f.levels, false⟩

/-- `str(source).find(name) != -1` (pyowc/data/fetchers.py:50). -/
def hasName (name : List Char) (c : RefCast K) : Bool := decide (name <:+: c.source)

/-- `read_mat_argo` (pyowc/data/fetchers.py:43-60). A single position has no length; `np.delete(..., axis=1)` raises for
one-dimensional profiles. Simplification: `temp` and `source`, from which nothing is removed, are not used later. -/
def readArgo (name : List Char) (f : RefFile K) : Except PyErr (Loaded K) :=
  if f.casts.length = 1 then .error .attributeError
  else if f.levels ≤ 1 then .error .valueError
  else do
    let notUse := argwhere (hasName name) f.casts
    let casts ← npDelete f.casts notUse
    .ok ⟨casts, f.levels, false⟩

/-- `get_data` (pyowc/data/fetchers.py:162-208), without the cache. `int(nan)` is a `ValueError`. -/
def getData (disk : Disk K) (name : List Char) (b : WmoBox) (dtype : ℕ) :
    Except PyErr (Option (Loaded K)) :=
  match b.number with
  | none => .error .valueError
  | some n =>
    if b.flag dtype = 1 then
      match disk dtype n with
      | none => .error .fileNotFound
      | some f =>
        (if dtype = 1 then readCtd f else if dtype = 2 then readBottle f else readArgo name f).map some
    else .ok none

/-- The order in which both functions go through the boxes (pyowc/data/fetchers.py:241-244, 324-327). -/
def visits (boxes : List WmoBox) : List (WmoBox × ℕ) :=
  boxes.flatMap fun b => [1, 2, 3].map fun (t : ℕ) => (b, t)

/-- State of the loop of `get_region_hist_locations`: latitudes, longitudes and dates. -/
abbrev Locations (K : Type) := List (Option K) × List (Option K) × List (List Char)

/-- One pass of the loop of `get_region_hist_locations` (pyowc/data/fetchers.py:247-257), given what
`get_data` did. `np.concatenate` refuses a plain number; every exception is ignored. -/
def histStep (st : Locations K) (d : Except PyErr (Option (Loaded K))) : Locations K :=
  match d with
  | .error _ => st
  | .ok none => st
  | .ok (some d) =>
    if d.scalar then st
    else (st.1 ++ d.casts.map (·.lat), st.2.1 ++ d.casts.map (·.long), st.2.2 ++ d.casts.map (·.date))

/-- `get_region_hist_locations` (pyowc/data/fetchers.py:212-267), given the results of `get_data`. -/
def histFrom (loads : List (Except PyErr (Option (Loaded K)))) :
    Except PyErr (List (Option K) × List (Option K) × List K) := do
  let st := loads.foldl histStep ([], [], [])
  if st.1.length = 0 then .error .valueError
  else
    let dates ← changeDates st.2.2
    pure (st.1, wrapLongitude st.2.1, dates)

/-- `get_region_hist_locations` (pyowc/data/fetchers.py:212-267). -/
def histLocations (disk : Disk K) (name : List Char) (boxes : List WmoBox) :
    Except PyErr (List (Option K) × List (Option K) × List K) :=
  histFrom ((visits boxes).map fun v => getData disk name v.1 v.2)

/-- State of the loop of `get_region_data`: the three matrices (a row per cast), positions, dates, and the counters
`max_depth`, `how_many_cols` and `starting_index`. -/
structure RegionState (K : Type) where
  pres : List (List (Option K))
  ptmp : List (List (Option K))
  sal : List (List (Option K))
  lat : List (Option K)
  long : List (Option K)
  dates : List (List Char)
  maxDepth : ℕ
  cols : ℕ
  start : ℕ

/-- `a.reshape((r, c))` of a flat array: `ValueError` if the size does not fit. -/
def reshape {α : Type} (l : List α) (r c : ℕ) : Except PyErr (List (List α)) :=
  if l.length = r * c then .ok ((List.range r).map fun (i : ℕ) => (l.drop (i * c)).take c)
  else .error .valueError

/-- `pres > max_pres`; comparisons with NaN are false. -/
def tooDeep (maxPres : Option K) (p : Option K) : Bool :=
  match maxPres, p with
  | some m, some x => decide (x > m)
  | _, _ => false

/-- The three columns of one cast after removal of missing and too deep levels
(pyowc/data/fetchers.py:357-369): pressure, potential temperature, salinity. -/
def castLevels (maxPres : Option K) (c : RefCast K) :
    Except PyErr (List (Option K) × List (Option K) × List (Option K)) := do
  let notNan := argwhere Option.isSome c.pres
  let pres ← gather c.pres notNan
  let sal ← gather c.sal notNan
  let ptmp ← gather c.ptmp notNan
  let deep := argwhere (tooDeep maxPres) pres
  let pres ← npDelete pres deep
  let sal ← npDelete sal deep
  let ptmp ← npDelete ptmp deep
  pure (pres, ptmp, sal)

/-- Widening the matrix for a longer cast (pyowc/data/fetchers.py:375-384). -/
def widen (grid : List (List (Option K))) (maxDepth newDepth : ℕ) : List (List (Option K)) :=
  grid.map (· ++ List.replicate (newDepth - maxDepth) none)

/-- Adding a cast to a matrix (pyowc/data/fetchers.py:396-409). -/
def addRow (isNew : Bool) (grid : List (List (Option K))) (row : List (Option K)) (cols rows : ℕ) :
    Except PyErr (List (List (Option K))) :=
  if isNew then .ok [row] else reshape (grid.flatten ++ row) (cols + 1) rows

/-- The body of the loop over the casts of a file (pyowc/data/fetchers.py:353-419) for the cast with
running number `k`. With at most one level the profiles are one-dimensional and `[:, i]` raises. -/
def loadCast (index : List ℕ) (maxPres : Option K) (levels : ℕ) (st : RegionState K) (c : RefCast K) (k : ℕ) :
    Except PyErr (RegionState K) :=
  if (argwhere (fun (j : ℕ) => decide (j = k)) index).length > 0 then
    if levels ≤ 1 then .error .indexError
    else do
      let (pres, ptmp, sal) ← castLevels maxPres c
      let newDepth := pres.length
      let rows := max newDepth st.maxDepth
      let grow : Bool := decide (newDepth > st.maxDepth ∧ st.maxDepth ≠ 0)
      let gp := if grow then widen st.pres st.maxDepth newDepth else st.pres
      let gt := if grow then widen st.ptmp st.maxDepth newDepth else st.ptmp
      let gs := if grow then widen st.sal st.maxDepth newDepth else st.sal
      let pad : List (Option K) :=
        if ¬ grow ∧ newDepth < st.maxDepth then List.replicate (st.maxDepth - newDepth) none else []
      let isNew : Bool := decide (gp.length = 0)
      let gp ← addRow isNew gp (pres ++ pad) st.cols rows
      let gt ← addRow isNew gt (ptmp ++ pad) st.cols rows
      let gs ← addRow isNew gs (sal ++ pad) st.cols rows
      pure ⟨gp, gt, gs, st.lat ++ [c.lat], st.long ++ [c.long], st.dates ++ [c.date],
        (gp.headD []).length, gp.length, st.start⟩
  else .ok st

/-- The loop over the casts of a file (pyowc/data/fetchers.py:351-422): an exception ends it, what was
loaded before stays. The matrices are only widened before an exception if the reshaping then works, see
`Verif.Lemmas.Region`; the model therefore drops the state of the failing pass. -/
def loadCasts (index : List ℕ) (maxPres : Option K) (levels : ℕ) :
    RegionState K → List (RefCast K) → ℕ → RegionState K
  | st, [], _ => st
  | st, c :: cs, k =>
    match loadCast index maxPres levels st c k with
    | .error _ => st
    | .ok st' => loadCasts index maxPres levels st' cs (k + 1)

/-- One pass of the loop of `get_region_data` (pyowc/data/fetchers.py:330-422), given what `get_data` did. The
special case of lines 335-341 (one row of profiles) is treated in `loadStep`; files never show it. -/
def regionStep (index : List ℕ) (maxPres : Option K) (st : RegionState K)
    (d : Except PyErr (Option (Loaded K))) : RegionState K :=
  match d with
  | .error _ => st
  | .ok none => st
  | .ok (some d) =>
    if d.scalar then st
    else loadCasts index maxPres d.levels { st with start := st.start + d.casts.length } d.casts st.start

/-- `_sync_nans` (pyowc/data/fetchers.py:461-474) at one position, for salinity, pressure and potential temperature. -/
def syncNan (s p t : Option K) : Option K × Option K × Option K :=
  let (p, t) := if s.isNone then (none, none) else (p, t)
  let (s, t) := if p.isNone then (none, none) else (s, t)
  let (s, p) := if t.isNone then (none, none) else (s, p)
  (s, p, t)

/-- `_sync_nans` on one cast. -/
def syncRow (s p t : List (Option K)) : List (Option K × Option K × Option K) :=
  List.zipWith (fun (a : Option K) (bc : Option K × Option K) => syncNan a bc.1 bc.2) s (List.zip p t)

/-- The result of `get_region_data`: matrices as lists of casts. -/
structure RegionData (K : Type) where
  sal : List (List (Option K))
  ptmp : List (List (Option K))
  pres : List (List (Option K))
  lat : List (Option K)
  long : List (Option K)
  dates : List K
  deriving DecidableEq

/-- One pass of the loop that removes casts without data (pyowc/data/fetchers.py:440-451), with the number
of casts removed so far. -/
def dropStep (st : RegionData K × ℕ) (column : ℕ) : RegionData K × ℕ :=
  let j := column - st.2
  if ((st.1.sal[j]?).getD []).all Option.isNone || ((st.1.pres[j]?).getD []).all Option.isNone then
    (⟨st.1.sal.eraseIdx j, st.1.ptmp.eraseIdx j, st.1.pres.eraseIdx j, st.1.lat.eraseIdx j,
      st.1.long.eraseIdx j, st.1.dates.eraseIdx j⟩, st.2 + 1)
  else st

/-- `max_pres` (pyowc/data/fetchers.py:305): missing if the float has no pressure. Simplification: `np.nanmax` would raise for a profile
without rows; the profiles of a float have at least one row. -/
def maxPressure (floatPres : List (Option K)) (delta : K) : Option K :=
  (nanmax floatPres).map (· + delta)

/-- `get_region_data` (pyowc/data/fetchers.py:276-458), given the results of `get_data`. Without any cast the arrays are
still lists and the first comparison raises, which becomes a `RuntimeError` (lines 425-437). -/
def regionFrom (index : List ℕ) (floatPres : List (Option K)) (delta : K)
    (loads : List (Except PyErr (Option (Loaded K)))) : Except PyErr (RegionData K) := do
  let st := loads.foldl (regionStep index (maxPressure floatPres delta)) ⟨[], [], [], [], [], [], 0, 0, 0⟩
  if st.pres.length = 0 then .error .runtimeError
  else
    let long := wrapLongitude st.long
    let rows := List.zipWith (fun (s : List (Option K)) (pt : List (Option K) × List (Option K)) =>
      syncRow s pt.1 pt.2) st.sal (List.zip st.pres st.ptmp)
    let dates ← (match changeDates st.dates with
      | .ok d => .ok d
      | .error _ => .error .runtimeError)
    let out : RegionData K := ⟨rows.map fun r => r.map (·.1), rows.map fun r => r.map (·.2.2),
      rows.map fun r => r.map (·.2.1), st.lat, long, dates⟩
    pure ((List.range out.sal.length).foldl dropStep (out, 0)).1

/-- `get_region_data` (pyowc/data/fetchers.py:276-458). -/
def regionData (disk : Disk K) (name : List Char) (boxes : List WmoBox) (index : List ℕ)
    (floatPres : List (Option K)) (delta : K) : Except PyErr (RegionData K) :=
  regionFrom index floatPres delta ((visits boxes).map fun v => getData disk name v.1 v.2)

end Verif.Region
