import Verif.Model.Finders
import Verif.Model.Topo
import Verif.Model.Region
import Verif.Model.Saf
import Verif.Model.Interp
import Verif.Model.Level
import Verif.Model.Update
import Mathlib.Data.Real.Archimedean

/-!
# Model of one profile of `update_salinity_mapping` (pyowc/calibration.py:157-331)

The pieces are the models of the functions called. The parameters are the functions of other libraries.
-/

namespace Verif.Profile

open Verif.Np Verif.Helper Verif.Region Verif.Finders Verif.Topo Verif.Saf Verif.Level

/-- One profile of the float source, as `get_float_data` takes it from the arrays (pyowc/helper.py:121-143). The date is a number. -/
structure FloatProfile where
  lat : Option ℝ
  long : Option ℝ
  date : ℝ
  sal : List (Option ℝ)
  tmp : List (Option ℝ)
  ptmp : List (Option ℝ)
  pres : List (Option ℝ)

/-- What the computation reads besides the profile, and the functions of other libraries: `interp2` is
`scipy.interpolate.interp2d(x, y, z, kind='linear')` at a point, `argsort` numpy's sort, `rand` its seeded random numbers, `interp`
is `np.interp`, `temperature` comes from `gsw`. -/
structure Env where
  topo : List ℤ
  table : List WmoBox
  disk : Disk ℝ
  name : List Char
  saf : SafProfiles ℝ
  cfg : MapConfig
  maxCasts : ℕ
  useSaf : ℤ
  interp2 : List ℝ → List ℝ → List (List ℤ) → ℝ → ℝ → ℝ
  argsort : List (Option ℝ) → List ℕ
  rand : ℕ → ℕ → List ℝ
  interp : Interp ℝ
  temperature : Temperature ℝ

/-- `float_long_tbase`, `grid_long_tbase` (pyowc/calibration.py:165-168, pyowc/helper.py:195-199). -/
noncomputable def tbase (x : ℝ) : ℝ := if x > 180 then x - 360 else x

/-- The depth of the ocean at the float (pyowc/calibration.py:165-182). -/
noncomputable def floatDepth (E : Env) (lat long : ℝ) : Except PyErr ℝ := do
  let x := tbase long
  let g ← topoGrid E.topo (x - 1) (x + 1) (lat - 1) (lat + 1)
  pure (-(E.interp2 g.2.1 g.2.2 g.1 x lat))

/-- `process_profiles_grid_variables` (pyowc/helper.py:182-222). A missing position makes the limits NaN, which
`get_topo_grid` cannot convert to an integer. -/
noncomputable def gridDepths (E : Env) (lat long : List (Option ℝ)) : Except PyErr (List ℝ) :=
  match lat.mapM id, long.mapM id with
  | some ys, some xs => do
    let ts := xs.map tbase
    match ts.min?, ts.max?, ys.min?, ys.max? with
    | some x0, some x1, some y0, some y1 => do
      let g ← topoGrid E.topo (x0 - 1) (x1 + 1) (y0 - 1) (y1 + 1)
      pure ((ts.zip ys).map fun p => -(E.interp2 g.2.1 g.2.2 g.1 p.1 p.2))
    | _, _, _, _ => .error .valueError
  | _, _ => .error .valueError

/-- `grid_long > 360` for one cast; false for NaN. -/
noncomputable def pastTurn (o : Option ℝ) : Bool :=
  match o with
  | some x => decide (x > 360)
  | none => false

/-- The longitude of the float beside casts with the longitudes `grid` (pyowc/calibration.py:200-203, 229-231). -/
noncomputable def matchLongitude (grid : List (Option ℝ)) (long : ℝ) : ℝ :=
  if (argwhere pastTurn grid).length > 0 then
    if 0 ≤ long ∧ long ≤ 20 then long + 360 else long
  else long

/-- The casts handed to `find_besthist`. -/
def castsOf (lat long : List (Option ℝ)) (dates z : List ℝ) : List Cast :=
  (lat.zip (long.zip (dates.zip z))).map fun p => ⟨p.2.1, p.1, some p.2.2.1, some p.2.2.2⟩

/-- The scalar arguments of `find_besthist` (pyowc/calibration.py:205-210). -/
def besthistArgs (E : Env) (lat long date z : ℝ) : BesthistArgs :=
  ⟨lat, long, date, z, E.cfg.latLarge, E.cfg.latSmall, E.cfg.longLarge, E.cfg.longSmall, E.cfg.phiLarge, E.cfg.phiSmall, E.cfg.ageLarge,
    E.cfg.ageSmall, E.cfg.usePv, E.maxCasts⟩

/-- A matrix given by its columns. -/
def toGrid (cols : List (List (Option ℝ))) : Interp.Grid ℝ where
  rows := (cols.headD []).length
  cols := cols.length
  at_ := fun r c => (((cols[c]?).getD [])[r]?).join

/-- The levels of the profile as `interp_climatology` takes them. -/
def floatLevels (f : FloatProfile) : List (Interp.FloatLevel ℝ) :=
  (f.sal.zip (f.ptmp.zip f.pres)).map fun p => ⟨p.1, p.2.1, p.2.2⟩

/-- The first `n` rows and `c` columns of an array. -/
def rowsOf (n c : ℕ) (a : ℕ → ℕ → Option ℝ) : List (List (Option ℝ)) :=
  (List.range n).map fun i => (List.range c).map fun j => a i j

/-- Position and pressures are there (pyowc/calibration.py:161-162). `np.argwhere(...).any()` asks for a position that is not 0. -/
def usable (f : FloatProfile) : Bool :=
  f.long.isSome && f.lat.isSome && (argwhere Option.isSome f.pres).any fun i => decide (i ≠ 0)

/-- What is known of the surroundings before the level loop. -/
structure Prepared where
  pos : FloatPos
  grid : GridData ℝ
  interpSal : List (List (Option ℝ))
  interpPres : List (List (Option ℝ))

/-- The 25 rows of the table of boxes (pyowc/calibration.py:185). For a known position no row is missing. -/
noncomputable def boxesAt (E : Env) (long lat : ℝ) : Except PyErr (List WmoBox) := do
  let rows ← find25boxes E.table (some long) (some lat)
  pure (rows.map fun r => r.getD ⟨none, 0, 0, 0⟩)

/-- The historical casts chosen for a profile with their depths (pyowc/calibration.py:184-226). -/
noncomputable def chosenCasts (E : Env) (f : FloatProfile) (lat long z : ℝ) : Except PyErr (SafGrid ℝ) := do
  let boxes ← boxesAt E long lat                                                          -- line 185
  let h ← histLocations E.disk E.name boxes                                               -- line 188
  let gz ← gridDepths E h.1 h.2.1                                                         -- line 197
  let idx ← findBesthist (besthistArgs E lat (matchLongitude h.2.1 long) f.date z) E.argsort E.rand (castsOf h.1 h.2.1 h.2.2 gz)
                                                                                          -- lines 200-210
  let d ← regionData E.disk E.name boxes idx f.pres E.cfg.pDelta                          -- line 214
  let bz ← gather gz idx                                                                  -- line 216
  applySaf E.interp E.temperature E.saf (decide (E.useSaf = 1)) ⟨d, bz⟩ ⟨lat, f.pres.zip (f.tmp.zip f.sal)⟩   -- lines 221-226

/-- Everything before the level loop (pyowc/calibration.py:164-239), for a known position. The positions of the casts are known here: `gridDepths`
raises otherwise. -/
noncomputable def prepare (E : Env) (f : FloatProfile) (lat long : ℝ) : Except PyErr Prepared := do
  let z ← floatDepth E lat long                                                           -- lines 165-182
  let b ← chosenCasts E f lat long z
  let s ← Interp.interpClimatology (toGrid b.data.sal) (toGrid b.data.ptmp) (toGrid b.data.pres) (floatLevels f)   -- lines 234-239
  let n := f.sal.length
  let c := b.data.sal.length
  pure ⟨⟨lat, matchLongitude b.data.long long, f.date, z⟩,                                -- lines 229-231
    ⟨b.data.long.filterMap id, b.data.lat.filterMap id, b.data.dates, b.z⟩, rowsOf n c s.1, rowsOf n c s.2⟩

/-- One level (pyowc/calibration.py:243-330): what it stores. -/
noncomputable def levelOf (E : Env) (f : FloatProfile) (p : Prepared) (n : ℕ) : Except PyErr (Option (Update.LevelOut ℝ)) := do
  match ← mapLevel E.cfg p.pos p.grid f.sal f.pres p.interpSal p.interpPres n with
  | none => pure none
  | some (h, r) => do
    let t ← item f.ptmp n                                                                 -- line 305
    pure (some ⟨fun m => match m with
      | .ptmp => t
      | .mappedSal => r.mappedSal
      | .mapErrors => r.mapError
      | .noise => r.noise
      | .signal => some r.signal, h⟩)

/-- One profile (pyowc/calibration.py:157-331). -/
noncomputable def profileOf (E : Env) (f : FloatProfile) : Except PyErr (Option (ℕ → Except PyErr (Option (Update.LevelOut ℝ)))) :=
  if usable f = true then
    match f.lat, f.long with
    | some lat, some long => do
      let p ← prepare E f lat long
      pure (some (levelOf E f p))
    | _, _ => pure none
  else pure none

/-- The computation of a run over the profiles of a float source, for the outer loop. -/
noncomputable def profilesOf (E : Env) (source : List FloatProfile) : Update.Profile ℝ := fun i => do
  let f ← item source i
  profileOf E f

end Verif.Profile
