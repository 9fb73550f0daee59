import Verif.Model.Utilities

/-!
# Model of `pyowc/core/finders.py`: `find_ellipse`, `find_besthist`, `nearest_neighbour`, `find_25boxes`

`find_10thetas` is in `Verif.Model.Thetas`.
-/

namespace Verif.Finders

open Verif.Np Verif.Utilities

/-- `find_ellipse` (pyowc/core/finders.py:20-56) on numbers. -/
noncomputable def findEllipse (dataLong ellLong sizeLong dataLat ellLat sizeLat phi dataPv ellPv : ℝ) : ℝ :=
  let totalPv :=
    if dataPv ≠ 0 ∧ ellPv ≠ 0 then (ellPv - dataPv) / Real.sqrt (ellPv ^ 2 + dataPv ^ 2) / phi else 0
  Real.sqrt ((dataLong - ellLong) ^ 2 / (sizeLong * 3) ^ 2 + (dataLat - ellLat) ^ 2 / (sizeLat * 3) ^ 2 +
    totalPv ^ 2)

/-- One historical cast: an entry of `grid_long`, `grid_lat`, `grid_dates`, `grid_z_value`
(arguments of `find_besthist`, pyowc/core/finders.py:67). NaN is `none`. -/
structure Cast where
  long : Option ℝ
  lat : Option ℝ
  date : Option ℝ
  z : Option ℝ
  deriving Inhabited

/-- The scalar arguments of `find_besthist` (pyowc/core/finders.py:67-69). The float's own position, date and depth are
numbers: `update_salinity_mapping` does not call it for a missing position. Simplification: the scales and the age are not 0, as in every configuration; a
scale of 0 would raise `ZeroDivisionError`. -/
structure BesthistArgs where
  lat : ℝ
  long : ℝ
  date : ℝ
  z : ℝ
  latLarge : ℝ
  latSmall : ℝ
  longLarge : ℝ
  longSmall : ℝ
  phiLarge : ℝ
  phiSmall : ℝ
  ageLarge : ℝ
  ageSmall : ℝ
  mapPvUse : ℤ
  maxCasts : ℕ

/-- `potential_vorticity` (pyowc/core/finders.py:124, 130-131). The depth of a cast is never zero here (see `zeroDepth`); a zero
depth of the float is a division of numpy numbers and gives an infinity, or NaN, which makes every later value NaN: both are `none`. -/
noncomputable def pvOf (lat z : Option ℝ) : Option ℝ := do
  let la ← lat
  let zz ← z
  if zz = 0 then none else some (potentialVorticity la zz)

/-- `pv_float` (lines 125, 130). -/
noncomputable def pvFloat (A : BesthistArgs) : Option ℝ :=
  if A.mapPvUse = 1 then pvOf (some A.lat) (some A.z) else some 0

/-- The entry of `pv_hist` for one cast (lines 126, 131, 186, 228). -/
noncomputable def pvHist (A : BesthistArgs) (c : Cast) : Option ℝ :=
  if A.mapPvUse = 1 then pvOf c.lat c.z else some 0

/-- The entry of `ellipse` for one cast (lines 134-136). NaN in any number used gives NaN. -/
noncomputable def ellipseOf (A : BesthistArgs) (c : Cast) : Option ℝ := do
  let x ← c.long
  let y ← c.lat
  let pf ← pvFloat A
  let ph ← pvHist A c
  some (findEllipse x A.long A.longLarge y A.lat A.latLarge A.phiLarge ph pf)

/-- The entry of `correlation_large` for one cast (lines 185-193). The last three arguments are passed in the
order of the code: `pv_hist` is received as `phi`, `pv_float` as `pv_1` and `phi_large` as `pv_2`. -/
noncomputable def corrLarge (A : BesthistArgs) (c : Cast) : Option ℝ := do
  let x ← c.long
  let y ← c.lat
  let t ← c.date
  let pf ← pvFloat A
  let ph ← pvHist A c
  some (spatialCorrelation x A.long A.longLarge y A.lat A.latLarge t A.date A.ageLarge ph pf A.phiLarge)

/-- The entry of `correlation_small` for one cast (lines 227-238), same argument order. -/
noncomputable def corrSmall (A : BesthistArgs) (c : Cast) : Option ℝ := do
  let x ← c.long
  let y ← c.lat
  let t ← c.date
  let pf ← pvFloat A
  let ph ← pvHist A c
  some (spatialCorrelation x A.long A.longSmall y A.lat A.latSmall t A.date A.ageSmall ph pf A.phiSmall)

/-- `ellipse < 1` for one cast (line 143); false for NaN. -/
noncomputable def inside (A : BesthistArgs) (c : Cast) : Bool :=
  (ellipseOf A c).any fun e => decide (e < 1)

/-- `index_ellipse` (line 143). -/
noncomputable def indexEllipse (A : BesthistArgs) (casts : List Cast) : List ℕ := argwhere (inside A) casts

/-- `np.vectorize(f)(l)`: raises `ValueError` on an empty array. -/
def vectorize {α β : Type} (f : α → β) (l : List α) : Except PyErr (List β) :=
  if l = [] then .error .valueError else .ok (l.map f)

/-- `np.concatenate(np.array(l))` of a list of one-element arrays: `ValueError` for an empty list. -/
def concat1 (l : List ℕ) : Except PyErr (List ℕ) := if l = [] then .error .valueError else .ok l

/-- `index_rand` (lines 158-164): `round(u * n - 1)` for the draws `us`, -1 replaced by 0, unique and ascending. -/
noncomputable def indexRand (n : ℕ) (us : List ℝ) : List ℕ :=
  (uniqueInt (us.map fun (u : ℝ) =>
    let r := roundHalfEven (u * (n : ℝ) - 1)
    if r = -1 then 0 else r)).map Int.toNat

/-- The branch of `find_besthist` with too many points (lines 152-298), for the casts `hist` in the ellipse, their
numbers `idx` (= `index_ellipse`) and the random draws `us`. The `print` of lines 287-298 has no effect on
the result. -/
noncomputable def selectBest (A : BesthistArgs) (argsort : List (Option ℝ) → List ℕ) (hist : List Cast) (idx : List ℕ)
    (us : List ℝ) : Except PyErr (List ℕ) := do
  let c : ℕ := (A.maxCasts + 2) / 3                                  -- math.ceil(max_casts / 3)
  let rand := indexRand idx.length us                                -- lines 158-164
  let remain := (List.range hist.length).filter (fun i => decide (i ∉ rand))   -- lines 174-176
  let remainHist ← gather hist remain                                -- lines 178-182
  let cl ← vectorize (corrLarge A) remainHist                        -- lines 185-193
  let clSorted := argsort cl                                         -- line 195
  let zRemain ← gather remainHist clSorted                           -- lines 202-206
  let lsegment2 : ℤ := c + c - rand.length                           -- line 209
  let indexZ := (List.range zRemain.length).drop lsegment2.toNat     -- line 211
  let sRemain ← gather zRemain indexZ                                -- lines 219-223
  let cs ← vectorize (corrSmall A) sRemain                           -- lines 227-238
  let csSorted := argsort cs                                         -- line 240
  let leftover : ℤ := A.maxCasts - rand.length - lsegment2           -- line 243
  let randEll ← gather idx rand >>= concat1                          -- lines 247-250
  let i2 ← gather remain (pyTake clSorted lsegment2)                 -- lines 254-258
  let largeEll ← gather idx i2 >>= concat1                           -- lines 260-263
  let i3z ← gather indexZ (pyTake csSorted leftover)                 -- lines 266-270
  let i3l ← gather clSorted i3z                                      -- lines 272-274
  let i3r ← gather remain i3l                                        -- lines 276-278
  let smallEll ← gather idx i3r >>= concat1                          -- lines 280-283
  pure (randEll ++ largeEll ++ smallEll)                             -- line 285

/-- A zero depth among the casts when the potential vorticity is computed (line 131): `np.vectorize` hands Python numbers to
`potential_vorticity`, whose division raises `ZeroDivisionError`. -/
def zeroDepth (A : BesthistArgs) (casts : List Cast) : Prop := A.mapPvUse = 1 ∧ ∃ c ∈ casts, c.z = some 0

open Classical in
/-- `find_besthist` (pyowc/core/finders.py:67-304). `rand n k` are the `k` numbers drawn by `np.random.rand(k)` after
`np.random.seed(n)` (lines 155-158), `argsort` is numpy's default sort. The historical arrays have equal lengths, so they are
one list of casts. -/
noncomputable def findBesthist (A : BesthistArgs) (argsort : List (Option ℝ) → List ℕ) (rand : ℕ → ℕ → List ℝ)
    (casts : List Cast) : Except PyErr (List ℕ) := do
  if casts = [] then .error .valueError                              -- np.vectorize of nothing, line 135
  else if zeroDepth A casts then .error .zeroDivision                -- line 131
  else
    let idx := indexEllipse A casts                                  -- line 143
    let hist ← gather casts idx                                      -- lines 144-148
    if idx.length > A.maxCasts then                                  -- line 152
      selectBest A argsort hist idx (rand idx.length ((A.maxCasts + 2) / 3))
    else .ok idx                                                     -- lines 150, 301-304

/-! ## `nearest_neighbour` and `find_25boxes` -/

variable {K : Type} [Field K] [LinearOrder K] [IsStrictOrderedRing K]

/-- `np.argmin` of a list of numbers: the first index of the least value; `ValueError` on an empty array
(`none`). -/
def argminAux (best : K) (bi : ℕ) : ℕ → List K → ℕ
  | _, [] => bi
  | i, a :: l => if a < best then argminAux a i (i + 1) l else argminAux best bi (i + 1) l

/-- `np.argmin`, see `argminAux`. -/
def argmin : List K → Option ℕ
  | [] => none
  | a :: l => some (argminAux a 0 1 l)

/-- `la_lookup_x` (line 378): -5, 5, ..., 365. -/
def lookupX : List K := (List.range 38).map fun (i : ℕ) => -5 + 10 * (i : K)

/-- `la_lookup_y` (line 380): 85, 75, ..., -85. -/
def lookupY : List K := (List.range 18).map fun (i : ℕ) => 85 - 10 * (i : K)

/-- `la_lookup_no` before the transposition (lines 382-386): the 36 columns 1..18, 19..36, ..., 631..648, preceded by the last one
and followed by the first one. -/
def lookupColumns : List (List ℕ) :=
  let base := (List.range 36).map fun (c : ℕ) => (List.range 18).map fun (r : ℕ) => 18 * c + r + 1
  (base.drop 35) ++ base ++ (base.take 1)

/-- `nearest_neighbour` (lines 307-324) on the transposed table: row `y`, column `x`. -/
def nearestNeighbour (xAxis yAxis : List K) (columns : List (List ℕ)) (x y : K) : Except PyErr ℕ :=
  match argmin (xAxis.map fun a => |a - x|), argmin (yAxis.map fun a => |a - y|) with
  | some i, some j =>
    match columns[i]? with
    | none => .error .indexError
    | some col => match col[j]? with
      | none => .error .indexError
      | some b => .ok b
  | _, _ => .error .valueError

/-- `ln_x` (lines 389-417). -/
def boxLongs (long : K) : List K :=
  let x0 := long + 0.01
  let x1 := long + 10.01
  let x2 := long - 9.99
  let x3 := long + 20.01
  let x4 := long - 19.99
  [ if x0 ≥ 360 then x0 - 360 else x0,
    if x1 ≥ 360 then x1 - 360 else x1,
    if x2 < 0 then x2 + 360 else x2,
    if x3 ≥ 360 then x3 - 360 else x3,
    if x4 < 0 then x4 + 360 else x4 ]

/-- `ln_y` (lines 397-401). -/
def boxLats (lat : K) : List K := [lat + 0.01, lat + 10.01, lat - 9.99, lat + 20.01, lat - 19.99]

/-- The 25 box numbers `ln_i` (lines 419-428), latitude in the outer loop; `none` for the NaN case. -/
def boxNumbers (long lat : Option K) : Except PyErr (List (Option ℕ)) :=
  match long, lat with
  | some x, some y => do
    let ns ← ((boxLats y).flatMap fun yy => (boxLongs x).map fun xx => (xx, yy)).mapM
      fun p => nearestNeighbour lookupX lookupY lookupColumns p.1 p.2
    pure (ns.map some)
  | _, _ => .ok (List.replicate 25 none)

/-- `find_25boxes` (pyowc/core/finders.py:327-435): the 25 rows of the WMO box table, `none` for a row of NaN.
`table` is `pa_wmo_boxes['la_wmo_boxes']`; box number `b` is row `b - 1` (line 433). -/
def find25boxes {Row : Type} (table : List Row) (long lat : Option K) : Except PyErr (List (Option Row)) := do
  let ns ← boxNumbers long lat
  ns.mapM fun n => match n with
    | none => pure none
    | some b => match table[b - 1]? with
      | some r => .ok (some r)
      | none => .error .indexError

end Verif.Finders
