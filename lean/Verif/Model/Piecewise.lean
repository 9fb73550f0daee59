import Verif.Model.Thetas
import Verif.Model.Stats
import Verif.Model.Mapping
import Verif.Model.FitCond
import Verif.Model.Topo
import Mathlib.Data.Real.Archimedean

/-!
# Model of `calc_piecewisefit` (pyowc/calibration.py:378-743)

The arrays have one row per level and one column per profile; here the data are a list of columns. NaN is `none`. The conversions of
`gsw`, the optimiser inside `fit_cond` and its random numbers are parameters. Left out: whether `savemat` accepts break points of unequal
number.
-/

namespace Verif.Piecewise

open Verif.Np Verif.Stats Verif.Mapping Verif.FitCond Verif.Thetas

/-- One cell of the source and mapped arrays (lines 406-408, 418-420). A mapped salinity and its error are both there or both missing, as
`update_salinity_mapping` writes them. -/
structure Cell where
  sal : Option ℝ
  ptmp : Option ℝ
  pres : Option ℝ
  mappedPtmp : Option ℝ
  mapped : Option (ℝ × ℝ)

/-- A profile: its number and its levels. -/
structure Column where
  no : ℝ
  cells : List Cell

/-- `gsw.conversions.C_from_SP(s, t, 0)` and `gsw.conversions.SP_from_C(c, t, 0)`. -/
structure Gsw where
  cFromSP : ℝ → ℝ → ℝ
  spFromC : ℝ → ℝ → Option ℝ

/-- The calseries file as `set_calseries` saves it (lines 456-463): `calseries` is a row, the other arrays are lists of rows. -/
structure Settings where
  calseries : List ℝ
  maxBreaks : List (List ℤ)
  breaks : List (List (Option ℝ))
  bounds : Bounds ℝ
  percent : ℝ

/-- The small scales and the switch of the potential vorticity (pyowc/core/stats.py:881-885). -/
structure CovConfig where
  long : ℝ
  lat : ℝ
  phi : ℝ
  usePv : Bool

/-- What the calibration uses besides the data: `opt i` are the optimiser and the random numbers in segment `i`. -/
structure Env where
  gsw : Gsw
  cov : CovConfig
  opt : ℕ → Externals

/-! ## The ten levels of a segment -/

/-- The cell as `find_10thetas` sees it (lines 590-593). -/
def toLevel (c : Cell) : Level ℝ := ⟨c.pres, c.sal, c.ptmp, c.mappedPtmp⟩

/-- `ten_sal[:, p]`, `ten_ptmp[:, p]`, ... (lines 598-611): the cells of the levels found in column `p`, then NaN. Conversion of NaN to an integer
gives a negative number (line 598). -/
def tenCells (index : List (List (Option ℕ))) (p : ℕ) (c : Column) : List (Option Cell) :=
  let found := index.filterMap fun row => (row[p]?).join
  found.map (fun (j : ℕ) => c.cells[j]?) ++ List.replicate (10 - found.length) none

/-- `x`, `y`, `err` (lines 619-634) for one of the ten cells of the profile `no`. `isfinite` in `fit_cond` drops infinite quotients like NaN. -/
noncomputable def observation (G : Gsw) (no : ℝ) (o : Option Cell) : Obs :=
  match o with
  | some ⟨some s, some t, _, _, some (ms, me)⟩ =>
    let icond := G.cFromSP s t
    let mcond := G.cFromSP ms t
    ⟨no, npDiv mcond icond, 100 * |mcond - G.cFromSP (ms + me / 100) t| / icond⟩
  | _ => ⟨no, none, 0⟩

/-- The covariance of `build_cov` (line 638) by position in the flattened observations, ten for each profile. -/
noncomputable def flatCov {k : ℕ} (cov : Fin k × Fin 10 → Fin k × Fin 10 → ℝ) (a b : ℕ) : ℝ :=
  if h : a / 10 < k ∧ b / 10 < k then cov (⟨a / 10, h.1⟩, ⟨a % 10, Nat.mod_lt _ (by norm_num)⟩) (⟨b / 10, h.2⟩, ⟨b % 10, Nat.mod_lt _ (by norm_num)⟩)
  else 0

/-- The ten cells of all columns of a segment. -/
def tenOf (index : List (List (Option ℕ))) (cols : List Column) : List (List (Option Cell)) :=
  cols.zipIdx.map fun (c : Column × ℕ) => tenCells index c.2 c.1

/-- The observations of a segment, one profile after the other. -/
noncomputable def observations (G : Gsw) (cols : List Column) (ten : List (List (Option Cell))) : List Obs :=
  (List.zipWith (fun (c : Column) l => l.map (observation G c.no)) cols ten).flatten

/-- Lines 590-648: the ten levels, the covariance and the fit of a segment with the profiles `cols` at `coords`; `args` are the extra arguments
of `fit_cond`. -/
noncomputable def fitSegment (E : Env) (S : Settings) (i : ℕ) (cols : List Column) (coords : List Coord) (args : List Arg) :
    Except PyErr (Option ((m : ℕ) × Fit m)) := do
  let th ← find10thetas S.bounds S.percent (cols.map fun c => c.cells.map toLevel)
  let ten := tenOf th.index cols
  let cov ← buildCov (n := cols.length) (m := 10) (fun p j => ((ten.getD p []).getD j none).bind Cell.ptmp)
    (fun p => coords.getD p ⟨0, 0, 0⟩) E.cov.long E.cov.lat E.cov.phi E.cov.usePv
  fitCond (observations E.gsw cols ten) (flatCov cov) args (E.opt i)

/-! ## Writing the results -/

/-- The results of one level (lines 696-715). -/
structure CellOut where
  calCond : Option ℝ
  calCondErr : Option ℝ
  calSal : Option ℝ
  calSalErr : Option ℝ
  staSal : Option ℝ
  staSalErr : Option ℝ
  deriving Inhabited

/-- The results of the fit for one profile (lines 649-654). -/
structure FitAt where
  factor : Option ℝ
  factorErr : Option ℝ
  timeDeriv : Option ℝ
  timeDerivErr : Option ℝ
  staMean : Option ℝ
  staRms : Option ℝ

/-- The results of one profile. -/
structure ColOut extends FitAt where
  cells : List CellOut

/-- The initial values (lines 467-479). -/
def blankCell : CellOut := ⟨none, none, none, none, none, none⟩
def blankColumn (c : Column) : ColOut := ⟨⟨none, none, none, none, none, none⟩, c.cells.map fun _ => blankCell⟩

/-- Lines 695-715 for one level, given the results of the fit for its profile. -/
noncomputable def calCell (G : Gsw) (r : FitAt) (c : Cell) : CellOut :=
  match c.sal, c.ptmp with
  | some s, some t =>
    let cond := G.cFromSP s t
    let calCond := r.factor.map fun f => f * cond
    let calCondErr := r.factorErr.map fun e => e * cond
    let calSal := calCond.bind fun x => G.spFromC x t
    let calSal1 := do
      let x ← calCond
      let e ← calCondErr
      G.spFromC (x + e) t
    let staSal := r.staMean.bind fun f => G.spFromC (f * cond) t
    let staSal1 := do
      let f ← r.staMean
      let e ← r.staRms
      G.spFromC (f * cond + e * cond) t
    { calCond := calCond
      calCondErr := calCondErr
      calSal := calSal
      calSalErr := do
        let a ← calSal
        let b ← calSal1
        some |a - b|
      staSal := staSal
      staSalErr := do
        let a ← staSal
        let b ← staSal1
        some |a - b| }
  | _, _ => blankCell

/-- Assignment of `m + 1` values to `k` positions (e.g. line 649): one value is repeated, other unequal numbers are a `ValueError`. -/
def spread {α : Type} {m : ℕ} (k : ℕ) (f : Fin (m + 1) → α) : Except PyErr (List α) :=
  if m + 1 = k then .ok (List.ofFn f)
  else if m = 0 then .ok (List.replicate k (f 0))
  else .error .valueError

/-- Lines 649-654 and 692-715: the results for the profiles `cols`. -/
noncomputable def segmentOut (G : Gsw) (cols : List Column) {m : ℕ} (f : Fit m) : Except PyErr (List ColOut) := do
  let fac ← spread cols.length fun p : Fin (m + 1) =>
    (⟨some (f.condslope p), f.condslopeErr p, f.timeDeriv p, f.timeDerivErr p, f.staMean p, f.staRms p⟩ : FitAt)
  pure (List.zipWith (fun (c : Column) (r : FitAt) => (⟨r, c.cells.map (calCell G r)⟩ : ColOut)) cols fac)

/-! ## The settings -/

/-- `unique_cal` (lines 484-489). -/
noncomputable def segments (S : Settings) : List ℝ := (uniqueReal S.calseries).filter fun v => decide (v ≠ 0)

/-- Lines 492-508: `max_breaks` and `sstatus`. -/
def checkMaxBreaks (nSeq : ℕ) (mb : List (List ℤ)) : List (List ℤ) × Bool :=
  if nSeq > 1 then
    match mb with
    | [row] => (List.replicate nSeq row, true)
    | _ => (mb, decide (mb.length = nSeq))
  else (mb, true)

/-- Lines 521-534, one segment: is the number of break points admissible? The truth value of an array of several numbers is a `ValueError`. Rows of limits are
not empty (an empty array has a truth value in older versions of numpy only). -/
def checkBreaksOf (mb : List (List ℤ)) (breaks : List (List (Option ℝ))) (n : ℕ) : Except PyErr Bool :=
  match breaks[n]? with
  | none => .error .indexError
  | some row =>
    match mb[n]? with
    | none => .error .indexError
    | some [k] => .ok (decide (¬ (((row.filter Option.isSome).length : ℤ) > k)))
    | some _ => .error .valueError

/-- Lines 510-534. -/
def checkBreaks (nSeq : ℕ) (mb : List (List ℤ)) (breaks : List (List (Option ℝ))) : Except PyErr Bool :=
  if breaks.length > 0 then do
    let l ← (List.range nSeq).mapM (checkBreaksOf mb breaks)
    pure (decide (breaks.length = nSeq) && l.all id)
  else .ok true

/-- The extra arguments of `fit_cond` for segment `i` (lines 641-684). -/
def fitArgs (mb : List (List ℤ)) (breaks : List (List (Option ℝ))) (i : ℕ) : Except PyErr (List Arg) :=
  if breaks.length = 0 then
    match (mb[i]?).bind List.head? with
    | some k => .ok [.str "max_no_breaks", .int k]
    | none => .error .indexError
  else
    match breaks[i]?, mb[i]? with
    | some row, some [k] =>
      if k ≠ 0 then .ok [.str "breaks", .arr (row.filterMap id), .str "max_no_breaks", .int k]
      else .ok [.str "breaks", .arr (row.filterMap id)]
    | some _, some _ => .error .valueError
    | _, _ => .error .indexError

/-! ## The loop over the segments -/

/-- What is saved (lines 729-743). -/
structure CalibFile where
  columns : List ColOut
  coef : List ℝ
  breaks : List (List ℝ)

/-- `a[calindex] = values`. -/
def putAll {α : Type} : List α → List (ℕ × α) → List α
  | a, [] => a
  | a, (i, v) :: rest => putAll (a.set i v) rest

/-- What one segment contributes: columns with their results, coefficients and break points. -/
structure SegmentOut where
  puts : List (ℕ × ColOut)
  coef : List ℝ
  breaks : List ℝ

/-- One turn of the loop of lines 563-721: segment `i` has the value `v` in `calseries`. `coords` is `none` if there were no selected historical
points (line 424): the name `coord_float` is then not bound. If no good data are found, `fit_cond` returns NaN, which has no `flatten`
(line 651). With prescribed break points the index of line 672 or 687 is out of range for every column but the first; a segment that is only the first
column never has good data (no salinity variance in one profile), and line 674 cannot unpack NaN. Simplification: the code looks up the limit of the segment
after it has found the levels; a call in which both fail is given the exception of the lookup. -/
noncomputable def segmentWork (E : Env) (S : Settings) (mb : List (List ℤ)) (data : List Column) (coords : Option (List Coord))
    (iv : ℕ × ℝ) : Except PyErr SegmentOut := do
  let cal := argwhere (fun c : ℝ => decide (c = iv.2)) S.calseries
  match coords with
  | none => .error .nameError
  | some cs =>
    let sub ← gather cs cal
    let cols ← gather data cal
    let args ← fitArgs mb S.breaks iv.1
    let fit ← fitSegment E S iv.1 cols sub args
    match fit with
    | none => if S.breaks.length = 0 then .error .attributeError else if cal = [0] then .error .typeError else .error .indexError
    | some ⟨_, f⟩ =>
      let res ← segmentOut E.gsw cols f
      if S.breaks.length ≠ 0 then (if cal = [0] then .error .typeError else .error .indexError)
      else pure ⟨cal.zip res, f.coef, f.breaks⟩

/-- The assignments of one segment (lines 649-721). -/
def applySegment (out : CalibFile) (r : SegmentOut) : CalibFile :=
  ⟨putAll out.columns r.puts, out.coef ++ r.coef, out.breaks ++ (if r.breaks.length > 0 then [r.breaks] else [])⟩

/-- One turn of the loop of lines 563-721. -/
noncomputable def segmentStep (E : Env) (S : Settings) (mb : List (List ℤ)) (data : List Column) (coords : Option (List Coord))
    (out : CalibFile) (iv : ℕ × ℝ) : Except PyErr CalibFile := do
  let r ← segmentWork E S mb data coords iv
  pure (applySegment out r)

/-- `calc_piecewisefit` (pyowc/calibration.py:450-743): what is saved. The coordinates come from `coordFloat`. -/
noncomputable def calibrate (E : Env) (S : Settings) (data : List Column) (coords : Option (List Coord)) : Except PyErr CalibFile := do
  let blank : CalibFile := ⟨data.map blankColumn, [], []⟩
  let seg := segments S
  let mb := checkMaxBreaks seg.length S.maxBreaks
  let ok ← checkBreaks seg.length mb.1 S.breaks
  if mb.2 && ok then
    (seg.zipIdx.map fun (v : ℝ × ℕ) => (v.2, v.1)).foldlM (segmentStep E S mb.1 data coords) blank
  else pure blank

/-! ## The coordinates -/

/-- The coordinates of the profiles (lines 423-448). `hist` is the number of rows of `selected_hist`; positions are known. `interp2` is
`scipy.interpolate.interp2d`. Columns: longitude, latitude, depth. -/
noncomputable def coordFloat (topo : List ℤ) (interp2 : List ℝ → List ℝ → List (List ℤ) → ℝ → ℝ → ℝ) (hist : ℕ) (long lat : List ℝ) :
    Except PyErr (Option (List Coord)) :=
  if hist > 0 then
    let long1 := if long.any (fun x => decide (x > 180)) then long.map fun x => x - 360 else long
    match long1.min?, long1.max?, lat.min?, lat.max? with
    | some x0, some x1, some y0, some y1 => do
      let g ← Verif.Topo.topoGrid topo (x0 - 1) (x1 + 1) (y0 - 1) (y1 + 1)
      let z := (long1.zip lat).map fun p => -(interp2 g.2.1 g.2.2 g.1 p.1 p.2)
      pure (some ((long.zip (lat.zip z)).map fun p => ⟨p.1, p.2.1, p.2.2⟩))
    | _, _, _, _ => .error .valueError
  else .ok none

end Verif.Piecewise
