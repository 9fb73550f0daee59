import Verif.Model.Thetas

/-!
# Model of the computation in `sal_var_plot` (pyowc/plot/plots.py:283-558)

The arrays have one row per level and one column per profile; here a profile is a list of cells and the data a list of profiles, all with `rows`
cells. Modelled are the values drawn, the files saved and the exceptions; the drawing itself is not.
-/

namespace Verif.SalVar

open Verif.Np

variable {K : Type} [Field K] [LinearOrder K] [IsStrictOrderedRing K] [FloorRing K]

/-- One cell of the arrays `pres`, `sal`, `ptmp`, `map_ptmp`, `map_sal`, `map_sal_errors`, `cal_sal`, `cal_sal_errors`. -/
structure Cell (K : Type) where
  pres : Option K
  sal : Option K
  ptmp : Option K
  mapPtmp : Option K
  mapSal : Option K
  mapErr : Option K
  calSal : Option K
  calErr : Option K

/-- The four arrays given to `find_10thetas` (lines 327-333). -/
def Cell.toLevel (c : Cell K) : Thetas.Level K := ⟨c.pres, c.sal, c.ptmp, c.mapPtmp⟩

/-- The seven assignments of NaN (e.g. lines 337-343). -/
def blank (c : Cell K) : Cell K :=
  { c with pres := none, sal := none, ptmp := none, mapSal := none, mapErr := none, calSal := none, calErr := none }

/-- Lines 335-343. -/
def maskUnmapped (c : Cell K) : Cell K := if c.mapPtmp.isNone then blank c else c

/-- `np.argwhere(test)`: the pairs of row and column. Their order does not matter. -/
def hits (test : Cell K → Bool) (data : List (List (Cell K))) : List (ℕ × ℕ) :=
  data.zipIdx.flatMap fun p => (p.1.zipIdx.filter fun q => test q.1).map fun q => (q.2, p.2)

/-- `a[good] = np.nan` for the seven arrays, with `good` an array of pairs (e.g. lines 357-363): NumPy takes all the numbers in it as row numbers. -/
def blankRows (rows : ℕ) (good : List (ℕ × ℕ)) (data : List (List (Cell K))) : Except PyErr (List (List (Cell K))) :=
  let idx := good.flatMap fun p => [p.1, p.2]
  if idx.any (fun i => decide (rows ≤ i)) then .error .indexError
  else .ok (data.map fun prof => prof.mapIdx fun r c => if r ∈ idx then blank c else c)

/-- Lines 345-382: the limits of temperature. With only an upper limit the index is the array of booleans itself. -/
def maskTheta (rows : ℕ) (B : Thetas.Bounds K) (data : List (List (Cell K))) : Except PyErr (List (List (Cell K))) :=
  match B.thetaLt, B.thetaGt with
  | none, none => .ok data
  | some _, none => .ok (data.map fun prof => prof.map fun c => if Thetas.excluded B.thetaLt B.thetaGt c.ptmp then blank c else c)
  | _, some _ => blankRows rows (hits (fun c => Thetas.excluded B.thetaLt B.thetaGt c.ptmp) data) data

/-- Lines 384-421: the limits of pressure. -/
def maskPres (rows : ℕ) (B : Thetas.Bounds K) (data : List (List (Cell K))) : Except PyErr (List (List (Cell K))) :=
  match B.presLt, B.presGt with
  | none, none => .ok data
  | _, _ => blankRows rows (hits (fun c => Thetas.excluded B.presLt B.presGt c.pres) data) data

/-- Lines 335-421. -/
def maskAll (rows : ℕ) (B : Thetas.Bounds K) (data : List (List (Cell K))) : Except PyErr (List (List (Cell K))) := do
  let d ← maskTheta rows B (data.map fun prof => prof.map maskUnmapped)
  maskPres rows B d

/-- `interp1d([t, tk], [x, y])(th)`: NaN if one of the values is. -/
def lineValue (t tk th : K) (x y : Option K) : Option K :=
  match x, y with
  | some x, some y => some (y + (x - y) / (t - tk) * (th - tk))
  | _, _ => none

/-- One entry of `s_int`, `s_map`, `s_map_err`, `s_cal` or `s_cal_err` (lines 423-526) for the profile and the theta level: `q` is the quantity drawn
and `gate` the one whose presence in both cells decides on the interpolation. The index of the cell (lines 423-434) and `k_index` (lines 443-470) are
computed as in `find_10thetas`; two candidates for `k_index` make it an array of two, whose truth value is a `ValueError` (line 472). -/
def onLevel (theta : Option K) (prof : List (Cell K)) (gate q : Cell K → Option K) : Except PyErr (Option K) :=
  match theta, Thetas.thetaIndex theta (prof.map Cell.toLevel) with
  | some th, some i =>
    match prof[i]? with
    | none => .error .indexError
    | some ci =>
      match ci.ptmp with
      | none => .ok (q ci)
      | some t =>
        match Thetas.kIndex (prof.map Cell.toLevel) i t th with
        | [k] =>
          if k ≠ i then
            match prof[k]? with
            | none => .error .indexError
            | some ck =>
              match gate ci, gate ck, ck.ptmp with
              | some _, some _, some tk => .ok (lineValue t tk th (q ci) (q ck))
              | _, _, _ => .ok (q ci)
          else .ok (q ci)
        | _ => .error .valueError
  | _, _ => .ok none

/-- The five values drawn for a profile on a theta level. -/
structure Drawn (K : Type) where
  sal : Option K
  mapSal : Option K
  mapErr : Option K
  calSal : Option K
  calErr : Option K

/-- Lines 436-526 for one profile and one theta level. -/
def drawn (theta : Option K) (prof : List (Cell K)) : Except PyErr (Drawn K) := do
  let s ← onLevel theta prof Cell.sal Cell.sal
  let m ← onLevel theta prof Cell.mapSal Cell.mapSal
  let me ← onLevel theta prof Cell.mapSal Cell.mapErr
  let c ← onLevel theta prof Cell.calSal Cell.calSal
  let ce ← onLevel theta prof Cell.calSal Cell.calErr
  pure ⟨s, m, me, c, ce⟩

/-- Lines 309-526: the matrix of values drawn, one row for each theta level. More than ten levels leave the arrays of `find_10thetas`. Levels that were not
found are NaN. -/
def salVarData (rows levels : ℕ) (B : Thetas.Bounds K) (percent : K) (data : List (List (Cell K))) : Except PyErr (List (List (Drawn K))) := do
  let T ← Thetas.find10thetas B percent (data.map fun prof => prof.map Cell.toLevel)
  let d ← maskAll rows B data
  if 10 < levels then .error .indexError
  (List.range levels).mapM fun (i : ℕ) => d.mapM (drawn (T.tLevels[i]?).join)

/-- Lines 527-558: the number of figures saved, and the exception. The limits of the axis are set after saving; if no salinity of the float is drawn at all
they are NaN, which Matplotlib refuses. -/
def salVarPlot (rows levels : ℕ) (B : Thetas.Bounds K) (percent : K) (data : List (List (Cell K))) : ℕ × Option PyErr :=
  match salVarData rows levels B percent data with
  | .error e => (0, some e)
  | .ok m =>
    if levels = 0 then (0, none)
    else if m.all fun row => row.all fun v => v.sal.isNone then (1, some .valueError)
    else (levels, none)

end Verif.SalVar
