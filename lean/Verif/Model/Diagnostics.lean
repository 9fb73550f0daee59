import Verif.Model.Plots
import Verif.Model.SalVar
import Verif.Model.Helper
import Verif.Model.Workflow

/-!
# Model of `plot_diagnostics` (pyowc/plot/dashboard.py:15-135)

Which figures are saved and with which numbers: the map of `trajectory_plot` (pyowc/plot/plots.py:32-141), the error bars of `theta_sal_plot` (lines 147-203)
and the order of the figures. The drawing itself is not modelled. NaN is `none`.
-/

namespace Verif.Diagnostics

open Verif.Np Verif.Helper Verif.Plots Verif.Workflow

variable {K : Type} [Field K] [LinearOrder K] [IsStrictOrderedRing K] [FloorRing K]

/-! ## The map -/

/-- A row of the data frame `floats` (pyowc/plot/utils.py:30-33). -/
structure Place (K : Type) where
  number : K
  lat : Option K
  long : Option K

/-- A label (pyowc/plot/plots.py:130-135): row of the data frame, text, position, and the place on the scale of colours. -/
structure Label (K : Type) where
  row : ℕ
  text : K
  long : Option K
  lat : Option K
  colour : K

/-- What `trajectory_plot` draws: reference casts and float (longitude, latitude), the limits of the axes and the labels. -/
structure Map (K : Type) where
  casts : List (K × K)
  track : List (Option K × Option K)
  xlim : K × K
  ylim : K × K
  labels : List (Label K)

/-- The data frame `floats` of `create_dataframe` (pyowc/plot/utils.py:21-33); pandas refuses columns of unequal length. The longitudes were changed in place before
(pyowc/plot/dashboard.py:44-45). -/
def placesOf (no : List K) (lat long : List (Option K)) : Except PyErr (List (Place K)) :=
  if no.length = lat.length ∧ lat.length = long.length then
    .ok (List.zipWith (fun (v : K) (p : Option K × Option K) => ⟨v, p.1, p.2.map wrap180⟩) no (lat.zip long))
  else .error .valueError

/-- Lines 127-135: every third row, the first and the last one. -/
def labelsOf (rows : List (Place K)) : List (Label K) :=
  (rows.zipIdx.filter fun (p : Place K × ℕ) => decide (p.2 = 0 ∨ p.2 % 3 = 0 ∨ p.2 = rows.length - 1)).map fun (p : Place K × ℕ) =>
    ⟨p.2, p.1.number, p.1.long, p.1.lat, ((p.2 : K) + 1) / (rows.length : K)⟩

/-- The data frame `grid` (pyowc/plot/utils.py:18-28): the longitudes of `selected_hist` were changed in place (pyowc/plot/dashboard.py:47-49). -/
def castsOf (selected : List (Selected K)) : List (K × K) := selected.map fun s => (wrap180 s.long, s.lat)

/-- The map (pyowc/plot/dashboard.py:44-54, pyowc/plot/plots.py:93-135). An empty `selected_hist` has no column 0 (dashboard, line 48). -/
def mapOf (selected : List (Selected K)) (no : List K) (lat long : List (Option K)) : Except PyErr (Map K) :=
  let casts := castsOf selected
  match (casts.map Prod.fst).min?, (casts.map Prod.fst).max?, (casts.map Prod.snd).min?, (casts.map Prod.snd).max? with
  | some x0, some x1, some y0, some y1 => do
    let rows ← placesOf no lat long
    pure ⟨casts, rows.map fun r => (r.long, r.lat), (x0 - 20, x1 + 20), (y0 - 15, y1 + 15), labelsOf rows⟩
  | _, _, _, _ => .error .indexError

/-! ## The error bars -/

/-- An error bar: mapped salinity, mapped temperature, mapped error (pyowc/plot/plots.py:188-192). -/
structure Bar (K : Type) where
  sal : Option K
  theta : Option K
  err : Option K

/-- The error bars of the profile `prof` in column `i` (lines 185-192). -/
def barsOf (index : List (List (Option ℕ))) (i : ℕ) (prof : List (SalVar.Cell K)) : Except PyErr (List (Bar K)) :=
  (index.filterMap fun row => (row[i]?).join).mapM fun (j : ℕ) => do
    let c ← item prof j
    pure ⟨c.mapSal, c.mapPtmp, c.mapErr⟩

/-- The error bars of all profiles (lines 178-192), on the levels `T` of `find_10thetas`. -/
def allBars (T : Thetas.Thetas K) (data : List (List (SalVar.Cell K))) : Except PyErr (List (List (Bar K))) :=
  data.zipIdx.mapM fun (p : List (SalVar.Cell K) × ℕ) => barsOf T.index p.2 p.1

/-! ## The figures -/

/-- What `plot_diagnostics` reads. `data` holds the arrays of the source, the mapped file and the calibration, taken to have the same shape, with `rows` levels. `bounds`
are the strings `str(bounds)` of the configured `THETA_BOUNDS`; `str` writes an integer. -/
structure Input (K : Type) where
  selected : List (Selected K)
  no : List K
  lat : List (Option K)
  long : List (Option K)
  data : List (List (SalVar.Cell K))
  rows : ℕ
  limits : Thetas.Bounds K
  percent : K
  levels : ℕ
  bounds : List (List Char)
  str : ℕ → List Char

/-- The figures of a step and its exception. -/
abbrev Saved := List Figure × Option PyErr

/-- One step after another: an exception ends the run. -/
def andThen (a b : Saved) : Saved :=
  match a.2 with
  | some e => (a.1, some e)
  | none => (a.1 ++ b.1, b.2)

/-- A figure that is saved if a computation succeeds. -/
def saveIf {α : Type} (g : Figure) (r : Except PyErr α) : Saved :=
  match r with
  | .ok _ => ([g], none)
  | .error e => ([], some e)

/-- The figures of `sal_anom_plot` (pyowc/plot/plots.py:663-752). `contourf` needs two columns at least; it raises a `TypeError` (line 736). -/
def anomalyFigures (I : Input K) (cal : Bool) : Saved :=
  if I.data.flatten.all fun c => c.ptmp.isNone then ([], some .valueError)
  else if I.data.length < 2 ∧ I.bounds ≠ [] then ([], some .typeError)
  else (I.bounds.map (.anomaly cal), none)

/-- The figure of `cal_sal_curve_plot` (lines 588-660): only if there is a calibrated salinity. -/
def curveFigures (I : Input K) : Saved :=
  if I.data.flatten.any fun c => c.calSal.isSome then ([.curve], none) else ([], none)

/-- The figures of `sal_var_plot`. -/
def varianceFigures (I : Input K) : Saved :=
  let r := SalVar.salVarPlot I.rows I.levels I.limits I.percent I.data
  ((List.range r.1).map fun i => .variance (I.str (i + 1)), r.2)

/-- `plot_diagnostics` (pyowc/plot/dashboard.py:44-135): the figures saved, in order, and the exception. -/
def diagnostics (I : Input K) : Saved :=
  andThen (saveIf .trajectory (mapOf I.selected I.no I.lat I.long)) <|
    match Thetas.find10thetas I.limits I.percent (I.data.map fun prof => prof.map SalVar.Cell.toLevel) with
    | .error e => ([], some e)
    | .ok T =>
      andThen (saveIf (.thetaSal false) (allBars T I.data)) <|
      andThen (anomalyFigures I false) <|
      andThen (curveFigures I) <|
      andThen (saveIf (.thetaSal true) (allBars T I.data)) <|
      andThen (varianceFigures I) <|
      andThen (anomalyFigures I true) ([.profile], none)

end Verif.Diagnostics
