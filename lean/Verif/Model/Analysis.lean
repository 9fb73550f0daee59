import Verif.Model.Profile
import Verif.Model.Calseries
import Verif.Model.Piecewise

/-!
# How `calc_piecewisefit` puts the files of the earlier steps together (pyowc/calibration.py:397-463)

The calibration reads the source of the float, the mapped file of `update_salinity_mapping` and the calseries file of `set_calseries`. It takes column `i`
of all of them together, without looking at the profile numbers of the mapped and the calseries file.
-/

namespace Verif.Analysis

open Verif.Np Verif.Helper Verif.Profile Verif.Update Verif.Calseries Verif.Piecewise

/-- The source of the float as `set_calseries` reads it (pyowc/configuration.py:152-156, 243-245). -/
def sourceOf (no : List ℝ) (src : List FloatProfile) : FloatSource ℝ :=
  ⟨no, src.map FloatProfile.sal, src.map FloatProfile.tmp, src.map FloatProfile.pres⟩

/-- A limit in the calseries file (pyowc/calibration.py:459-462): absent, or one number. Other shapes are not modelled: `none`. -/
def limitOf : List (List ℝ) → Option (Option ℝ)
  | [] => some none
  | [[x]] => some (some x)
  | _ => none

/-- The settings read from the calseries file (pyowc/calibration.py:451-463). Not modelled, hence `none`: `calseries` with several rows, limits and
`use_percent_gt` with several numbers. `max_breaks` holds integers; other numbers are rounded down here. -/
noncomputable def settingsOf (f : CalFile ℝ) : Option Settings :=
  match f.calseries, limitOf f.thetaLt, limitOf f.thetaGt, limitOf f.presLt, limitOf f.presGt, f.percent with
  | [row], some tl, some tg, some pl, some pg, some [[q]] =>
    some ⟨row, f.maxBreaks.map fun r => r.map fun x => ⌊x⌋, f.breaks, ⟨tl, tg, pl, pg⟩, q⟩
  | _, _, _, _, _, _ => none

/-- Level `n` of a profile of the source and of a column of the mapped matrices (pyowc/calibration.py:406-408, 418-420). -/
def cellOf (p : FloatProfile) (mapped : Mat → List (Option ℝ)) (n : ℕ) : Piecewise.Cell :=
  ⟨(p.sal[n]?).join, (p.ptmp[n]?).join, (p.pres[n]?).join, ((mapped .ptmp)[n]?).join, do
    let s ← ((mapped .mappedSal)[n]?).join
    let e ← ((mapped .mapErrors)[n]?).join
    some (s, e)⟩

/-- Column `i` of the source with that of the mapped matrices at the same place (pyowc/calibration.py:404-420, 569-575). A column that is not there is an
`IndexError`; in the code only if the profile belongs to a segment. -/
def pairedColumn (no : List ℝ) (src : List FloatProfile) (f : MapFile ℝ) (i : ℕ) : Except PyErr Column := do
  let p ← item src i
  let v ← item no i
  let ptmp ← item (f.mats .ptmp) i
  let sal ← item (f.mats .mappedSal) i
  let err ← item (f.mats .mapErrors) i
  pure ⟨v, (List.range p.pres.length).map (cellOf p fun m => match m with
    | .ptmp => ptmp
    | .mappedSal => sal
    | .mapErrors => err
    | _ => [])⟩

/-- All columns. -/
def columnsOf (no : List ℝ) (src : List FloatProfile) (f : MapFile ℝ) : Except PyErr (List Column) :=
  (List.range src.length).mapM (pairedColumn no src f)

/-- `calc_piecewisefit` (pyowc/calibration.py:397-743) from the contents of the files. `long` and `lat` are the positions of the profiles in the source, all known. -/
noncomputable def calibrateFiles (E : Piecewise.Env) (topo : List ℤ) (interp2 : List ℝ → List ℝ → List (List ℤ) → ℝ → ℝ → ℝ) (no : List ℝ)
    (src : List FloatProfile) (long lat : List ℝ) (f : MapFile ℝ) (S : Settings) : Except PyErr CalibFile := do
  let data ← columnsOf no src f
  let coords ← coordFloat topo interp2 f.selected.length long lat
  calibrate E S data coords

end Verif.Analysis
