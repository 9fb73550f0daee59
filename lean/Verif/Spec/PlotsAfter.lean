import Verif.Spec.Diagnostics
import Verif.Spec.Piecewise

/-!
# What the property of the plots after a calibration means
-/

namespace Verif.Spec

open Verif.Piecewise Verif.Workflow Verif.Diagnostics

/-- A level as the plots see it: the arrays of the source, the mapped ones, and the calibrated ones of the saved calibration. -/
def plotCell (x : Piecewise.Cell) (o : CellOut) : SalVar.Cell ℝ :=
  ⟨x.pres, x.sal, x.ptmp, x.mappedPtmp, x.mapped.map Prod.fst, x.mapped.map Prod.snd, o.calSal, o.calSalErr⟩

/-- The plots are made from the data and the settings of a calibration and from what it saved. -/
def PlotsOf (S : Settings) (data : List Column) (out : CalibFile) (I : Input ℝ) : Prop :=
  I.limits = S.bounds ∧ I.percent = S.percent ∧ I.data = List.zipWith (fun (c : Column) (o : ColOut) => List.zipWith plotCell c.cells o.cells) data out.columns

/-- The figures `plot_diagnostics` saves before those of the salinities on the chosen levels. -/
def figuresBefore (I : Input ℝ) : List Figure :=
  [.trajectory, .thetaSal false] ++ I.bounds.map (.anomaly false) ++
    (if ∃ prof ∈ I.data, ∃ x ∈ prof, x.calSal ≠ none then [.curve] else []) ++ [.thetaSal true]

end Verif.Spec
