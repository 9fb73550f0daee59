import Verif.Spec.Plots
import Verif.Spec.SalVar
import Verif.Spec.Thetas
import Verif.Model.Diagnostics

/-!
# What the properties of the diagnostic plots mean
-/

namespace Verif.Spec

open Verif.Helper Verif.Workflow Verif.Diagnostics

variable {K : Type} [Field K] [LinearOrder K] [IsStrictOrderedRing K]

/-- The longitude `y` is drawn for the longitude `x`: the same meridian, in the range of the map. -/
def DrawnAs (x y : K) : Prop := SameMeridian y x ∧ -180 < y ∧ y ≤ 180

/-- A longitude as it occurs in the files: counted from Greenwich or from the date line, possibly past the end of the turn. -/
def FileLongitude (x : K) : Prop := -180 < x ∧ x ≤ 540

/-- The axis reaches from `m` below the least to `m` above the largest of the values. -/
def Framed (axis : K × K) (m : K) (values : List K) : Prop :=
  (∃ a ∈ values, axis.1 = a - m) ∧ (∃ b ∈ values, axis.2 = b + m) ∧ ∀ v ∈ values, axis.1 + m ≤ v ∧ v + m ≤ axis.2

/-- Row `r` of `n` is named on the map: the first and the last one, and every third. -/
def Named (n r : ℕ) : Prop := r = 0 ∨ 3 ∣ r ∨ r + 1 = n

/-- A point of the map within the axes. -/
def OnMap (xlim ylim : K × K) (x y : K) : Prop := xlim.1 ≤ x ∧ x ≤ xlim.2 ∧ ylim.1 ≤ y ∧ y ≤ ylim.2

/-- The error bar `b` belongs to the level of the profile nearest to the temperature `th` among the levels within the limits: it stands at the mapped salinity and
temperature of this level, and its width is the mapping error. -/
def BarFor (B : Thetas.Bounds K) (prof : List (SalVar.Cell K)) (th : K) (b : Bar K) : Prop :=
  ∃ r t x, NearestCell B (prof.map measuredLevel) th r t ∧ prof[r]? = some x ∧ x.mapPtmp ≠ none ∧ b.theta = x.mapPtmp ∧ b.sal = x.mapSal ∧ b.err = x.mapErr

/-- The figures of a complete run of `plot_diagnostics`, in the order in which they are made. The calibration curve needs a calibrated salinity. -/
def completeFigures (I : Input K) : List Figure :=
  [.trajectory, .thetaSal false] ++ I.bounds.map (.anomaly false) ++
    (if ∃ prof ∈ I.data, ∃ x ∈ prof, x.calSal ≠ none then [.curve] else []) ++ [.thetaSal true] ++
    ((List.range I.levels).map fun i => .variance (I.str (i + 1))) ++ I.bounds.map (.anomaly true) ++ [.profile]

end Verif.Spec
