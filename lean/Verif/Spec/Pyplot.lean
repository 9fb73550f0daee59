import Verif.Spec.Diagnostics
import Verif.Spec.Workflow
import Verif.Model.Pyplot

/-!
# What the properties of the saved figures mean
-/

namespace Verif.Spec

open Verif.Helper Verif.Workflow Verif.Diagnostics Verif.Pyplot

variable {K : Type}

/-- The name of a figure after the name of the float, as a user looks for it. -/
def figureName : Figure → List Char
  | .trajectory => "_trajectory.".toList
  | .thetaSal false => "_uncalibrated_theta_sal.".toList
  | .thetaSal true => "_calibrated_theta_sal.".toList
  | .profile => "_salinity_profile.".toList
  | .variance i => "_salinity_variance_".toList ++ i ++ ".".toList
  | .curve => "_salinity_curve.".toList
  | .anomaly false b => "_uncalibrated_salinity_anomaly_".toList ++ b ++ ".".toList
  | .anomaly true b => "_calibrated_salinity_anomaly_".toList ++ b ++ ".".toList

/-- Where a user looks for a figure. -/
def figureFile (plotsDir format name : List Char) (g : Figure) : List Char := plotsDir ++ "/".toList ++ name ++ figureName g ++ format

/-- The paths that calls save to. -/
def savedPaths {D : Type} (cs : List (Cmd D)) : List (List Char) := cs.filterMap fun c => match c with
  | .save p => some p
  | _ => none

/-- What a figure ought to show: the figures named uncalibrated the measured salinities, those named calibrated the calibrated ones, the figure of a level that level. -/
inductive Shows (I : Input K) : Figure → List Picture → Prop
  | map : Shows I .trajectory [.map]
  | uncalibrated : Shows I (.thetaSal false) [.curves .measured]
  | calibrated : Shows I (.thetaSal true) [.curves .calibrated]
  | uncalibratedAnomaly (t : List Char) : Shows I (.anomaly false t) [.anomaly .measured t]
  | calibratedAnomaly (t : List Char) : Shows I (.anomaly true t) [.anomaly .calibrated t]
  | curve : Shows I .curve [.factor, .offset]
  | level (i : ℕ) : Shows I (.variance (I.str (i + 1))) [.series i]
  | profile : Shows I .profile [.salTheta, .varTheta, .thetaPres, .salPres]

/-- The figures that are drawn on a figure just opened. -/
def Separate : Figure → Prop
  | .trajectory | .curve | .profile => False
  | _ => True

/-- The file holds the pictures that the call drew, and nothing else. -/
def Holds (s : Session (Drawing K)) (path : List Char) (J : Job K) (pics : List Picture) : Prop :=
  ∃ c, s.files path = some c ∧ ∀ d : Drawing K, d ∈ c ↔ d.job = J ∧ d.what ∈ pics

/-- The numbers and bounds in the names are printed in the usual way, and different numbers differently. -/
structure Printing (J : Job K) : Prop where
  name : Plain J.name
  bounds : ∀ t ∈ J.input.bounds, ∀ c, Printed (.anomaly c t)
  number : ∀ i, Printed (.variance (J.input.str (i + 1)))
  injective : Function.Injective J.input.str

/-- The call ended with an exception after it had saved the figure of a level. -/
def BrokeAtLevel [Field K] [LinearOrder K] [IsStrictOrderedRing K] [FloorRing K] (J : Job K) : Prop := (diagnostics J.input).2 ≠ none ∧ ∃ t, .variance t ∈ (diagnostics J.input).1

end Verif.Spec
