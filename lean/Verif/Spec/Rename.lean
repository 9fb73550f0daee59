import Verif.Model.Piecewise

/-!
# Specification vocabulary: other numbers of profiles and other labels of segments
-/

namespace Verif.Spec

open Verif.FitCond Verif.Piecewise

/-- The profile with its number moved by `β`. -/
def renumber (β : ℝ) (c : Column) : Column := { c with no := c.no + β }

/-- The calseries file with all prescribed break points, which are profile numbers, moved by `β`. -/
def moveBreaks (β : ℝ) (S : Settings) : Settings := { S with breaks := S.breaks.map (List.map (Option.map (· + β))) }

/-- The saved calibration with its break points moved by `β`. -/
def moveFile (β : ℝ) (out : CalibFile) : CalibFile := { out with breaks := out.breaks.map (List.map (· + β)) }

/-- The calseries file with other labels of the segments. -/
def relabel (g : ℝ → ℝ) (S : Settings) : Settings := { S with calseries := S.calseries.map g }

/-- An argument of `fit_cond` with break points moved by `β`. -/
def moveArg (β : ℝ) : Arg → Arg
  | .arr l => .arr (l.map (· + β))
  | a => a

/-- A fit with profile numbers and break points moved by `β`. -/
def moveFit {m : ℕ} (β : ℝ) (f : Fit m) : Fit m := { f with xfit := fun i => f.xfit i + β, breaks := f.breaks.map (· + β) }

end Verif.Spec
