import Verif.Model.Piecewise

/-!
# Specification: results without the errors of the fitted factors
-/

namespace Verif.Spec

open Verif.FitCond Verif.Piecewise

/-- The result of `fit_cond` without the errors of the fitted values. -/
def withoutErrors {m : ℕ} (f : Fit m) : Fit m := { f with condslopeErr := fun _ => none }

/-- The same for a result with its number of profiles. -/
def eraseFit (r : (m : ℕ) × Fit m) : (m : ℕ) × Fit m := ⟨r.1, withoutErrors r.2⟩

/-- The results of a profile without the error of the factor and the errors of conductivity and salinity derived from it. -/
def withoutFactorErr (c : ColOut) : ColOut :=
  { c with
    factorErr := none
    cells := c.cells.map fun o => { o with calCondErr := none, calSalErr := none } }

/-- The calibration file without these errors. -/
def fileWithoutErrors (f : CalibFile) : CalibFile := { f with columns := f.columns.map withoutFactorErr }

end Verif.Spec
