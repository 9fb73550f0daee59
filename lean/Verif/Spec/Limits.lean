import Verif.Spec.Thetas
import Verif.Model.Calseries
import Verif.Model.Piecewise

/-!
# What it means that a level is within the limits of the calseries file
-/

namespace Verif.Spec

open Verif.Calseries Verif.Piecewise

/-- The calseries file has the limit `a`, or none. -/
def StoredLimit (file : List (List ℝ)) (a : Option ℝ) : Prop :=
  match a with
  | none => file = []
  | some x => file = [[x]]

/-- The limits `lt` and `gt` of the file allow the value `v`. -/
def AllowedBy (lt gt : List (List ℝ)) (v : ℝ) : Prop := ∃ a b, StoredLimit lt a ∧ StoredLimit gt b ∧ Allowed a b v

/-- The level counts for the fit: it is mapped, and temperature and pressure, if known, are within the limits of the file. -/
def CountsFor (f : CalFile ℝ) (x : Cell) : Prop :=
  x.mappedPtmp ≠ none ∧ (∀ t, x.ptmp = some t → AllowedBy f.thetaLt f.thetaGt t) ∧ ∀ p, x.pres = some p → AllowedBy f.presLt f.presGt p

/-- Two sets of data differ at most at levels that do not count: the same profiles, and the levels that count are the same ones. The profiles may have more or fewer levels
that do not count, as far as the others keep their places. -/
def SameWhereCounted (f : CalFile ℝ) (data data' : List Column) : Prop :=
  data.map Column.no = data'.map Column.no ∧
  ∀ (i : ℕ) (c c' : Column), data[i]? = some c → data'[i]? = some c' →
    ∀ (n : ℕ) (x : Cell), CountsFor f x → (c.cells[n]? = some x ↔ c'.cells[n]? = some x)

/-- What is saved about the fit: the results of every profile, coefficients and break points, without the values of the levels. -/
def fitSaved (f : CalibFile) : List FitAt × List ℝ × List (List ℝ) := (f.columns.map ColOut.toFitAt, f.coef, f.breaks)

end Verif.Spec
