import Verif.Model.SalVar
import Verif.Spec.Thetas

/-!
# Specification vocabulary for `sal_var_plot`

Only data types are taken from the model, and `Allowed` from the specification of `find_10thetas`.
-/

namespace Verif.Spec

open Verif.SalVar

variable {K : Type} [Field K] [LinearOrder K] [IsStrictOrderedRing K]

/-- The cell in row `r` of profile `c`. -/
def cellAt (data : List (List (Cell K))) (r c : ℕ) : Option (Cell K) := (data[c]?).bind fun prof => prof[r]?

/-- What counts of a cell when the theta levels are chosen: pressure, measured salinity and temperature, and the temperature at which it was mapped. -/
def measuredLevel (x : Cell K) : Thetas.Level K := ⟨x.pres, x.sal, x.ptmp, x.mapPtmp⟩

/-- A cell within the limits: mapped, temperature (if known) allowed, pressure (if known) allowed. -/
def WithinLimits (B : Thetas.Bounds K) (x : Cell K) : Prop :=
  x.mapPtmp ≠ none ∧ (∀ t, x.ptmp = some t → Allowed B.thetaLt B.thetaGt t) ∧ (∀ p, x.pres = some p → Allowed B.presLt B.presGt p)

/-- The temperature of the cell is measured and not allowed. -/
def ThetaBad (B : Thetas.Bounds K) (data : List (List (Cell K))) (r c : ℕ) : Prop :=
  ∃ x t, cellAt data r c = some x ∧ x.mapPtmp ≠ none ∧ x.ptmp = some t ∧ ¬ Allowed B.thetaLt B.thetaGt t

/-- The cells that remain after the limits of temperature: with at most an upper limit the right ones. Else all rows are dropped that contain a cell outside
the limits, and all rows whose number is that of a profile with a cell outside the limits. -/
def ThetaKept (B : Thetas.Bounds K) (data : List (List (Cell K))) (r c : ℕ) : Prop :=
  (∃ x, cellAt data r c = some x ∧ x.mapPtmp ≠ none) ∧
    if B.thetaGt = none then ¬ ThetaBad B data r c else ∀ s, ¬ ThetaBad B data r s ∧ ¬ ThetaBad B data s r

/-- The pressure of a cell that remains is measured and not allowed. -/
def PresBad (B : Thetas.Bounds K) (data : List (List (Cell K))) (r c : ℕ) : Prop :=
  ThetaKept B data r c ∧ ∃ x p, cellAt data r c = some x ∧ x.pres = some p ∧ ¬ Allowed B.presLt B.presGt p

/-- The cells that remain. -/
def Kept (B : Thetas.Bounds K) (data : List (List (Cell K))) (r c : ℕ) : Prop :=
  ThetaKept B data r c ∧ ∀ s, ¬ PresBad B data r s ∧ ¬ PresBad B data s r

/-- Among the rows `kept` of the profile, row `r` is the first of those nearest to the temperature `th`. -/
def NearestRow (kept : ℕ → Prop) (prof : List (Cell K)) (th : K) (r : ℕ) (x : Cell K) (t : K) : Prop :=
  prof[r]? = some x ∧ kept r ∧ x.ptmp = some t ∧
    ∀ r' x' t', prof[r']? = some x' → kept r' → x'.ptmp = some t' → |t - th| ≤ |t' - th| ∧ (r' < r → |t - th| < |t' - th|)

/-- Row `r2`, next to row `r` of temperature `t`, is kept and has its temperature `t2` on the other side of `th`. -/
def Across (kept : ℕ → Prop) (prof : List (Cell K)) (th : K) (r : ℕ) (t : K) (r2 : ℕ) (x2 : Cell K) (t2 : K) : Prop :=
  (r2 = r + 1 ∨ r = r2 + 1) ∧ prof[r2]? = some x2 ∧ kept r2 ∧ x2.ptmp = some t2 ∧ ((t2 < th ∧ th < t) ∨ (t < th ∧ th < t2))

/-- Of the at most two such rows, the one nearer in temperature. -/
def Partner (kept : ℕ → Prop) (prof : List (Cell K)) (th : K) (r : ℕ) (t : K) (r2 : ℕ) (x2 : Cell K) (t2 : K) : Prop :=
  Across kept prof th r t r2 x2 t2 ∧ ∀ r3 x3 t3, Across kept prof th r t r3 x3 t3 → r3 = r2 ∨ |t - t2| < |t - t3|

/-- `v` is the value at `th` on the straight line through `(t, x)` and `(t2, y)`; missing if one of the values is. -/
def OnLine (t t2 th : K) (x y v : Option K) : Prop :=
  match x, y with
  | some x, some y => ∃ v', v = some v' ∧ (v' - x) * (t2 - t) = (y - x) * (th - t)
  | _, _ => v = none

/-- The temperatures kept enclose `th`. -/
def Encloses (kept : ℕ → Prop) (prof : List (Cell K)) (th : K) : Prop :=
  (∃ r x t, prof[r]? = some x ∧ kept r ∧ x.ptmp = some t ∧ t < th) ∧ ∃ r x t, prof[r]? = some x ∧ kept r ∧ x.ptmp = some t ∧ th < t

/-- The quantity `q` on the temperature `th`, from the rows kept: missing if the temperatures kept do not enclose `th`. Else, if the nearest row and its
partner both have the quantity `gate`, linearly between them; else the value of the nearest row. -/
def OnTheta (kept : ℕ → Prop) (prof : List (Cell K)) (th : K) (gate q : Cell K → Option K) (v : Option K) : Prop :=
  (¬ Encloses kept prof th → v = none) ∧
  (Encloses kept prof th → ∃ r x t, NearestRow kept prof th r x t ∧
      ((∃ r2 x2 t2, Partner kept prof th r t r2 x2 t2 ∧ gate x ≠ none ∧ gate x2 ≠ none ∧ OnLine t t2 th (q x) (q x2) v) ∨
        ((∀ r2 x2 t2, Across kept prof th r t r2 x2 t2 → gate x = none ∨ ∃ r3 x3 t3, Partner kept prof th r t r3 x3 t3 ∧ gate x3 = none) ∧ v = q x)))

end Verif.Spec
