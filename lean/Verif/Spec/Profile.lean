import Verif.Model.Profile
import Verif.Spec.Region
import Verif.Spec.Update

/-!
# Specification vocabulary for a whole run over the profiles of a float
-/

namespace Verif.Spec.Profile

open Verif.Np Verif.Region Verif.Profile Verif.Update

/-- A run over the profiles `source` of a float with the numbers `no`, all of them with `levels` levels. -/
structure FloatRun where
  env : Env
  source : List FloatProfile
  no : List ℝ
  levels : ℕ
  loadPath : String
  savePath : String
  settings : Setting → ℝ

/-- The same run as input of the model of the outer loop. -/
noncomputable def FloatRun.args (R : FloatRun) : RunArgs ℝ :=
  ⟨R.loadPath, R.savePath, R.settings, R.env.argsort, profilesOf R.env R.source, R.no, R.levels⟩

/-- The profile has a position and, somewhere below its first level, a pressure. -/
def Placed (f : FloatProfile) : Prop :=
  f.lat ≠ none ∧ f.long ≠ none ∧ ∃ (n : ℕ) (p : ℝ), 0 < n ∧ f.pres[n]? = some (some p)

/-- The reference casts in the 25 boxes around a position. -/
noncomputable def surrounding (E : Env) (long lat : ℝ) : List (RefCast ℝ) :=
  match boxesAt E long lat with
  | .ok boxes => refCasts E.disk E.name boxes
  | .error _ => []

/-- Two reference data sets agree in everything but the Argo casts of the float `name`: the CTD and bottle files are the same, and each Argo file
has the same casts of other floats in the same order. The Argo files do not consist of a single cast. -/
def OthersAgree (name : List Char) (disk disk' : Disk ℝ) : Prop :=
  (∀ n, disk 1 n = disk' 1 n ∧ disk 2 n = disk' 2 n) ∧
  ∀ n, (disk 3 n = none ∧ disk' 3 n = none) ∨ ∃ f f', disk 3 n = some f ∧ disk' 3 n = some f' ∧ f.levels = f'.levels ∧
    (f.casts.filter fun c => decide (¬ name <:+: c.source)) = (f'.casts.filter fun c => decide (¬ name <:+: c.source)) ∧
    f.casts.length ≠ 1 ∧ f'.casts.length ≠ 1

/-- `d` is the difference of the longitudes `a` and `b`, the short way round. -/
def TrueDifference (a b d : ℝ) : Prop := |d| ≤ 180 ∧ ∃ k : ℤ, d = a - b + 360 * k

/-- The usual way to write the longitude at signed distance `d` from Greenwich. -/
noncomputable def eastward (d : ℝ) : ℝ := if d < 0 then d + 360 else d

end Verif.Spec.Profile
