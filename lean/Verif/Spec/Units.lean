import Verif.Spec.Profile
import Verif.Spec.Region

/-!
# Specification vocabulary: reference salinities in another unit or with an offset
-/

namespace Verif.Spec

open Verif.Helper Verif.Region Verif.Profile Verif.Spec.Profile Verif.Update

/-- The cast with all its salinities changed; missing ones stay missing. -/
def resal (φ : ℝ → ℝ) (c : RefCast ℝ) : RefCast ℝ := { c with sal := c.sal.map (Option.map φ) }

/-- The reference files with the salinities changed, and nothing else. -/
def resalDisk (φ : ℝ → ℝ) (d : Disk ℝ) : Disk ℝ := fun t n => (d t n).map fun F => ⟨F.casts.map (resal φ), F.levels⟩

/-- The run with all reference salinities `s` replaced by `a * s + b`. -/
def Profile.FloatRun.inUnits (R : FloatRun) (a b : ℝ) : FloatRun := { R with env := { R.env with disk := resalDisk (fun s => a * s + b) R.env.disk } }

/-- Two mapped files of runs with reference salinities `s` and `a * s + b`. The numbers of the profiles, the sizes, the temperatures, the recorded settings and the selected casts are the same; errors
have the factor `|a|`, variances `a ^ 2`; and a mapped salinity `v` goes with `a * v + b`, unless one of the two is missing because it is not between 30 and 40. -/
structure SameInUnits (a b : ℝ) (file file' : MapFile ℝ) : Prop where
  profileNo : file'.profileNo = file.profileNo
  rows : file'.rows = file.rows
  settings : file'.settings = file.settings
  selected : file'.selected = file.selected
  profileIndex : file'.profileIndex = file.profileIndex
  ptmp : file'.mats .ptmp = file.mats .ptmp
  mapErrors : file'.mats .mapErrors = (file.mats .mapErrors).map (List.map (Option.map (|a| * ·)))
  noise : file'.mats .noise = (file.mats .noise).map (List.map (Option.map (a ^ 2 * ·)))
  signal : file'.mats .signal = (file.mats .signal).map (List.map (Option.map (a ^ 2 * ·)))
  mappedSal : List.Forall₂ (List.Forall₂ fun v w =>
    (∀ x, v = some x → w = if 30 ≤ a * x + b ∧ a * x + b ≤ 40 then some (a * x + b) else none) ∧
    (∀ y, w = some y → v = if 30 ≤ (y - b) / a ∧ (y - b) / a ≤ 40 then some ((y - b) / a) else none)) (file.mats .mappedSal) (file'.mats .mappedSal)

end Verif.Spec
