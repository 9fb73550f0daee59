import Verif.Spec.Profile

/-!
# Specification vocabulary: reference casts that are out of reach
-/

namespace Verif.Spec

open Verif.Helper Verif.Region Verif.Profile Verif.Level Verif.Finders Verif.Spec.Profile

/-- The cast lies outside the ellipse around the position with three times the large scales as half axes. Longitudes go round the globe: the cast is outside whichever of its
longitudes, 360 degrees apart, is taken. -/
def OutOfReach (cfg : MapConfig) (lat long : ℝ) (c : RefCast ℝ) : Prop :=
  ∀ x y, c.long = some x → c.lat = some y → ∀ k : ℤ,
    1 ≤ ((x - long + 360 * k) / (3 * cfg.longLarge)) ^ 2 + ((y - lat) / (3 * cfg.latLarge)) ^ 2

/-- Two casts at the same place, both or none of them made by the float `name`. Nothing is said of dates and profiles. -/
def SamePlace (name : List Char) (c c' : RefCast ℝ) : Prop :=
  c.lat = c'.lat ∧ c.long = c'.long ∧ (name <:+: c.source ↔ name <:+: c'.source)

/-- The same file, or two files with as many levels and casts, in which a cast that differs is at the same place, out of reach of the position. -/
def SameInReach (E : Env) (lat long : ℝ) (F F' : RefFile ℝ) : Prop :=
  F.levels = F'.levels ∧ List.Forall₂ (fun c c' => c = c' ∨ SamePlace E.name c c' ∧ OutOfReach E.cfg lat long c) F.casts F'.casts

/-- `n` is the number of one of the 25 boxes around the position. -/
def BoxAround (E : Env) (lat long : ℝ) (n : ℤ) : Prop :=
  ∃ rows b, find25boxes E.table (some long) (some lat) = .ok rows ∧ some b ∈ rows ∧ b.number = some n

/-- The reference files `disk'` differ from those of the run only out of reach of the profile: in boxes that are not around it, and in casts outside the ellipse. -/
def OnlyFarDiffers (E : Env) (disk' : Disk ℝ) (f : FloatProfile) : Prop :=
  ∀ lat long, f.lat = some lat → f.long = some long → ∀ t n, BoxAround E lat long n →
    (E.disk t n = none ∧ disk' t n = none) ∨ ∃ F F', E.disk t n = some F ∧ disk' t n = some F' ∧ SameInReach E lat long F F'

/-- The run with other reference files. -/
def Profile.FloatRun.withReference (R : FloatRun) (disk' : Disk ℝ) : FloatRun := { R with env := { R.env with disk := disk' } }

end Verif.Spec
