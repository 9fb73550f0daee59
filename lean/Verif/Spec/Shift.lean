import Verif.Spec.Profile
import Verif.Spec.Region

/-!
# Specification vocabulary: runs with other dates, and with another sea floor
-/

namespace Verif.Spec

open Verif.Helper Verif.Region Verif.Profile Verif.Spec.Profile

/-- The cast with another text as its date. -/
def redate (m : List Char → List Char) (c : RefCast ℝ) : RefCast ℝ := { c with date := m c.date }

/-- The reference files with other dates, and with nothing else changed. -/
def redateDisk (m : List Char → List Char) (d : Disk ℝ) : Disk ℝ := fun t n => (d t n).map fun F => ⟨F.casts.map (redate m), F.levels⟩

/-- Every cast of the reference files is decoded as a date `T` years later. -/
def MovedBy (T : ℝ) (m : List Char → List Char) (d : Disk ℝ) : Prop :=
  ∀ t n F, d t n = some F → ∀ c ∈ F.casts, decimalDate (redate m c) = decimalDate c + T

/-- The run with the dates of the profiles `T` years later and with other dates in the reference files. -/
def Profile.FloatRun.redated (R : FloatRun) (T : ℝ) (m : List Char → List Char) : FloatRun :=
  { R with env := { R.env with disk := redateDisk m R.env.disk }, source := R.source.map fun f => { f with date := f.date + T } }

/-- The run with another sea floor: with another topography and another interpolation in it. -/
def Profile.FloatRun.onSeaFloor (R : FloatRun) (topo : List ℤ) (interp2 : List ℝ → List ℝ → List (List ℤ) → ℝ → ℝ → ℝ) : FloatRun :=
  { R with env := { R.env with topo := topo, interp2 := interp2 } }

end Verif.Spec
