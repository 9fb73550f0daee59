import Verif.Spec.Profile
import Verif.Spec.Region

/-!
# Specification vocabulary: reference files with other longitudes for the same meridians, and with other data in the deep
-/

namespace Verif.Spec

open Verif.Helper Verif.Region Verif.Profile Verif.Spec.Profile

/-- The same longitude, written in the same way, or once between -360 and 0 and once between 0 and 360. -/
def EitherWay (a b : Option ℝ) : Prop := a = b ∨ ∃ v, -360 ≤ v ∧ v < 0 ∧ ((a = some v ∧ b = some (v + 360)) ∨ (a = some (v + 360) ∧ b = some v))

/-- Two sets of reference files with the same names of files, and casts in the same order that are pairwise related. -/
def FilesRelated (Q : RefCast ℝ → RefCast ℝ → Prop) (d d' : Disk ℝ) : Prop :=
  ∀ t n, (d t n = none ∧ d' t n = none) ∨ ∃ F F', d t n = some F ∧ d' t n = some F' ∧ List.Forall₂ Q F.casts F'.casts

/-- Two casts that differ in the way in which the longitude is written. -/
def SameButMeridian (c c' : RefCast ℝ) : Prop := c' = { c with long := c'.long } ∧ EitherWay c.long c'.long

/-- The levels of a cast with a known pressure of at most `P`, in their order: pressure, potential temperature, salinity. -/
noncomputable def levelsUpTo (P : ℝ) (c : RefCast ℝ) : List (CastLevel ℝ) := (levelsOf c).filter fun l => l.1.any fun p => decide (p ≤ P)

/-- Two casts with the same position, date, source and levels up to the pressure `P`. -/
def SameUpTo (P : ℝ) (c c' : RefCast ℝ) : Prop :=
  c.lat = c'.lat ∧ c.long = c'.long ∧ c.date = c'.date ∧ c.source = c'.source ∧ levelsUpTo P c = levelsUpTo P c'

end Verif.Spec
