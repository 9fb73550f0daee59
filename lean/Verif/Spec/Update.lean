import Verif.Model.Update

/-!
# Specification vocabulary for a run of `update_salinity_mapping`

Only the record types are taken from the model.
-/

namespace Verif.Spec

open Verif.Np Verif.Helper Verif.Update

variable {K : Type} [Field K] [LinearOrder K] [IsStrictOrderedRing K]

/-- What the computation for level `n` of profile `i` gives: nothing if the profile or the level is skipped. -/
def levelOut (P : Profile K) (i n : ℕ) : Option (LevelOut K) :=
  match P i with
  | .ok (some f) =>
    match f n with
    | .ok o => o
    | .error _ => none
  | _ => none

/-- No computation raises an exception, and the computations that give something used at least one cast. -/
structure Computable (P : Profile K) (profiles levels : ℕ) : Prop where
  profile : ∀ i < profiles, ∃ r, P i = .ok r ∧ ∀ f, r = some f → ∀ n < levels, ∃ q, f n = .ok q
  points : ∀ i < profiles, ∀ n < levels, ∀ o, levelOut P i n = some o →
    o.points.long ≠ [] ∧ o.points.lat.length = o.points.long.length

/-- At least one level of one profile gives something. -/
def SomethingMapped (P : Profile K) (profiles levels : ℕ) : Prop :=
  ∃ i < profiles, ∃ n < levels, (levelOut P i n).isSome

/-- A salinity between 30 and 40 stays, another one becomes missing. -/
def plausible (m : Mat) (v : Option K) : Option K :=
  if m = .mappedSal then v.filter fun x => decide (30 ≤ x ∧ x ≤ 40) else v

/-- The column of matrix `m` for profile `i`: the computed values, missing where nothing was computed. -/
def profileColumn (P : Profile K) (levels : ℕ) (m : Mat) (i : ℕ) : List (Option K) :=
  (List.range levels).map fun n => (levelOut P i n).bind fun o => plausible m (o.values m)

/-- The recorded setting `s` for profile `i`: missing if no level of it was computed. -/
def profileSetting (P : Profile K) (cfg : Setting → K) (levels : ℕ) (s : Setting) (i : ℕ) : Option K :=
  if ∃ n < levels, (levelOut P i n).isSome then some (cfg s) else none

/-- A mapped file as a run leaves it: profile numbers ascending, one column and one setting per profile, plausible salinities, selected
points sorted by profile number. -/
structure Consistent (f : MapFile K) : Prop where
  ascending : f.profileNo.Pairwise (· < ·)
  mats : ∀ m, (f.mats m).length = f.profileNo.length
  settings : ∀ s, (f.settings s).length = f.profileNo.length
  range : ∀ c ∈ f.mats .mappedSal, ∀ x, some x ∈ c → 30 ≤ x ∧ x ≤ 40
  selected : f.selected ≠ [] ∧ f.selected.Pairwise fun a b => a.profileNo ≤ b.profileNo

end Verif.Spec
