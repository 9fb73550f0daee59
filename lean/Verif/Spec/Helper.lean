import Verif.Model.Helper

/-!
# Specification vocabulary for the helpers of the mapping loop

Only the record types are taken from the model.
-/

namespace Verif.Spec

open Verif.Helper

variable {K : Type} [Field K] [LinearOrder K] [IsStrictOrderedRing K]

/-- All six arrays have `n` entries. -/
structure HistAligned (n : ℕ) (h : HistData K) : Prop where
  sal : h.sal.length = n
  pres : h.pres.length = n
  long : h.long.length = n
  lat : h.lat.length = n
  dates : h.dates.length = n
  z : h.z.length = n

/-- The casts of `h'` are the casts of `h` at the positions `js`, in that order: in all six arrays. -/
structure HistAt (h : HistData K) (js : List ℕ) (h' : HistData K) : Prop where
  sal : h'.sal.map some = js.map fun j => h.sal[j]?
  pres : h'.pres.map some = js.map fun j => h.pres[j]?
  long : h'.long.map some = js.map fun j => h.long[j]?
  lat : h'.lat.map some = js.map fun j => h.lat[j]?
  dates : h'.dates.map some = js.map fun j => h.dates[j]?
  z : h'.z.map some = js.map fun j => h.z[j]?

/-- Cast `j` is comparable at a level: it has a salinity there, at a pressure within `delta` of the float's pressure `p`. -/
def ComparableCast (salRow presRow : List (Option K)) (p delta : K) (j : ℕ) : Prop :=
  ∃ s q, salRow[j]? = some (some s) ∧ presRow[j]? = some (some q) ∧ |q - p| < delta

/-- Two points are closer than a sixtieth of a degree in longitude and in latitude. -/
def CloseTo (x y x' y' : K) : Prop := |x - x'| < 1 / 60 ∧ |y - y'| < 1 / 60

/-- No two selected points are close to each other. -/
def WellSeparated (sel : List (Selected K)) : Prop := sel.Pairwise fun a b => ¬ CloseTo a.long a.lat b.long b.lat

/-- The mean of a list. -/
def meanOf (l : List K) : K := l.sum / (l.length : K)

end Verif.Spec
