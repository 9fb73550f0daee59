import Verif.Spec.Thetas

/-!
# Specification vocabulary for the levels from which `find_10thetas` chooses
-/

namespace Verif.Spec

open Verif.Thetas

variable {K : Type} [Field K] [LinearOrder K] [IsStrictOrderedRing K]

/-- `lo` and `hi` are the least and the greatest value of the variable `q` in the usable cells. -/
def UsableRange (B : Bounds K) (data : List (List (Level K))) (q : Level K → Option K) (lo hi : K) : Prop :=
  (∃ prof ∈ data, ∃ l ∈ prof, Usable B l ∧ q l = some lo) ∧ (∃ prof ∈ data, ∃ l ∈ prof, Usable B l ∧ q l = some hi) ∧
    ∀ prof ∈ data, ∀ l ∈ prof, Usable B l → ∀ v, q l = some v → lo ≤ v ∧ v ≤ hi

/-- There are two different tenths of a degree from `a` to `b`. -/
def TwoTenths (a b : K) : Prop := ∃ k m : ℤ, k < m ∧ a ≤ (k : K) / 10 ∧ (m : K) / 10 ≤ b

/-- `th` is the mean temperature at the pressure `p`, over the profiles whose usable pressures enclose `p`; missing if there is no such profile. -/
def MeanTemperature (B : Bounds K) (data : List (List (Level K))) (p : K) (th : Option K) : Prop :=
  ∃ vals : List (Option K), vals.length = data.length ∧
    (∀ (d : ℕ) (prof : List (Level K)) (v : Option K), data[d]? = some prof → vals[d]? = some v →
      (¬ StrictlyInside B prof p ∧ v = none) ∨ (StrictlyInside B prof p ∧ ∃ t, v = some t ∧ LinearAt B prof p t)) ∧
    ((vals.filterMap id = [] ∧ th = none) ∨
      (vals.filterMap id ≠ [] ∧ th = some ((vals.filterMap id).sum / ((vals.filterMap id).length : K))))

end Verif.Spec
