import Verif.Model.Calseries

/-!
# What the properties of `set_calseries` mean
-/

namespace Verif.Spec

open Verif.Calseries

variable {K : Type} [Field K]

/-- The variables have one column for each profile. -/
def WellFormedSource (src : FloatSource K) : Prop :=
  src.sal.length = src.no.length ∧ src.temp.length = src.no.length ∧ src.pres.length = src.no.length

/-- Column `i` of the source has at least one salinity, one temperature and one pressure. -/
def HasGoodData (src : FloatSource K) (i : ℕ) : Prop :=
  (∃ col, src.sal[i]? = some col ∧ ∃ v, some v ∈ col) ∧ (∃ col, src.temp[i]? = some col ∧ ∃ v, some v ∈ col) ∧
    ∃ col, src.pres[i]? = some col ∧ ∃ v, some v ∈ col

/-- The profile numbers known before the call: those of the calseries file, or, without a file, those of the source. -/
def knownNumbers (src : FloatSource K) : Option (CalFile K) → List K
  | some f => f.calibNo.flatten
  | none => src.no

/-- The flags known before the call; without a file every profile has the flag 1. -/
def knownFlags (src : FloatSource K) : Option (CalFile K) → List K
  | some f => f.calseries.flatten
  | none => List.replicate src.no.length 1

/-- In the parallel lists `no` and `flags` the profile number `p` has the flag `v`. -/
def EntryOf (no flags : List K) (p v : K) : Prop := ∃ j : ℕ, no[j]? = some p ∧ flags[j]? = some v

/-- A file as `set_calseries` writes it: one flag for each number, no number twice, and `use_percent_gt` is there. -/
structure GoodFile (f : CalFile K) : Prop where
  flags : f.calseries.flatten.length = f.calibNo.flatten.length
  numbers : f.calibNo.flatten.Nodup
  percent : f.percent.isSome

end Verif.Spec
