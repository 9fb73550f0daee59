import Verif.Model.Analysis
import Verif.Spec.Update

/-!
# What the properties of the three steps together mean
-/

namespace Verif.Spec

open Verif.Profile Verif.Update Verif.Piecewise

/-- The profile number at position `j` of `no` has exactly `k` smaller ones: it would be at position `k` if the numbers were sorted. -/
def HasRank (no : List ℝ) (k j : ℕ) : Prop := ∃ v, no[j]? = some v ∧ (no.filter fun w => decide (w < v)).length = k

/-- The column `col` puts the salinities, temperatures and pressures of `prof` beside the mapped salinities `L` computed for the levels of some profile. A mapped
salinity outside of 30 to 40 counts as missing. -/
def ComparedWith (prof : FloatProfile) (L : ℕ → Option (LevelOut ℝ)) (levels : ℕ) (col : Column) : Prop :=
  col.cells.length = levels ∧ ∀ n < levels, ∃ c, col.cells[n]? = some c ∧ prof.sal[n]? = some c.sal ∧ prof.ptmp[n]? = some c.ptmp ∧
    prof.pres[n]? = some c.pres ∧ (∀ t, c.mappedPtmp = some t ↔ ∃ o, L n = some o ∧ o.values .ptmp = some t) ∧
    ∀ s e, c.mapped = some (s, e) ↔ ∃ o, L n = some o ∧ o.values .mappedSal = some s ∧ o.values .mapErrors = some e ∧ 30 ≤ s ∧ s ≤ 40

/-- A profile with at least one salinity, one temperature and one pressure. -/
def Measured (f : FloatProfile) : Prop := (∃ v, some v ∈ f.sal) ∧ (∃ v, some v ∈ f.tmp) ∧ ∃ v, some v ∈ f.pres

end Verif.Spec
