import Verif.Model.Piecewise

/-!
# What the properties of `calc_piecewisefit` mean
-/

namespace Verif.Spec

open Verif.Piecewise

/-- The values of `calseries` that denote segments: all but 0. -/
noncomputable def segmentValues (S : Settings) : Finset ℝ := S.calseries.toFinset.erase 0

/-- The profiles of a segment, in the order of the file. -/
noncomputable def segmentColumns (S : Settings) (data : List Column) (v : ℝ) : List Column :=
  ((data.zip S.calseries).filter fun p => decide (p.2 = v)).map Prod.fst

/-- Settings the calibration accepts, without prescribed break points: with several segments there is one limit for all or one for each. -/
def Accepted (S : Settings) : Prop :=
  S.breaks = [] ∧ ((segmentValues S).card ≤ 1 ∨ S.maxBreaks.length = 1 ∨ S.maxBreaks.length = (segmentValues S).card)

/-- What counts of a level when the temperatures are chosen: its pressure, its measured salinity and temperature, and the temperature at which it was mapped. -/
def takenLevel (x : Cell) : Verif.Thetas.Level ℝ := ⟨x.pres, x.sal, x.ptmp, x.mappedPtmp⟩

/-- The results of a profile, all missing: those of the fit, and for each level those of the level. -/
def missingColumn (c : Column) : ColOut := ⟨⟨none, none, none, none, none, none⟩, c.cells.map fun _ => ⟨none, none, none, none, none, none⟩⟩

/-- A saved file in which everything is missing. -/
def AllMissing (data : List Column) (f : CalibFile) : Prop :=
  f.columns = data.map missingColumn ∧ f.coef = [] ∧ f.breaks = []

/-- A cell that can be compared: float salinity and temperature and a mapped salinity. -/
def Comparable (c : Cell) : Prop := c.sal.isSome ∧ c.ptmp.isSome ∧ c.mapped.isSome

/-- The saved values of one level are right for the numbers `r` of the fit of its profile, among them the factor `f`. Conductivity times factor is converted back
to salinity at the temperature of the level; the error of the conductivity is the conductivity times the error of the factor; the error of the salinity is its
change when this error is added to the conductivity. In the same way the salinity of the station comes from the mean of the profile, and its error from the scatter about the mean. -/
def CellRight (G : Gsw) (f : ℝ) (r : FitAt) (s t : ℝ) (o : CellOut) : Prop :=
  o.calCond = some (f * G.cFromSP s t) ∧ o.calCondErr = r.factorErr.map (fun e => e * G.cFromSP s t) ∧ o.calSal = G.spFromC (f * G.cFromSP s t) t ∧
    (∀ v, o.calSalErr = some v ↔
      ∃ e a b, r.factorErr = some e ∧ o.calSal = some a ∧ G.spFromC (f * G.cFromSP s t + e * G.cFromSP s t) t = some b ∧ v = |a - b|) ∧
    (∀ v, o.staSal = some v ↔ ∃ g, r.staMean = some g ∧ G.spFromC (g * G.cFromSP s t) t = some v) ∧
    ∀ v, o.staSalErr = some v ↔
      ∃ g e a b, r.staMean = some g ∧ r.staRms = some e ∧ o.staSal = some a ∧ G.spFromC (g * G.cFromSP s t + e * G.cFromSP s t) t = some b ∧ v = |a - b|

/-- Data a segment can be calibrated with: `find_10thetas` finds a level that can be compared in some profile. -/
def Calibratable (S : Settings) (cols : List Column) : Prop :=
  ∃ th, Verif.Thetas.find10thetas S.bounds S.percent (cols.map fun c => c.cells.map takenLevel) = .ok th ∧
    ∃ row ∈ th.index, ∃ (p lev : ℕ) (c : Column) (x : Cell), row[p]? = some (some lev) ∧ cols[p]? = some c ∧ c.cells[lev]? = some x ∧ Comparable x

/-- The same at two profiles of the segment, so that a line can be fitted. -/
def LineCalibratable (S : Settings) (cols : List Column) : Prop :=
  ∃ th, Verif.Thetas.find10thetas S.bounds S.percent (cols.map fun c => c.cells.map takenLevel) = .ok th ∧
    ∃ p p' : ℕ, p ≠ p' ∧ ∀ q, q = p ∨ q = p' → ∃ row ∈ th.index, ∃ (lev : ℕ) (c : Column) (x : Cell),
      row[q]? = some (some lev) ∧ cols[q]? = some c ∧ c.cells[lev]? = some x ∧ Comparable x

/-- Profile `p` of the segment has a level that `find_10thetas` chooses and that can be compared, so that the fit uses it. -/
def UsedAt (S : Settings) (cols : List Column) (p : ℕ) : Prop :=
  ∃ th, Verif.Thetas.find10thetas S.bounds S.percent (cols.map fun c => c.cells.map takenLevel) = .ok th ∧
    ∃ row ∈ th.index, ∃ (lev : ℕ) (c : Column) (x : Cell), row[p]? = some (some lev) ∧ cols[p]? = some c ∧ c.cells[lev]? = some x ∧ Comparable x

/-- `d` is the difference of the profile numbers of the first profile of the segment that the fit uses and the first one of the segment. -/
def UnusedStart (S : Settings) (cols : List Column) (d : ℝ) : Prop :=
  ∃ (p : ℕ) (c c₀ : Column), UsedAt S cols p ∧ (∀ p', UsedAt S cols p' → p ≤ p') ∧ cols[p]? = some c ∧ cols[0]? = some c₀ ∧ d = c.no - c₀.no

/-- The profiles of the segment `v` are far apart: the horizontal correlation of two of them is at most `ε` (`coord_float` has the longitude first, but it is divided by the
scale for latitudes, see C106). -/
def FarApart (long lat : ℝ) (S : Settings) (cs : List Verif.Stats.Coord) (v ε : ℝ) : Prop :=
  ∀ (j j' : ℕ) (x y : Verif.Stats.Coord), j ≠ j' → S.calseries[j]? = some v → S.calseries[j']? = some v → cs[j]? = some x → cs[j']? = some y →
    Real.exp (-((x.c0 - y.c0) ^ 2 / lat ^ 2 + (x.c1 - y.c1) ^ 2 / long ^ 2)) ≤ ε

/-- At least `n` profiles of the segment are used by the fit. -/
def UsedProfiles (S : Settings) (cols : List Column) (n : ℕ) : Prop :=
  ∃ T : Finset ℕ, T.card = n ∧ ∀ p ∈ T, UsedAt S cols p

/-- The place of the segment `v` among the segments, from 0 on in the order of their values. -/
noncomputable def segmentNumber (S : Settings) (v : ℝ) : ℕ := ((segmentValues S).filter (· < v)).card

/-- `β` is the break point that stands for the number `u` of the optimiser. At least four profiles of the segment are used: `c₀`, `c₁` are the first two, `c₂`, `c₃` the last
two, and `β` is between `c₁` and `c₂`. -/
def FoundBreak (S : Settings) (cols : List Column) (u β : ℝ) : Prop :=
  ∃ (p₀ p₁ p₂ p₃ : ℕ) (c₁ c₂ : Column), p₀ < p₁ ∧ p₁ < p₂ ∧ p₂ < p₃ ∧ UsedAt S cols p₀ ∧ UsedAt S cols p₁ ∧ UsedAt S cols p₂ ∧ UsedAt S cols p₃ ∧
    (∀ p, UsedAt S cols p → p = p₀ ∨ (p₁ ≤ p ∧ p ≤ p₂) ∨ p = p₃) ∧ cols[p₁]? = some c₁ ∧ cols[p₂]? = some c₂ ∧
    β = c₁.no + (c₂.no - c₁.no) * (Real.exp u / (1 + Real.exp u))

/-- A line through `(β, a)` with slope `b` up to `β` and `b'` from there on. -/
noncomputable def bent (a b b' β x : ℝ) : ℝ := if x ≤ β then a + b * (x - β) else a + b' * (x - β)

/-- Conductivity is positive and grows with salinity. -/
def SoundConductivity (G : Gsw) : Prop := (∀ s t, 0 < G.cFromSP s t) ∧ ∀ s s' t, s < s' → G.cFromSP s t < G.cFromSP s' t

/-- A cell with a temperature `build_cov` knows and a positive mapping error, as far as they are there. -/
def SoundCell (x : Cell) : Prop := (∀ t, x.ptmp = some t → -2 ≤ t ∧ t ≤ 30) ∧ ∀ s e, x.mapped = some (s, e) → 0 < e

end Verif.Spec
