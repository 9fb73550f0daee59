import Verif.Model.Stats

/-!
# Specification vocabulary for the statistics

Only the record types are taken from the model.
-/

namespace Verif.Spec

open Verif.Stats

section Field

variable {K : Type} [Field K] [LinearOrder K] [IsStrictOrderedRing K]

/-- The non-missing values. -/
def known (l : List (Option K)) : List K := l.filterMap id

/-- Population variance (denominator `n`). -/
def populationVariance (vs : List K) : K :=
  (vs.map fun v => (v - vs.sum / (vs.length : K)) ^ 2).sum / (vs.length : K)

/-- `d` is the squared distance of the positions of two casts, both known. -/
def SqDist (a b : Obs K) (d : K) : Prop :=
  ∃ la lb xa xb, a.lat = some la ∧ b.lat = some lb ∧ a.long = some xa ∧ b.long = some xb ∧
    d = (la - lb) ^ 2 + (xa - xb) ^ 2

/-- Cast `j` is the nearest to cast `i` among the casts at another position, the first one if several are. -/
def IsNearest (obs : List (Obs K)) (i j : ℕ) : Prop :=
  ∃ a b d, obs[i]? = some a ∧ obs[j]? = some b ∧ SqDist a b d ∧ d ≠ 0 ∧
    ∀ (k : ℕ) (c : Obs K) (e : K), obs[k]? = some c → SqDist a c e → e ≠ 0 → d ≤ e ∧ (k < j → d < e)

/-- All casts have a known position, the same one. -/
def Coincide (obs : List (Obs K)) : Prop := ∀ a ∈ obs, ∀ b ∈ obs, SqDist a b 0

/-- The squared salinity differences of the casts and their partners, where both are known. -/
def noiseSquares (obs : List (Obs K)) (partner : List ℕ) : List K :=
  (obs.zip partner).filterMap fun p => match p.1.sal, (obs[p.2]?).bind Obs.sal with
    | some x, some y => some ((x - y) ^ 2)
    | _, _ => none

/-- `v` is the noise variance of the casts: zero if all are at one position, otherwise half the mean squared salinity difference to the nearest cast
at another position. -/
def IsNoiseVariance (obs : List (Obs K)) (v : K) : Prop :=
  (Coincide obs ∧ v = 0) ∨
  (¬ Coincide obs ∧ ∃ partner : List ℕ, partner.length = obs.length ∧ (∀ i j, partner[i]? = some j → IsNearest obs i j) ∧
    noiseSquares obs partner ≠ [] ∧ v = (noiseSquares obs partner).sum / (2 * ((noiseSquares obs partner).length : K)))

end Field

/-- The squared scaled distance of two points for the scales of latitude, longitude and time (no time scale if it is zero). -/
noncomputable def scaledSq (sLat sLong sAge : ℝ) (p q : Pos) : ℝ :=
  (p.c0 - q.c0) ^ 2 / sLat ^ 2 + (p.c1 - q.c1) ^ 2 / sLong ^ 2 +
    (if sAge = 0 then 0 else (p.c2 - q.c2) ^ 2 / sAge ^ 2)

/-- The squared scaled difference of two potential vorticities. -/
noncomputable def pvSq (phi a b : ℝ) : ℝ := (a - b) ^ 2 / (a ^ 2 + b ^ 2) / phi ^ 2

/-- Planetary vorticity over depth, `10^-5` where it vanishes. -/
noncomputable def vorticity (lat depth : ℝ) : ℝ :=
  if 2 * 7.292 * 10 ^ (-5 : ℤ) * Real.sin (lat * Real.pi / 180) / depth = 0 then 10 ^ (-5 : ℤ)
  else 2 * 7.292 * 10 ^ (-5 : ℤ) * Real.sin (lat * Real.pi / 180) / depth

/-- A correlation matrix: symmetric, ones on the diagonal, entries in `(0, 1]`, all quadratic forms non-negative. -/
structure IsCorrelation {n : ℕ} (M : Fin n → Fin n → ℝ) : Prop where
  symm : ∀ i j, M i j = M j i
  diag : ∀ i, M i i = 1
  pos : ∀ i j, 0 < M i j
  le_one : ∀ i j, M i j ≤ 1
  psd : ∀ c : Fin n → ℝ, 0 ≤ ∑ i, ∑ j, c i * M i j * c j

/-- `y` is the value at `x` of the broken line through the points of `table`. -/
def OnBrokenLine (table : List (ℝ × ℝ)) (x y : ℝ) : Prop :=
  ∃ (k : ℕ) (x0 y0 x1 y1 : ℝ), table[k]? = some (x0, y0) ∧ table[k + 1]? = some (x1, y1) ∧ x0 ≤ x ∧ x ≤ x1 ∧
    (x1 - x0) * (y - y0) = (y1 - y0) * (x - x0)

/-- Vertical scale looking down the water column (next levels of the profile), by potential temperature. -/
def downScales : List (ℝ × ℝ) :=
  [(-2, 1), (1, 1), (2.5, 1.5), (4, 1.5), (8, 4), (12, 4), (18, 6), (24, 6), (30, 6)]

/-- Vertical scale looking up. -/
def upScales : List (ℝ × ℝ) :=
  [(-2, 1), (1, 1.5), (2.5, 1.5), (4, 4), (8, 4), (12, 6), (18, 6), (24, 6), (30, 6)]

/-- Usable scales: the code divides by them. (The time scale may be zero: time is then ignored.) -/
def ProperScales (S : Scales) : Prop := S.lat ≠ 0 ∧ S.long ≠ 0 ∧ (S.pvUse = 1 → S.phi ≠ 0)

/-- Usable arguments of `build_cov`: the code divides by the scales, and by the depths if the potential vorticity is used. -/
def ProperGrid {n : ℕ} (coord : Fin n → Coord) (long lat phi : ℝ) (usePv : Bool) : Prop :=
  long ≠ 0 ∧ lat ≠ 0 ∧ (usePv = true → phi ≠ 0 ∧ ∀ p, (coord p).c2 ≠ 0)

end Verif.Spec
