import Verif.Model.Thetas

/-!
# Specification vocabulary for `find_10thetas`

Only the data types `Level` and `Bounds` are taken from the model.
-/

namespace Verif.Spec

open Verif.Thetas

variable {K : Type} [Field K] [LinearOrder K] [IsStrictOrderedRing K]

/-- What the pair of limits allows: values not above `lt`, not below `gt`; if both are given and `lt < gt`, the values strictly
between are excluded instead (the middle band). -/
def Allowed (lt gt : Option K) (v : K) : Prop :=
  match lt, gt with
  | none, none => True
  | some a, none => v ≤ a
  | none, some b => b ≤ v
  | some a, some b => if a < b then v ≤ a ∨ b ≤ v else b ≤ v ∧ v ≤ a

/-- A cell that may be used: mapped, temperature allowed, pressure (if known) allowed. -/
def Usable (B : Bounds K) (l : Level K) : Prop :=
  l.mapped ≠ none ∧ (∀ t, l.ptmp = some t → Allowed B.thetaLt B.thetaGt t) ∧
    (∀ p, l.pres = some p → Allowed B.presLt B.presGt p)

/-- Sample variance (denominator `n - 1`). -/
def sampleVariance (vs : List K) : K :=
  (vs.map fun v => (v - vs.sum / (vs.length : K)) ^ 2).sum / ((vs.length : K) - 1)

/-- A cell that gives a point (pressure `p`, temperature `t`) of the profile: usable, with both measured. -/
def Point (B : Bounds K) (prof : List (Level K)) (p t : K) : Prop :=
  ∃ l ∈ prof, Usable B l ∧ l.pres = some p ∧ l.ptmp = some t

/-- `v` is the temperature at pressure `p` on the straight line between two points of the profile next to each other in
pressure, `p1 < p ≤ p2`. -/
def LinearAt (B : Bounds K) (prof : List (Level K)) (p v : K) : Prop :=
  ∃ p1 t1 p2 t2, Point B prof p1 t1 ∧ Point B prof p2 t2 ∧ p1 < p ∧ p ≤ p2 ∧
    (∀ q t, Point B prof q t → q ≤ p1 ∨ p2 ≤ q) ∧ (v - t1) * (p2 - p1) = (t2 - t1) * (p - p1)

/-- The pressure is strictly inside the range of the points of the profile. -/
def StrictlyInside (B : Bounds K) (prof : List (Level K)) (p : K) : Prop :=
  (∃ q t, Point B prof q t ∧ q < p) ∧ (∃ q t, Point B prof q t ∧ p < q)

/-- Cell `i` of the profile is usable and has temperature `t`. -/
def UsableTemp (B : Bounds K) (prof : List (Level K)) (i : ℕ) (t : K) : Prop :=
  ∃ l, prof[i]? = some l ∧ Usable B l ∧ l.ptmp = some t

/-- Cell `i` of the profile is usable and has salinity `s`. -/
def UsableSal (B : Bounds K) (prof : List (Level K)) (i : ℕ) (s : K) : Prop :=
  ∃ l, prof[i]? = some l ∧ Usable B l ∧ l.sal = some s

/-- The usable temperatures of the profile enclose `th`. -/
def TempsEnclose (B : Bounds K) (prof : List (Level K)) (th : K) : Prop :=
  (∃ i t, UsableTemp B prof i t ∧ t < th) ∧ ∃ i t, UsableTemp B prof i t ∧ th < t

/-- Cell `i`, of temperature `t`, is the first of the usable cells nearest to `th` in temperature. -/
def NearestCell (B : Bounds K) (prof : List (Level K)) (th : K) (i : ℕ) (t : K) : Prop :=
  UsableTemp B prof i t ∧ ∀ j u, UsableTemp B prof j u → |t - th| ≤ |u - th| ∧ (j < i → |t - th| < |u - th|)

/-- Cell `k`, next to cell `i` of temperature `t`, is usable and has its temperature `tk` on the other side of `th`. -/
def AcrossCell (B : Bounds K) (prof : List (Level K)) (th : K) (i : ℕ) (t : K) (k : ℕ) (tk : K) : Prop :=
  (k = i + 1 ∨ i = k + 1) ∧ UsableTemp B prof k tk ∧ ((tk < th ∧ th < t) ∨ (t < th ∧ th < tk))

/-- Of the at most two such cells, the one nearer in temperature. -/
def PartnerCell (B : Bounds K) (prof : List (Level K)) (th : K) (i : ℕ) (t : K) (k : ℕ) (tk : K) : Prop :=
  AcrossCell B prof th i t k tk ∧ ∀ k' t', AcrossCell B prof th i t k' t' → k' = k ∨ |t - tk| < |t - t'|

/-- The salinity `s` of a profile on the temperature `th`: missing if the usable temperatures do not enclose `th`. Else, if the nearest cell and
its partner both have a salinity, linearly between them; else the salinity of the nearest cell. -/
def SalinityOn (B : Bounds K) (prof : List (Level K)) (th : K) (s : Option K) : Prop :=
  (¬ TempsEnclose B prof th → s = none) ∧
  (TempsEnclose B prof th → ∃ i t, NearestCell B prof th i t ∧
    ((∃ k tk a b v, PartnerCell B prof th i t k tk ∧ UsableSal B prof i a ∧ UsableSal B prof k b ∧ s = some v ∧
        (v - a) * (tk - t) = (b - a) * (th - t)) ∨
      ((∀ k tk, AcrossCell B prof th i t k tk → (∀ a, ¬ UsableSal B prof i a) ∨
          ∃ k' t', PartnerCell B prof th i t k' t' ∧ ∀ b, ¬ UsableSal B prof k' b) ∧
        ∀ a, s = some a ↔ UsableSal B prof i a)))

/-- `rows` is the table of the salinities of the profiles on the levels: one row per level, one column per profile. On a level without
temperature all are missing. -/
def SalinityTable (B : Bounds K) (data : List (List (Level K))) (levels : List (Option K)) (rows : List (List (Option K))) : Prop :=
  rows.length = levels.length ∧ ∀ (i : ℕ) (row : List (Option K)), rows[i]? = some row → row.length = data.length ∧
    ∀ (d : ℕ) (prof : List (Level K)), data[d]? = some prof → ∃ s, row[d]? = some s ∧
      (levels[i]? = some none → s = none) ∧ ∀ th, levels[i]? = some (some th) → SalinityOn B prof th s

/-- `v` are the variances of the rows: missing if fewer than two profiles have a salinity, or fewer than the fraction `percent` of
the number of the best-covered row; the sample variance otherwise. -/
def RowVariances (percent : K) (rows : List (List (Option K))) (v : List (Option K)) : Prop :=
  v.length = rows.length ∧
  ∃ best : ℕ, (∀ row ∈ rows, (row.filterMap id).length ≤ best) ∧ ((∃ row ∈ rows, (row.filterMap id).length = best) ∨ best = 0) ∧
    ∀ (i : ℕ) (row : List (Option K)), rows[i]? = some row →
      ((row.filterMap id).length < 2 ∨ ((row.filterMap id).length : K) < percent * best → v[i]? = some none) ∧
      (¬ ((row.filterMap id).length < 2 ∨ ((row.filterMap id).length : K) < percent * best) →
        v[i]? = some (some (sampleVariance (row.filterMap id))))

end Verif.Spec
