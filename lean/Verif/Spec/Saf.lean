import Verif.Model.Saf

/-!
# Specification: the Subantarctic Front constraint
-/

namespace Verif.Spec.Saf

open Verif.Saf Verif.Region

variable {K : Type} [Field K] [LinearOrder K] [IsStrictOrderedRing K]

/-- The value at `x` on the straight line through `(p, t)` and `(p', t')`. -/
def lineAt (p t p' t' x : K) : K := t + (t' - t) * (x - p) / (p' - p)

/-- `a` and `b` follow each other in `l`. -/
def Neighbours {α : Type} (l : List α) (a b : α) : Prop := ∃ pre post, l = pre ++ a :: b :: post

/-- What is assumed of `np.interp(..., left=nan, right=nan)`: between two neighbouring points of an ascending sequence it is the straight
line, outside it is NaN. Nothing is assumed for other sequences. -/
structure IsInterp (interp : Interp K) : Prop where
  inside : ∀ (l : List (K × Option K)) (p t p' t' x : K), (l.map (·.1)).Pairwise (· < ·) → Neighbours l (p, some t) (p', some t') →
    p ≤ x → x ≤ p' → interp x (l.map (·.1)) (l.map (·.2)) = some (lineAt p t p' t' x)
  below : ∀ (l : List (K × Option K)) (x : K), (∀ q ∈ l, x < q.1) → interp x (l.map (·.1)) (l.map (·.2)) = none
  above : ∀ (l : List (K × Option K)) (x : K), (∀ q ∈ l, q.1 < x) → interp x (l.map (·.1)) (l.map (·.2)) = none

/-- `T` is the temperature at 300 dbar of a profile of pressures and temperatures. -/
def TemperatureAt300 (l : List (K × K)) (T : K) : Prop :=
  ∃ p t p' t', Neighbours l (p, t) (p', t') ∧ p ≤ 300 ∧ 300 ≤ p' ∧ T = lineAt p t p' t' 300

/-- The profile reaches above and below 300 dbar with at least three levels. -/
def Crosses300 (l : List (K × K)) : Prop := 3 ≤ l.length ∧ (∃ q ∈ l, q.1 < 300) ∧ ∃ q ∈ l, 300 < q.1

/-- North of the front (1), south of it (-1) or undecided (0), from the temperature at 300 dbar. -/
def sideOf (T : K) : ℤ := if 5 < T then 1 else if T < 3 then -1 else 0

/-- A level of a cast: pressure, salinity, potential temperature, temperature. -/
structure Row (K : Type) where
  pres : K
  sal : K
  ptmp : K
  tmp : K

/-- A cast whose levels are either complete or missing altogether (as `get_region_data` delivers them). -/
structure SafCast (K : Type) where
  rows : List (Option (Row K))
  lat : Option K
  long : Option K
  date : K
  z : K

/-- The arrays that hold the given casts, one column or element per cast. -/
def gridOf (cs : List (SafCast K)) : SafGrid K :=
  { data :=
      { sal := cs.map fun c => c.rows.map fun r => r.map (·.sal)
        ptmp := cs.map fun c => c.rows.map fun r => r.map (·.ptmp)
        pres := cs.map fun c => c.rows.map fun r => r.map (·.pres)
        lat := cs.map (·.lat)
        long := cs.map (·.long)
        dates := cs.map (·.date) }
    z := cs.map (·.z) }

/-- The temperatures of the cast are the ones `gsw` computes. -/
def TemperatureOf (temperature : Temperature K) (c : SafCast K) : Prop :=
  temperature (c.rows.map fun r => r.map (·.sal)) (c.rows.map fun r => r.map (·.pres)) (c.rows.map fun r => r.map (·.ptmp)) c.long c.lat =
    c.rows.map fun r => r.map (·.tmp)

/-- Pressure and temperature of the known levels of a list of rows. -/
def profile (rows : List (Option (Row K))) : List (K × K) := rows.filterMap fun r => r.map fun r => (r.pres, r.tmp)

/-- The pressures increase from each known level to the next. -/
def Ascending (l : List (K × K)) : Prop := (l.map (·.1)).Pairwise (· < ·)

/-- Pressure and temperature of the float levels that have both. -/
def floatProfile (f : SafFloat K) : List (K × K) :=
  f.levels.filterMap fun l => match l with
    | (some p, some t, _) => some (p, t)
    | _ => none

/-- `k` is the side of a profile: that of the temperature at 300 dbar if the profile crosses 300 dbar, undecided otherwise. -/
def SideIs (l : List (K × K)) (k : ℤ) : Prop :=
  (Crosses300 l ∧ ∃ T, TemperatureAt300 l T ∧ k = sideOf T) ∨ (¬ Crosses300 l ∧ k = 0)

/-- The float's salinity and temperature at a depth. -/
def floatAt (interp : Interp K) (f : SafFloat K) (depth s t : K) : Prop :=
  let known := f.levels.filter fun l => l.1.isSome && l.2.1.isSome
  interp depth (known.filterMap (·.1)) (known.map (·.2.2)) = some s ∧ interp depth (known.filterMap (·.1)) (known.map (·.2.1)) = some t

/-- Lower and upper limit of the salinity of water north of the front at temperature `t`: mean profile minus and plus one standard
deviation, read by ascending temperature. -/
def northLimits (interp : Interp K) (s : SafProfiles K) (t a b : K) : Prop :=
  interp t (List.zipWith (· - ·) s.tMeanN s.tStdN).reverse ((List.zipWith (· - ·) s.sMeanN s.sStdN).reverse.map some) = some a ∧
    interp t (List.zipWith (· + ·) s.tMeanN s.tStdN).reverse ((List.zipWith (· + ·) s.sMeanN s.sStdN).reverse.map some) = some b

/-- Lower and upper limit of the temperature of water south of the front at salinity `x`. -/
def southLimits (interp : Interp K) (s : SafProfiles K) (x a b : K) : Prop :=
  interp x (List.zipWith (· - ·) s.sMeanS s.sStdS) ((List.zipWith (· - ·) s.tMeanS s.tStdS).map some) = some a ∧
    interp x (List.zipWith (· + ·) s.sMeanS s.sStdS) ((List.zipWith (· + ·) s.tMeanS s.tStdS).map some) = some b

/-- One depth of the envelope test: the float has salinity `s` and temperature `t` there, and limits `n₁ n₂` for the salinity and `s₁ s₂`
for the temperature exist. -/
structure Comparison (interp : Interp K) (p : SafProfiles K) (f : SafFloat K) (depth s t n₁ n₂ s₁ s₂ : K) : Prop where
  depth_mem : depth ∈ p.deph
  deep : 150 < depth
  shallow : depth < 1700
  float : floatAt interp f depth s t
  north : northLimits interp p t n₁ n₂
  south : southLimits interp p s s₁ s₂

/-- At every depth that can be compared the float is inside the southern envelope. -/
def InSouth (interp : Interp K) (p : SafProfiles K) (f : SafFloat K) : Prop :=
  ∀ depth s t n₁ n₂ s₁ s₂, Comparison interp p f depth s t n₁ n₂ s₁ s₂ → s₁ < t ∧ t < s₂

/-- At every depth that can be compared the float is inside the northern envelope. -/
def InNorth (interp : Interp K) (p : SafProfiles K) (f : SafFloat K) : Prop :=
  ∀ depth s t n₁ n₂ s₁ s₂, Comparison interp p f depth s t n₁ n₂ s₁ s₂ → n₁ < s ∧ s < n₂

/-- Some depth can be compared. -/
def SomeComparison (interp : Interp K) (p : SafProfiles K) (f : SafFloat K) : Prop :=
  ∃ depth s t n₁ n₂ s₁ s₂, Comparison interp p f depth s t n₁ n₂ s₁ s₂

end Verif.Spec.Saf
