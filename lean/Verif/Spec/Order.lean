import Verif.Spec.Saved

/-!
# Specification vocabulary for the order of casts
-/

namespace Verif.Spec

open Verif.Spec.Profile Verif.Helper Verif.Level Verif.Stats Verif.Region Verif.Profile

/-- The arrays in which the code holds the samples of a level, with the pressures `pres`. -/
def arraysOf (l : List Sample) (pres : List ℝ) : HistData ℝ :=
  ⟨l.map Sample.sal, pres, l.map fun a => a.pos.long, l.map fun a => a.pos.lat, l.map fun a => a.pos.date, l.map fun a => a.pos.z⟩

/-- The squared distance of two samples in degrees of latitude and longitude. -/
def apart (a b : Sample) : ℝ := (a.pos.lat - b.pos.lat) ^ 2 + (a.pos.long - b.pos.long) ^ 2

/-- `b` is nearest to `a` among the samples at other places. -/
def Neighbour (l : List Sample) (a b : Sample) : Prop := b ∈ l ∧ apart a b ≠ 0 ∧ ∀ x ∈ l, apart a x ≠ 0 → apart a b ≤ apart a x

/-- If several samples are nearest to one, they have the same salinity. -/
def ClearNeighbours (l : List Sample) : Prop := ∀ a ∈ l, ∀ b b' : Sample, Neighbour l a b → Neighbour l a b' → b.sal = b'.sal

open Classical in
/-- The longitude of a cast at `x` among the casts `cs`: from 0 to 360, and one turn further if it is at most 40 and one of the casts is at 320 or more. -/
noncomputable def amongCasts (cs : List (RefCast ℝ)) (x : ℝ) : ℝ :=
  if (∃ c ∈ cs, ∃ x', c.long = some x' ∧ 320 ≤ eastward x') ∧ eastward x ≤ 40 then eastward x + 360 else eastward x

open Classical in
/-- The longitude of the float if the casts `cs` are placed by `place`: one turn further if it is from 0 to 20 and one of these casts is beyond 360. -/
noncomputable def floatAmong (place : ℝ → ℝ) (cs : List (RefCast ℝ)) (long : ℝ) : ℝ :=
  if (∃ c ∈ cs, ∃ x, c.long = some x ∧ 360 < place x) ∧ 0 ≤ long ∧ long ≤ 20 then long + 360 else long

/-- The cast `c`, one of `cs`, is in reach of a float at `lat`, `long`. -/
def Near (c' : MapConfig) (lat long : ℝ) (cs : List (RefCast ℝ)) (c : RefCast ℝ) : Prop :=
  ∃ x y, c.long = some x ∧ c.lat = some y ∧
    ((amongCasts cs x - floatAmong (amongCasts cs) cs long) / (3 * c'.longLarge)) ^ 2 + ((y - lat) / (3 * c'.latLarge)) ^ 2 < 1

open Classical in
/-- The casts in reach of a float. -/
noncomputable def nearCasts (c' : MapConfig) (lat long : ℝ) (cs : List (RefCast ℝ)) : List (RefCast ℝ) := cs.filter fun c => decide (Near c' lat long cs c)

open Classical in
/-- What a cast contributes to a level of temperature `v` and pressure `q`, if anything. -/
noncomputable def sampleOf (limit : Option ℝ) (delta v q : ℝ) (place : ℝ → ℝ) (c : RefCast ℝ) : Option Sample :=
  if h : ∃ s, Meets limit c v q delta s then some ⟨h.choose, c.lat.getD 0, place (c.long.getD 0), decimalDate c, 0⟩ else none

/-- What the casts `near` contribute to a level of temperature `t` and pressure `q`; nothing if the temperature is missing. -/
noncomputable def samplesAt (limit : Option ℝ) (delta : ℝ) (near : List (RefCast ℝ)) (t : Option ℝ) (q : ℝ) : List Sample :=
  match t with
  | none => []
  | some v => near.filterMap (sampleOf limit delta v q (amongCasts near))

open Classical in
/-- Where the float is taken to be. -/
noncomputable def floatAt (limit : Option ℝ) (near : List (RefCast ℝ)) (lat long date : ℝ) : FloatPos :=
  ⟨lat, floatAmong (amongCasts near) (near.filter fun c => decide (HasData limit c)) long, date, 0⟩

/-- Two reference data sets hold the same files, with the same casts in any order. -/
def Shuffled (disk disk' : Disk ℝ) : Prop :=
  ∀ (t : ℕ) (n : ℤ), (disk t n = none ∧ disk' t n = none) ∨
    ∃ f f', disk t n = some f ∧ disk' t n = some f' ∧ f.levels = f'.levels ∧ f.casts.Perm f'.casts

/-- The run with other reference data. -/
def runWith (R : FloatRun) (disk : Disk ℝ) : FloatRun := { R with env := { R.env with disk := disk } }

/-- A profile at `lat`, `long` with positions in range, not more casts in reach than may be used, and no undecided neighbours at its levels. -/
structure Clear (R : FloatRun) (f : FloatProfile) (lat long : ℝ) : Prop where
  latitude : -90 ≤ lat ∧ lat ≤ 90
  longitude : -180 ≤ long ∧ long ≤ 540
  casts : ∀ c ∈ surrounding R.env long lat, ∀ y x : ℝ, c.lat = some y → c.long = some x → (-90 ≤ y ∧ y ≤ 90) ∧ -180 ≤ x ∧ x ≤ 360
  few : (nearCasts R.env.cfg lat long (surrounding R.env long lat)).length ≤ R.env.maxCasts
  neighbours : ∀ (n : ℕ) (t : Option ℝ) (q : ℝ), f.ptmp[n]? = some t → f.pres[n]? = some (some q) → R.env.cfg.pExclude ≤ q →
    ClearNeighbours (inliers (samplesAt (pressureLimit f.pres R.env.cfg.pDelta) R.env.cfg.pDelta (nearCasts R.env.cfg lat long (surrounding R.env long lat)) t q))

end Verif.Spec
