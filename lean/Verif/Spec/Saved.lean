import Verif.Spec.Level
import Verif.Spec.Profile
import Verif.Spec.Interp
import Verif.Spec.Depth
import Verif.Spec.Finders

/-!
# Specification vocabulary for the values a run saves

Only the record types are taken from the model.
-/

namespace Verif.Spec

open Verif.Spec.Profile Verif.Helper Verif.Level Verif.Stats Verif.Region Verif.Profile Verif.Finders

/-- A level at which pressure, temperature and salinity are known. -/
def completeLevel (l : CastLevel ℝ) : Option (Level ℝ) :=
  match l with
  | (some p, some t, some s) => some ⟨s, t, p⟩
  | _ => none

/-- The levels of a cast, down to the pressure `limit`, at which all three quantities are known. -/
noncomputable def completeLevels (limit : Option ℝ) (c : RefCast ℝ) : List (Level ℝ) := (usableLevels limit c).filterMap completeLevel

/-- The cast meets the temperature `v`, at its place nearest to the pressure `q`, with the salinity `s`, and less than `delta` from that pressure. -/
def Meets (limit : Option ℝ) (c : RefCast ℝ) (v q delta s : ℝ) : Prop :=
  ∃ k w p, Nearest (completeLevels limit c) v q k w s p ∧ |p - q| < delta

/-- What a cast contributes to a level: a salinity, at a place, date and depth. -/
structure Sample where
  sal : ℝ
  pos : FloatPos

open Classical in
/-- The samples without the outliers: those at most three standard deviations from the mean. -/
noncomputable def inliers (l : List Sample) : List Sample :=
  l.filter fun a => decide (|a.sal - meanOf (l.map Sample.sal)| ≤ 3 * Real.sqrt (populationVariance (l.map Sample.sal)))

/-- The samples as observations of salinity, latitude and longitude. -/
def sampleObs (l : List Sample) : List (Obs ℝ) := l.map fun a => ⟨some a.sal, some a.pos.lat, some a.pos.long⟩

/-- `value` and `err` are the estimate at `here` from the samples `l` with noise of variance `noise` in two stages: the best linear unbiased estimate with
the large scales, and that of its residuals at the casts with the small scales. -/
def TwoStage (c : MapConfig) (here : FloatPos) (l : List Sample) (noise value err : ℝ) : Prop :=
  ∃ (w1 : Fin l.length → ℝ) (W : Fin l.length → Fin l.length → ℝ) (res w2 : Fin l.length → ℝ) (e1 e2 : ℝ),
    BestWeights (fieldCorrelation c.latLarge c.longLarge c.ageLarge c.phiLarge c.usePv) (populationVariance (l.map Sample.sal)) noise
      (fun i => (l.get i).pos) here w1 ∧
    (∀ i, BestWeights (fieldCorrelation c.latLarge c.longLarge c.ageLarge c.phiLarge c.usePv) (populationVariance (l.map Sample.sal)) noise
      (fun i => (l.get i).pos) (l.get i).pos (W i)) ∧
    (∀ i, res i = (l.get i).sal - ∑ j, W i j * (l.get j).sal) ∧
    BestWeights (fieldCorrelation c.latSmall c.longSmall c.ageSmall c.phiSmall c.usePv) (populationVariance (List.ofFn res)) noise
      (fun i => (l.get i).pos) here w2 ∧
    0 ≤ e1 ∧ e1 ^ 2 = mseOf (fieldCorrelation c.latLarge c.longLarge c.ageLarge c.phiLarge c.usePv) (populationVariance (l.map Sample.sal)) noise
      (fun i => (l.get i).pos) here w1 ∧
    0 ≤ e2 ∧ e2 ^ 2 = mseOf (fieldCorrelation c.latSmall c.longSmall c.ageSmall c.phiSmall c.usePv) (populationVariance (List.ofFn res)) noise
      (fun i => (l.get i).pos) here w2 ∧
    value = ∑ j, w1 j * (l.get j).sal + ∑ j, w2 j * res j ∧ err = Real.sqrt (e1 ^ 2 + e2 ^ 2)

open Classical in
/-- Longitudes side by side: written from 0 to 360, and those up to 40 one turn further if another one is 320 or more. -/
noncomputable def unwrapped (xs : List ℝ) : List ℝ :=
  if ∃ x ∈ xs, 320 ≤ eastward x then xs.map fun x => if eastward x ≤ 40 then eastward x + 360 else eastward x else xs.map eastward

open Classical in
/-- The longitude of the float beside casts at the longitudes `xs`: one turn further if it is at most 20 and a cast is beyond 360. -/
noncomputable def besideCasts (xs : List ℝ) (long : ℝ) : ℝ := if (∃ x ∈ xs, 360 < x) ∧ 0 ≤ long ∧ long ≤ 20 then long + 360 else long

open Classical in
/-- The longitude at which a cast at `x` is taken to be among the chosen casts: written from 0 to 360, and one turn further if it is at most 40 and a chosen
cast is at 320 or more. -/
noncomputable def amongChosen (casts : List (RefCast ℝ)) (index : List ℕ) (x : ℝ) : ℝ :=
  if (∃ n ∈ index, ∃ (c : RefCast ℝ) (x' : ℝ), casts[n]? = some c ∧ c.long = some x' ∧ 320 ≤ eastward x') ∧ eastward x ≤ 40 then eastward x + 360
  else eastward x

/-- `index` is a choice from `casts`: none outside the ellipse, all that are in the ellipse if these are not too many, and otherwise as many as are wanted,
each once. -/
structure Choice (A : BesthistArgs) (casts : List Cast) (index : List ℕ) : Prop where
  inside : ∀ n ∈ index, ∃ c, casts[n]? = some c ∧ InEllipse A c
  few : numInside A casts ≤ A.maxCasts → index.Pairwise (· < ·) ∧ ∀ (n : ℕ) (c : Cast), casts[n]? = some c → InEllipse A c → n ∈ index
  many : A.maxCasts = 3 ∨ 5 ≤ A.maxCasts → A.maxCasts < numInside A casts → index.Nodup ∧ index.length = A.maxCasts

/-- Where the float and the casts used for a profile at `lat`, `long` are taken to be. `casts` are the casts around the float, `index` the numbers of the
chosen ones, `kept` the numbers of the casts that are used, `deep` those of the casts whose depths are used. -/
structure Surroundings (E : Env) (f : FloatProfile) (lat long : ℝ) (casts : List (RefCast ℝ)) (index kept deep : List ℕ) (here : FloatPos)
    (there : List FloatPos) : Prop where
  /-- The float: its position, with its longitude beside those of the casts that are used, its date, and the depth of the ocean there. -/
  float : here.lat = lat ∧ here.long = besideCasts (there.map (·.long)) long ∧ here.date = f.date ∧ DepthAt E.topo (max lat (-1079 / 12)) long here.z
  /-- The choice is made from all casts around the float, each at its place and date and with the depth of the ocean there. -/
  chosen : ∃ (xs : List ℝ) (view : List Cast), casts.map (·.long) = xs.map some ∧ view.length = casts.length ∧
    (∀ (n : ℕ) (c : RefCast ℝ) (x : ℝ), casts[n]? = some c → xs[n]? = some x → ∃ y d, c.lat = some y ∧ DepthAt E.topo (max y (-1079 / 12)) x d ∧
      view[n]? = some ⟨(unwrapped xs)[n]?, some y, some (decimalDate c), some d⟩) ∧
    Choice ⟨lat, besideCasts (unwrapped xs) long, f.date, here.z, E.cfg.latLarge, E.cfg.latSmall, E.cfg.longLarge, E.cfg.longSmall, E.cfg.phiLarge,
      E.cfg.phiSmall, E.cfg.ageLarge, E.cfg.ageSmall, E.cfg.usePv, E.maxCasts⟩ view index
  /-- One place for every cast that is kept. -/
  number : there.length = kept.length
  /-- Position and date are those of the cast, with its longitude beside those of the other chosen casts. -/
  place : ∀ (k n : ℕ), kept[k]? = some n → ∃ (c : RefCast ℝ) (y x : ℝ) (a : FloatPos), casts[n]? = some c ∧ c.lat = some y ∧ c.long = some x ∧
    there[k]? = some a ∧ a.lat = y ∧ a.long = amongChosen casts index x ∧ a.date = decimalDate c
  /-- The depth of the k-th cast that is kept is the depth at the k-th cast of `deep`. -/
  depth : ∀ (k : ℕ) (a : FloatPos), there[k]? = some a → ∃ (n : ℕ) (c : RefCast ℝ) (y x : ℝ), deep[k]? = some n ∧ casts[n]? = some c ∧
    c.lat = some y ∧ c.long = some x ∧ DepthAt E.topo (max y (-1079 / 12)) x a.z

/-- The entry of the matrix `m` of a mapped file for profile `i` and level `n`. -/
def storedAt (file : Update.MapFile ℝ) (m : Update.Mat) (i n : ℕ) : Option (Option ℝ) := ((file.mats m)[i]?).bind fun col => col[n]?

end Verif.Spec
