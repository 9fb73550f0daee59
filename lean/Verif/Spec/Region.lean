import Verif.Model.Region

/-!
# Specification vocabulary for the reference data

Only the record types, `changeDates` (property C06) and `wrapLongitude` (properties C02, C03) are
taken from the model.
-/

namespace Verif.Spec

open Verif.Region Verif.Utilities Verif.Np

variable {K : Type} [Field K] [LinearOrder K] [IsStrictOrderedRing K]

/-- Every reference file has profiles of at least two levels, and all its casts have that many rows. -/
def WellFormedDisk (disk : Disk K) : Prop :=
  ∀ t n f, disk t n = some f → 2 ≤ f.levels ∧
    ∀ c ∈ f.casts, c.pres.length = f.levels ∧ c.sal.length = f.levels ∧ c.ptmp.length = f.levels

/-- The casts that box `b` contributes for data type `t` (1 CTD, 2 bottle, 3 Argo): none if the box number is missing, the
flag is not 1, the file is absent or holds fewer than two casts; for Argo data the casts whose source contains
the name of the float are left out. -/
def fileCasts (disk : Disk K) (name : List Char) (b : WmoBox) (t : ℕ) : List (RefCast K) :=
  match b.number with
  | none => []
  | some n =>
    if (if t = 1 then b.ctd else if t = 2 then b.bottle else b.argo) = 1 then
      match disk t n with
      | none => []
      | some f =>
        if f.casts.length < 2 then []
        else if t = 1 ∨ t = 2 then f.casts
        else f.casts.filter fun c => decide (¬ name <:+: c.source)
    else []

/-- All reference casts of the boxes, in the order of boxes, data types and files. -/
def refCasts (disk : Disk K) (name : List Char) (boxes : List WmoBox) : List (RefCast K) :=
  boxes.flatMap fun b => fileCasts disk name b 1 ++ fileCasts disk name b 2 ++ fileCasts disk name b 3

/-- The casts whose position in the list occurs in `index`, in the order of the list. -/
def chosen (index : List ℕ) (casts : List (RefCast K)) : List (RefCast K) :=
  (casts.zipIdx.filter fun p => decide (p.2 ∈ index)).map (·.1)

/-- The decimal date of one cast. -/
def decimalDate (c : RefCast K) : K :=
  match changeDates (K := K) [c.date] with
  | .ok [d] => d
  | _ => 0

/-- One level of a cast: pressure, potential temperature, salinity. -/
abbrev CastLevel (K : Type) := Option K × Option K × Option K

/-- The levels of a cast. -/
def levelsOf (c : RefCast K) : List (CastLevel K) := c.pres.zip (c.ptmp.zip c.sal)

/-- A level is usable if its pressure is known and does not exceed the limit (if there is one). -/
def UsableLevel (limit : Option K) (l : CastLevel K) : Prop :=
  ∃ p, l.1 = some p ∧ ∀ m, limit = some m → p ≤ m

open Classical in
/-- The usable levels of a cast, in order. -/
noncomputable def usableLevels (limit : Option K) (c : RefCast K) : List (CastLevel K) :=
  (levelsOf c).filter fun l => decide (UsableLevel limit l)

/-- A level is kept if all three numbers are known, otherwise all three become missing. -/
def completeOrBlank (l : CastLevel K) : CastLevel K :=
  match l with
  | (some p, some t, some s) => (some p, some t, some s)
  | _ => (none, none, none)

/-- The column of a cast in the result: its usable levels, incomplete ones blanked, then blanks up to `depth` levels. -/
noncomputable def columnOf (limit : Option K) (depth : ℕ) (c : RefCast K) : List (CastLevel K) :=
  (usableLevels limit c).map completeOrBlank ++
    List.replicate (depth - (usableLevels limit c).length) (none, none, none)

/-- The number of levels of the result: the largest number of usable levels. -/
noncomputable def depthOf (limit : Option K) (casts : List (RefCast K)) : ℕ :=
  (casts.map fun c => (usableLevels limit c).length).foldr max 0

/-- A cast has data if one of its usable levels is complete. -/
def HasData (limit : Option K) (c : RefCast K) : Prop :=
  ∃ l ∈ usableLevels limit c, ∃ p t s, l = (some p, some t, some s)

/-- The deepest pressure wanted: the float's largest pressure plus `delta`; no limit if the float has none. -/
noncomputable def pressureLimit (floatPres : List (Option K)) (delta : K) : Option K :=
  ((floatPres.filterMap id).max?).map (· + delta)

open Classical in
/-- The result of `get_region_data` that the specification asks for, given the chosen casts. -/
noncomputable def regionResult (limit : Option K) (sel : List (RefCast K)) : RegionData K :=
  let kept := (sel.zip (wrapLongitude (sel.map (·.long)))).filter fun p => decide (HasData limit p.1)
  let column := fun (p : RefCast K × Option K) => columnOf limit (depthOf limit sel) p.1
  { pres := kept.map fun p => (column p).map (·.1)
    ptmp := kept.map fun p => (column p).map (·.2.1)
    sal := kept.map fun p => (column p).map (·.2.2)
    lat := kept.map (·.1.lat)
    long := kept.map (·.2)
    dates := kept.map fun p => decimalDate p.1 }

open Classical in
/-- The numbers of the casts that `get_region_data` is to return: those in `index` whose cast has data, ascending. -/
noncomputable def keptNumbers (limit : Option K) (index : List ℕ) (casts : List (RefCast K)) : List ℕ :=
  (List.range casts.length).filter fun k => decide (k ∈ index ∧ ∃ c, casts[k]? = some c ∧ HasData limit c)

end Verif.Spec
