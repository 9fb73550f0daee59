import Verif.Np
import Mathlib.Analysis.SpecialFunctions.Trigonometric.Basic
import Mathlib.Analysis.Real.Sqrt

/-!
# Model of `pyowc/utilities.py`
-/

namespace Verif.Utilities

open Verif.Np

variable {K : Type} [Field K] [LinearOrder K] [IsStrictOrderedRing K]

/-- `sorter` (pyowc/utilities.py:52-77).
`msites`, `sites` are 1-D arrays, so `flatten` is the identity and `__len__` is the length.
Line 70 concatenates, line 72 is a stable argsort, lines 74-75 subtract 1..n from the positions of
the entries that come from `sites`.  -/
def sorter (msites sites : List K) : List ℤ :=
  let allSites := msites ++ sites
  let index := stableArgsort allSites
  List.zipWith (fun (p : ℕ) (a : ℤ) => (p : ℤ) - a)
    (argwhere (fun (i : ℕ) => decide ((i : ℤ) > (msites.length : ℤ) - 1)) index)
    (arangeFrom 1 sites.length)

/-- `wrap_longitude` (pyowc/utilities.py:80-109). NaN is `none`: all comparisons with NaN are
false, so NaN entries are returned as they are. -/
def wrapLongitude (gridLong : List (Option K)) : List (Option K) :=
  let g1 := gridLong.map (Option.map fun x => if x < 0 then x + 360 else x)
  if g1.any (fun o => o.any fun x => decide (x ≥ 320)) then
    g1.map (Option.map fun x => if x ≤ 40 then 360 + x else x)
  else g1

/-- `ln_cumulative_months` (pyowc/utilities.py:154): the cumulative sums of
`[0, 31, 28, 31, 30, 31, 30, 31, 31, 30, 31, 30, 31]`. -/
def cumulativeMonths : List ℤ :=
  ([31, 28, 31, 30, 31, 30, 31, 31, 30, 31, 30, 31] : List ℤ).scanl (· + ·) 0

/-- Python indexing of a sequence by an integer: negative indices count from the end, anything else
out of range is an `IndexError`. -/
def pyIndex {α : Type*} (l : List α) (i : ℤ) : Except PyErr α :=
  let j := if i < 0 then i + l.length else i
  if j < 0 then .error .indexError
  else match l[j.toNat]? with
    | some a => .ok a
    | none => .error .indexError

/-- `cal2dec` (pyowc/utilities.py:139-165). Month, day, hour and minute are integers (as
`change_dates` passes them). -/
def cal2dec (month day hour minute : ℤ) : Except PyErr K :=
  match pyIndex cumulativeMonths month with
  | .error _ => .error .valueError                                   -- lines 164-165
  | .ok c =>
    let decDate : K := (c : K) + day - 1 + hour / 24 + minute / 60 / 24   -- lines 157-159
    if decDate > 366 then .error .valueError                          -- lines 160-161
    else .ok decDate

/-- Python's `int(s)` on text without blanks or underscores (the text of a number has none):
an optional sign and at least one decimal digit, else `ValueError`. -/
def pyInt (s : List Char) : Except PyErr ℤ :=
  let digits (t : List Char) : Except PyErr ℤ :=
    if t ≠ [] ∧ t.all Char.isDigit then
      .ok (t.foldl (fun (acc : ℤ) c => acc * 10 + ((c.toNat : ℤ) - 48)) 0)
    else .error .valueError
  match s with
  | '-' :: t => (digits t).map (- ·)
  | '+' :: t => digits t
  | t => digits t

/-- Python slice `s[a:b]` for `0 ≤ a ≤ b`. -/
def pySlice {α : Type*} (s : List α) (a b : ℕ) : List α := (s.drop a).take (b - a)

/-- The body of the `try` of `change_dates` for one date (pyowc/utilities.py:195-210): `some v` when
`dec_dates[i] = v` is executed, `none` when the test of line 208 fails, or the exception raised. -/
def decodeDate (s : List Char) : Except PyErr (Option K) := do
  let year ← pyInt (pySlice s 0 4)                                              -- line 198
  let month ← pyInt (pySlice s 4 6)                                             -- line 199
  let day ← pyInt (pySlice s 6 8)                                               -- line 200
  let hour ← (if s.length > 9 then pyInt (pySlice s 8 10) else pure 0)          -- lines 196, 202-203
  let minute ← (if s.length > 11 then pyInt (pySlice s 10 12) else pure 0)      -- lines 197, 205-206
  if 13 > month ∧ month > 0 ∧ 32 > day ∧ day > 0 then                           -- line 208
    let d : K ← cal2dec (month - 1) day hour minute                             -- line 209
    pure (some (year + d / 365))
  else pure none

/-- One turn of the loop of `change_dates` (pyowc/utilities.py:193-214): `ValueError` is caught, the entry is
left as it is and the loop goes on; any other exception would leave the function. -/
def changeDatesStep (calDates : List (List Char)) (dec : List K) (i : ℕ) : Except PyErr (List K) :=
  match calDates[i]? with
  | none => .error .indexError
  | some s =>
    match (decodeDate s : Except PyErr (Option K)) with
    | .ok (some v) => .ok (dec.set i v)
    | .ok none => .ok dec
    | .error .valueError => .ok dec
    | .error e => .error e

/-- `change_dates` (pyowc/utilities.py:168-216) on the texts of the dates (line 190). -/
def changeDates (calDates : List (List Char)) : Except PyErr (List K) :=
  (List.range calDates.length).foldlM (changeDatesStep calDates)
    (List.replicate calDates.length 0)

/-- `potential_vorticity` (pyowc/utilities.py:112-136), for `z ≠ 0` (Python raises or yields infinity
for `z = 0`, which the theorems exclude). -/
noncomputable def potentialVorticity (lat z : ℝ) : ℝ :=
  let earthAngularVelocity : ℝ := 2 * 7.292 * 10 ^ (-5 : ℤ)
  let latRadians := lat * Real.pi / 180
  let pv := (earthAngularVelocity * Real.sin latRadians) / z
  if pv = 0 then 1 * 10 ^ (-5 : ℤ) else pv

/-- `spatial_correlation` (pyowc/utilities.py:8-49), arguments in the order of the code. -/
noncomputable def spatialCorrelation (long1 long2 ellLong lat1 lat2 ellLat dates1 dates2 ellAge phi
    pv1 pv2 : ℝ) : ℝ :=
  let correlation := (long1 - long2) ^ 2 / ellLong ^ 2 + (lat1 - lat2) ^ 2 / ellLat ^ 2 +
    (dates1 - dates2) ^ 2 / ellAge ^ 2
  let pvCorrelation :=
    if pv1 ≠ 0 ∧ pv2 ≠ 0 then ((pv2 - pv1) / Real.sqrt (pv2 ^ 2 + pv1 ^ 2) / phi) ^ 2 else 0
  correlation + pvCorrelation

end Verif.Utilities
