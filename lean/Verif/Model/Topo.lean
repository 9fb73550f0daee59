import Verif.Np
import Mathlib.Algebra.Order.Round

/-!
# Model of `get_topo_grid` (pyowc/data/fetchers.py:63-159)

The bathymetry file `tbase.int` is the list of its 16-bit numbers; position `k` of the list is byte `2k`
of the file. All positions the code seeks to are even, so positions are counted in numbers.
-/

namespace Verif.Topo

open Verif.Np

variable {K : Type} [Field K] [LinearOrder K] [IsStrictOrderedRing K] [FloorRing K]

/-- `np.zeros((nlat, n))` raises `ValueError` for a negative dimension
(pyowc/data/fetchers.py:123, 131, 145). -/
def zeros (nlat n : ℤ) : Except PyErr Unit :=
  if nlat < 0 ∨ n < 0 then .error .valueError else .ok ()

/-- `elev_file.seek(pos)` followed by `n` reads of one number (pyowc/data/fetchers.py:127-129, 134-136,
149-151): a negative position is an `OSError`, reading past the end a `struct.error`. -/
def readRow (file : List ℤ) (pos : ℤ) (n : ℕ) : Except PyErr (List ℤ) :=
  if pos < 0 then .error .osError
  else (List.range n).mapM fun (j : ℕ) =>
    match file[pos.toNat + j]? with
    | some z => .ok z
    | none => .error .structError

/-- One of the loops over the rows (pyowc/data/fetchers.py:123-129, 131-136 or 145-151): row `i` is read from
column `col` of file row `i + top` on. -/
def readRows (file : List ℤ) (nlat top col n : ℤ) : Except PyErr (List (List ℤ)) := do
  zeros nlat n
  (List.range nlat.toNat).mapM fun (i : ℕ) => readRow file (((i : ℤ) + top) * 4320 + col) n.toNat

/-- The clipping of the latitude limits (pyowc/data/fetchers.py:88-91). The `elif` leaves the lower limit
alone when the upper one was clipped. -/
def clipLat (minLat maxLat : K) : K × K :=
  if maxLat > 90 then (minLat, 90)
  else if minLat < -90 then (-90, maxLat)
  else (minLat, maxLat)

/-- The shift of the columns into the file (pyowc/data/fetchers.py:103-109). -/
def shiftCols (llong rlong : ℤ) : ℤ × ℤ :=
  let (l, r) := if rlong > 360 * 12 - 1 then (llong - 360 * 12, rlong - 360 * 12) else (llong, rlong)
  if l < 0 then (l + 360 * 12, r + 360 * 12) else (l, r)

/-- `np.arange(a, b + 1)` for integers (pyowc/data/fetchers.py:100-101). -/
def arangeIncl (a b : ℤ) : List ℤ := arangeFrom a (b + 1 - a).toNat

/-- `get_topo_grid` (pyowc/data/fetchers.py:63-159): the elevations by row, the longitudes of the columns and
the latitudes of the rows. The code returns the last two spread over a `meshgrid` (line 154); the
model keeps its first row and first column. -/
def topoGrid (file : List ℤ) (minLong maxLong minLat maxLat : K) :
    Except PyErr (List (List ℤ) × List K × List K) := do
  let (minLat, maxLat) := clipLat minLat maxLat
  let blat : ℤ := max ⌊minLat * 12⌋ (-90 * 12 + 1)                              -- line 94
  let tlat : ℤ := ⌈maxLat * 12⌉                                                  -- line 95
  let llong : ℤ := ⌊minLong * 12⌋                                                -- line 96
  let rlong : ℤ := ⌈maxLong * 12⌉                                                -- line 97
  let lgs : List K := (arangeIncl llong rlong).map fun (k : ℤ) => (k : K) / 12  -- line 100
  let lts : List K := ((arangeIncl blat tlat).map fun (k : ℤ) => (k : K) / 12).reverse  -- line 101
  let (l, r) := shiftCols llong rlong
  let top := 90 * 12 - tlat                                                      -- line 111
  let bottom := 90 * 12 - blat
  let nlat := bottom - top + 1
  let topo ← (if r > 4319 then do
      let topoEnd ← readRows file nlat top 0 (r - 4320 + 1)                      -- lines 118-129
      let topoBeg ← readRows file nlat top l (4320 - l)                          -- lines 131-136
      pure (List.zipWith (· ++ ·) topoBeg topoEnd)                               -- line 138
    else readRows file nlat top l (r - l + 1))                                   -- lines 141-151
  pure (topo, lgs, lts)

end Verif.Topo
