import Mathlib.Data.Int.Order.Basic
import Mathlib.Data.List.Basic

/-!
# Specification of the WMO box grid used by `find_25boxes`

The globe is cut into 36 x 18 cells of 10 x 10 degrees. Column `cx` has longitudes `10 cx .. 10 cx + 10`, row `cy` has latitudes
`10 cy .. 10 cy + 10`, `cy = 8` in the north, `-9` in the south. Boxes are numbered column by column, from the north
down. This file mentions nothing of the model.
-/

namespace Verif.Spec

/-- Zero-based row in the box table of the cell in column `cx` (modulo 36: longitude is periodic) and row `cy` (a row beyond a
pole is replaced by the row at the pole). -/
def wmoRow (cx cy : ℤ) : ℕ := 18 * (cx % 36).toNat + (8 - max (-9) (min 8 cy)).toNat

/-- The neighbours in the order in which they are listed. -/
def offsets : List ℤ := [0, 1, -1, 2, -2]

/-- The 5 x 5 cells around cell `(cx, cy)`. -/
def cells25 (cx cy : ℤ) : List ℕ := offsets.flatMap fun dy => offsets.map fun dx => wmoRow (cx + dx) (cy + dy)

end Verif.Spec
