import Mathlib.Algebra.Order.Field.Basic
import Mathlib.Data.List.Basic

/-!
# What the bathymetry file means

`tbase.int` holds one elevation per 5 minutes of arc: 2160 rows from 90N southwards, each of 4320
elevations from Greenwich eastwards.
-/

namespace Verif.Topo

variable {K : Type} [Field K]

/-- `z` is the elevation the file gives for latitude `lat` and longitude `lon` (degrees, any number of
turns): row `12 (90 - lat)`, column `12 lon` modulo a full turn of 4320 columns. -/
def ElevationAt (file : List ℤ) (lat lon : K) (z : ℤ) : Prop :=
  ∃ (row col : ℕ) (turns : ℤ), (row : K) = 12 * (90 - lat) ∧ (col : K) = 12 * (lon + 360 * turns) ∧
    col < 4320 ∧ file[4320 * row + col]? = some z

end Verif.Topo
