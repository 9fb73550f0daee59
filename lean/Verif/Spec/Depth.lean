import Verif.Spec.Topo
import Mathlib.Data.Real.Basic

/-!
# The depth of the ocean at a position

The bathymetry file gives elevations at the nodes of a grid of 5 minutes of arc. Between the nodes the elevation is the bilinear one, and the depth is
its opposite.
-/

namespace Verif.Spec

open Verif.Topo

/-- The value at the fractions `u` (of the second direction) and `v` (of the first) of a cell with the corner values `a b` and `c e`. -/
noncomputable def bilinear (u v a b c e : ℝ) : ℝ := (1 - u) * ((1 - v) * a + v * b) + u * ((1 - v) * c + v * e)

/-- `d` is the depth at latitude `lat` and longitude `lon`, in degrees: the position lies in the cell of the nodes `i/12`, `(i+1)/12` north and `j/12`,
`(j+1)/12` east, and `d` is the opposite of the bilinear elevation in this cell. -/
def DepthAt (file : List ℤ) (lat lon d : ℝ) : Prop :=
  ∃ i j a b c e : ℤ,
    ElevationAt file ((i : ℝ) / 12) ((j : ℝ) / 12) a ∧ ElevationAt file ((i : ℝ) / 12) (((j + 1 : ℤ) : ℝ) / 12) b ∧
    ElevationAt file (((i + 1 : ℤ) : ℝ) / 12) ((j : ℝ) / 12) c ∧ ElevationAt file (((i + 1 : ℤ) : ℝ) / 12) (((j + 1 : ℤ) : ℝ) / 12) e ∧
    (i : ℝ) ≤ 12 * lat ∧ 12 * lat ≤ i + 1 ∧ (j : ℝ) ≤ 12 * lon ∧ 12 * lon ≤ j + 1 ∧
    d = -bilinear (12 * lat - i) (12 * lon - j) a b c e

/-- What `scipy.interpolate.interp2d(xs, ys, zs, kind='linear')` computes at `(x, y)` for ascending `xs` and descending `ys`, as `get_topo_grid` returns
them: the bilinear value in the cell of the point, and south of the grid the value at its southern edge. -/
structure IsInterp2d (interp2 : List ℝ → List ℝ → List (List ℤ) → ℝ → ℝ → ℝ) : Prop where
  cell : ∀ (xs ys : List ℝ) (zs : List (List ℤ)), xs.Pairwise (· < ·) → ys.Pairwise (· > ·) → zs.length = ys.length →
    (∀ row ∈ zs, row.length = xs.length) →
    ∀ (i j : ℕ) (x0 x1 y0 y1 : ℝ) (r0 r1 : List ℤ) (a b c e : ℤ), xs[j]? = some x0 → xs[j + 1]? = some x1 → ys[i]? = some y0 → ys[i + 1]? = some y1 →
      zs[i]? = some r0 → zs[i + 1]? = some r1 → r0[j]? = some a → r0[j + 1]? = some b → r1[j]? = some c → r1[j + 1]? = some e →
      ∀ x y : ℝ, x0 ≤ x → x ≤ x1 → y1 ≤ y → y ≤ y0 →
        interp2 xs ys zs x y = bilinear ((y0 - y) / (y0 - y1)) ((x - x0) / (x1 - x0)) a b c e
  south : ∀ (xs ys : List ℝ) (zs : List (List ℤ)), xs.Pairwise (· < ·) → ys.Pairwise (· > ·) → zs.length = ys.length →
    (∀ row ∈ zs, row.length = xs.length) → ∀ s : ℝ, ys.getLast? = some s → ∀ x y : ℝ, y ≤ s → interp2 xs ys zs x y = interp2 xs ys zs x s

end Verif.Spec
