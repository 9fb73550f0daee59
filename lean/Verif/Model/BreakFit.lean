import Verif.Model.Utilities
import Mathlib.LinearAlgebra.Matrix.NonsingularInverse
import Mathlib.Data.Fin.Tuple.Basic

/-!
# Model of `brk_pt_fit` (pyowc/core/stats.py:961-1051)
-/

namespace Verif.BreakFit

open Verif.Np Verif.Utilities Matrix

variable {K : Type} [Field K] [LinearOrder K] [IsStrictOrderedRing K]

/-- One entry of `trends` (lines 1015-1026). `btem` are the knots, `ixb` the pointer of the row. Column 0 is 1; column `j + 1` is
`x - btem[j]` where the pointer is `j`, `btem[j + 1] - btem[j]` where it is greater, 0 elsewhere. Pointers of `sorter` are at most
`b`, so `btem[b + 1]` is never read. -/
def trendEntry {b : ℕ} (btem : Fin (b + 1) → K) (x : K) (ixb : ℤ) (j : Fin (b + 2)) : K :=
  Fin.cases (motive := fun _ => K) 1 (fun (j : Fin (b + 1)) =>
    if ixb = (j.val : ℤ) then x - btem j
    else if h : ixb > (j.val : ℤ) ∧ j.val + 1 < b + 1 then btem ⟨j.val + 1, h.2⟩ - btem j
    else 0) j

/-- `trends` (lines 1008-1026) for observations at `x` with at least one point. `sorter` numbers the points in ascending order
(C01), whatever the order of `x`. -/
def trends {n b : ℕ} (x : Fin (n + 1) → K) (breaks : Fin b → K) : Matrix (Fin (n + 1)) (Fin (b + 2)) K :=
  let btem : Fin (b + 1) → K := Fin.cons (x 0) breaks                                     -- line 1008
  let ixb := sorter (List.ofFn btem) (List.ofFn x)                                        -- line 1015
  Matrix.of fun i j => trendEntry btem (x i) (ixb.getD i.val 0) j

open Classical in
/-- `brk_pt_fit` (pyowc/core/stats.py:961-1051). `w_i` is empty (`none`) or a matrix. `np.linalg.det` is taken to be exact. -/
noncomputable def brkPtFit {n m b : ℕ} (x : Fin n → K) (y : Fin m → K) (w : Option (Matrix (Fin n) (Fin n) K)) (breaks : Fin b → K) :
    Except PyErr ((Fin (b + 2) → K) × (Fin m → K)) :=
  if h : n = m then
    match n, x, w with
    | 0, _, _ => .error .indexError                                                       -- line 1008: `x_obvs[0]`
    | k + 1, x, w =>
      let y' : Fin (k + 1) → K := fun i => y (i.cast h)
      let e := trends x breaks
      let lsEst := match w with
        | some w => eᵀ * w * e                                                            -- line 1030
        | none => eᵀ * e                                                                  -- line 1033
      if lsEst.det = 0 then .ok (0, y)                                                    -- lines 1035-1039
      else
        let fit := match w with
          | some w => (lsEst⁻¹ * eᵀ * w) *ᵥ y'                                            -- line 1043
          | none => lsEst⁻¹ *ᵥ (eᵀ *ᵥ y')                                                 -- line 1046
        .ok (fit, fun i => y i - (e *ᵥ fit) (i.cast h.symm))                              -- line 1050
  else .ok (0, y)                                                                         -- lines 998-1002

end Verif.BreakFit
