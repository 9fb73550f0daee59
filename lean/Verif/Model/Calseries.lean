import Verif.Np

/-!
# Model of `set_calseries` (pyowc/configuration.py:131-268)

`loadmat` gives two-dimensional arrays: a matrix is a list of rows, `__len__` is the number of rows, the empty list `[]` is stored as a
matrix without rows, a number as one row of one entry and a one-dimensional array as one row. Profile numbers and flags are numbers,
never NaN. The file of the float and the calseries file are arguments, the value is what is saved.
-/

namespace Verif.Calseries

open Verif.Np

variable {K : Type} [Field K] [LinearOrder K] [IsStrictOrderedRing K]

/-- What `loadmat` reads from a calseries file (lines 168-184). `percent` is `none` if the file has no `use_percent_gt`. -/
structure CalFile (K : Type) where
  breaks : List (List (Option K))
  maxBreaks : List (List K)
  calseries : List (List K)
  calibNo : List (List K)
  thetaLt : List (List K)
  thetaGt : List (List K)
  presLt : List (List K)
  presGt : List (List K)
  percent : Option (List (List K))
  deriving DecidableEq

/-- The source file of the float (lines 152-156, 243-245): profile numbers, and a list of columns for each variable, one column for each profile. -/
structure FloatSource (K : Type) where
  no : List K
  sal : List (List (Option K))
  temp : List (List (Option K))
  pres : List (List (Option K))

/-- The variables after lines 167-202. -/
structure Params (K : Type) where
  breaks : List (List (Option K))
  maxBreaks : List (List K)
  calseries : List K
  calibNo : List K
  thetaLt : List (List K)
  thetaGt : List (List K)
  presLt : List (List K)
  presGt : List (List K)
  percent : List (List K)

/-- Lines 167-202. A missing `use_percent_gt` is a `KeyError`: neither `except NameError` nor `except FileNotFoundError` catches it. -/
def params (src : FloatSource K) : Option (CalFile K) → Except PyErr (Params K)
  | some f =>
    match f.percent with
    | some p => .ok ⟨f.breaks, f.maxBreaks, f.calseries.flatten, f.calibNo.flatten, f.thetaLt, f.thetaGt, f.presLt, f.presGt, p⟩
    | none => .error .keyError
  | none => .ok ⟨[], [[4]], src.no.map fun _ => 1, src.no, [], [], [], [], [[1 / 2]]⟩

/-- Lines 206-220: a limit with more than one row is removed. -/
def dropMany (l : List (List K)) : List (List K) := if l.length > 1 then [] else l

/-- `missing_profiles_index` (lines 224-229). -/
def missingIndex (calibNo no : List K) : List ℕ := argwhere (fun v => decide ((argwhere (fun c => decide (c = v)) calibNo).length = 0)) no

/-- `sal[:, i]` (lines 248-250), and whether it has a value that is not NaN. -/
def hasData (m : List (List (Option K))) (i : ℕ) : Except PyErr Bool :=
  match m[i]? with
  | some col => .ok (decide ((argwhere (fun v : Option K => v.isSome) col).length ≠ 0))
  | none => .error .indexError

/-- One turn of the loop of lines 247-256. -/
def flagStep (src : FloatSource K) (cal : List K) (i : ℕ) : Except PyErr (List K) := do
  let s ← hasData src.sal i
  let t ← hasData src.temp i
  let p ← hasData src.pres i
  if s = false ∨ t = false ∨ p = false then
    if i < cal.length then pure (cal.set i 0) else .error .indexError
  else pure cal

/-- `set_calseries` (pyowc/configuration.py:131-268). `argsort` is the unstable sort of line 237. An array has no `append` (line 233). -/
def setCalseries (argsort : List (Option K) → List ℕ) (src : FloatSource K) (file : Option (CalFile K)) : Except PyErr (CalFile K) := do
  let p ← params src file
  if (missingIndex p.calibNo src.no).length ≠ 0 then .error .attributeError
  let order := argsort (p.calibNo.map some)
  let no ← gather p.calibNo order
  let cal ← gather p.calseries order
  let cal' ← (List.range src.no.length).foldlM (flagStep src) cal
  pure
    { breaks := p.breaks
      maxBreaks := p.maxBreaks
      calseries := [cal']
      calibNo := [no]
      thetaLt := dropMany p.thetaLt
      thetaGt := dropMany p.thetaGt
      presLt := dropMany p.presLt
      presGt := dropMany p.presGt
      percent := some p.percent }

end Verif.Calseries
