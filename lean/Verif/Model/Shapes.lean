import Verif.Np
import Verif.Model.Utilities

/-!
# Model of `draw_shapes_as_patches` (pyowc/plot/plots.py:16-27) and of `print_cfg` (pyowc/configuration.py:10-15)
-/

namespace Verif.Shapes

open Verif.Np

/-- A shape of a shape file: its points, and the positions of the points at which a new part starts. -/
structure Shape (P : Type) where
  points : List P
  parts : List ℤ

/-- The two codes of a path that are used. -/
inductive Code
  | moveTo
  | lineTo
  deriving DecidableEq

/-- Assigning to one position of an array; negative positions count from the end (`codes[i] = v`). -/
def assignAt {α : Type} (l : List α) (i : ℤ) (v : α) : Except PyErr (List α) :=
  let j := if i < 0 then i + l.length else i
  if 0 ≤ j ∧ j < l.length then .ok (l.set j.toNat v) else .error .indexError

/-- A path of matplotlib: its vertices with their codes. -/
abbrev Path (P : Type) := List (P × Code)

/-- `Path(points, codes)`: refuses an array without points, whose shape is not (n, 2), and codes which do not start with MOVETO. -/
def makePath {P : Type} (points : List P) (codes : List Code) : Except PyErr (Path P) :=
  match codes with
  | .moveTo :: _ => .ok (points.zip codes)
  | _ => .error .valueError

/-- One turn of the loop (pyowc/plot/plots.py:18-25). -/
def shapePath {P : Type} (s : Shape P) : Except PyErr (Path P) := do
  let codes ← s.parts.foldlM (fun c i => assignAt c i .moveTo) (List.replicate s.points.length Code.lineTo)  -- lines 21-22
  makePath s.points codes                                                                                   -- line 24

/-- `draw_shapes_as_patches` (pyowc/plot/plots.py:16-27): the patches on the axes afterwards, and the exception if there is one. Colours and line
widths are left out. -/
def drawShapes {P : Type} : List (Path P) → List (Shape P) → List (Path P) × Option PyErr
  | axes, [] => (axes, none)
  | axes, s :: shapes =>
    match shapePath s with
    | .ok p => drawShapes (axes ++ [p]) shapes                                                               -- line 27
    | .error e => (axes, some e)

/-- The lines which matplotlib draws for a path: from each vertex to the next one if that has the code LINETO. -/
def strokes {P : Type} (p : Path P) : List (P × P) :=
  (p.zip p.tail).filterMap fun q => if q.2.2 = .lineTo then some (q.1.1, q.2.1) else none

/-- `f"{k:>30}"`: blanks on the left up to a length of 30. -/
def alignRight (w : ℕ) (s : List Char) : List Char := List.replicate (w - s.length) ' ' ++ s

/-- `print_cfg` (pyowc/configuration.py:10-15). The configuration is the list of its names with the texts of the values. -/
def printCfg (config : List (List Char × List Char)) : List Char :=
  '\n' :: (config.map fun k => alignRight 30 k.1 ++ [':', ' '] ++ k.2 ++ ['\n']).flatten

end Verif.Shapes
