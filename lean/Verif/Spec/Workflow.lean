import Verif.Model.Workflow

/-!
# Specification vocabulary for the files of an analysis
-/

namespace Verif.Spec

open Verif.Workflow

/-- The name of a float or a part of a file name, without directories. -/
def Plain (s : List Char) : Prop := '/' ∉ s

/-- Neither is the beginning of the other. -/
def Incomparable {α : Type} (a b : List α) : Prop := ¬ a <+: b ∧ ¬ b <+: a

/-- The names along a path: its parts between `/`, without empty ones and `.`. -/
def pathNames (p : List Char) : List (List Char) := (p.splitOn '/').filter fun c => decide (c ≠ [] ∧ c ≠ ['.'])

/-- A configuration like the default one: one common postfix that ends in `.mat`, plain prefixes and postfix, three directories none of which is inside another, and
prefixes of calibration and calseries files neither of which begins the other. -/
structure Orderly (c : Config) : Prop where
  sourcePost : c.sourcePost = c.mappedPost
  calibPost : c.calibPost = c.mappedPost
  mat : ['.', 'm', 'a', 't'] <:+ c.mappedPost
  plainPost : Plain c.mappedPost
  plainMapped : Plain c.mappedPre
  plainCalib : Plain c.calibPre
  plainCalseries : Plain c.calseriesPre
  sourceMapped : Incomparable (pathNames c.sourceDir) (pathNames c.mappedDir)
  sourceCalib : Incomparable (pathNames c.sourceDir) (pathNames c.calibDir)
  mappedCalib : Incomparable (pathNames c.mappedDir) (pathNames c.calibDir)
  prefixes : Incomparable c.calibPre c.calseriesPre

/-- The float is directly in the source directory: `float_dir` is empty, `/`, `./` and the like. -/
def NoDirectory (f : FloatId) : Prop := ∀ part ∈ f.dir.splitOn '/', part = [] ∨ part = ['.']

/-- Two stores with the same source file, mapped files, calseries file and calibration for the float. -/
def SameFiles {V : Type} (c : Config) (f : FloatId) (s s' : Store V) : Prop :=
  s (file (sourcePath c f)) = s' (file (sourcePath c f)) ∧ s (file (mappedLoadPath c f)) = s' (file (mappedLoadPath c f)) ∧
  s (file (mappedSavePath c f)) = s' (file (mappedSavePath c f)) ∧ s (file (calseriesPath c f)) = s' (file (calseriesPath c f)) ∧
  s (file (calPath c f)) = s' (file (calPath c f))

/-- The results in a history that belong to the float. -/
def resultsOf {R : Type} (f : FloatId) (h : List (Op × FloatId)) (rs : List R) : List R :=
  ((h.zip rs).filter fun x => decide (x.1.2 = f)).map Prod.snd

/-- The steps in a history that belong to the float. -/
def stepsOf (f : FloatId) (h : List (Op × FloatId)) : List (Op × FloatId) := h.filter fun x => decide (x.2 = f)

/-- The number of a figure is printed in digits, and the bounds as a Python list such as `[0, 5]`. -/
def Printed : Figure → Prop
  | .variance i => (∃ d l, i = d :: l ∧ d.isDigit = true) ∧ '_' ∉ i ∧ Plain i
  | .anomaly _ b => (∃ l, b = '[' :: l) ∧ '_' ∉ b ∧ Plain b
  | _ => True

end Verif.Spec
