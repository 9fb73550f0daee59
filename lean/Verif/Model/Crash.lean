import Verif.Model.Workflow

/-!
# Model of interrupted steps

The steps of `Verif.Model.Workflow`, any of which may be interrupted (the process is killed, the computer stops). Nothing is written before a step saves its
result. `scipy.io.savemat` opens the file for writing, which empties it, and then writes variable by variable: while it does so the file is damaged. Simplification:
reading a damaged file always raises the same exception, which is not `FileNotFoundError` (scipy raises several kinds; if some variables can be read, the
first missing one is a `KeyError`). Figures are not files of the store.
-/

namespace Verif.Crash

open Verif.Np Verif.Workflow

variable {V : Type}

/-- The content of a file: complete, or damaged because saving was interrupted. -/
inductive Content (V : Type)
  | whole (v : V)
  | damaged
deriving DecidableEq

/-- How a step ends: by itself, interrupted before it saves, or interrupted while it saves. -/
inductive Fate
  | ends
  | killedBefore
  | killedSaving
deriving DecidableEq

/-- `loadmat` (see `Workflow.load`); `D` is the exception for a damaged file. -/
def fetch (D : PyErr) (s : Store (Content V)) (p : List Char) : Except PyErr V := do
  match ← load s p with
  | .whole v => .ok v
  | .damaged => .error D

/-- What a step computes before it saves. -/
def compute (c : Config) (P : Programs V) (D : PyErr) (op : Op) (f : FloatId) (s : Store (Content V)) : Except PyErr V :=
  match op with
  | .mapping => do
    -- pyowc/calibration.py:57-62, 107-114, pyowc/helper.py:26-35 (`is_file` does not append `.mat`)
    let src ← fetch D s (sourcePath c f)
    match s (file (mappedLoadPath c f)) with
    | none => P.mapping src none
    | some (.whole v) => P.mapping src (some v)
    | some .damaged => .error D
  | .calseries => do
    -- pyowc/configuration.py:150-151, 158-202 (only `FileNotFoundError` leads to a new file)
    let src ← fetch D s (sourcePath c f)
    match fetch D s (calseriesPath c f) with
    | .ok v => P.calseries src (some v)
    | .error .fileNotFound => P.calseries src none
    | .error e => .error e
  | .fit => do
    -- pyowc/calibration.py:400-416, 451-454
    let src ← fetch D s (sourcePath c f)
    let m ← fetch D s (mappedLoadPath c f)
    let k ← fetch D s (calseriesFitPath c f)
    P.fit src m k
  | .plots => do
    -- pyowc/plot/dashboard.py:30-42
    let m ← fetch D s (mappedSavePath c f)
    let src ← fetch D s (sourcePath c f)
    let cal ← fetch D s (calPlotPath c f)
    let k ← fetch D s (calseriesPlotPath c f)
    P.plots m src cal k

/-- The file a step saves to (pyowc/calibration.py:365-370, 538-557, 725-743; pyowc/configuration.py:262-268). -/
def output (c : Config) (op : Op) (f : FloatId) : Option (List Char) :=
  match op with
  | .mapping => some (mappedSavePath c f)
  | .calseries => some (calseriesPath c f)
  | .fit => some (calPath c f)
  | .plots => none

/-- Writing a content to the file of a step, if it has one. -/
def write (s : Store (Content V)) (p : Option (List Char)) (x : Content V) : Store (Content V) :=
  match p with
  | some p => save s p x
  | none => s

/-- A step: its result (`none` if it was interrupted) and the files afterwards. An exception ends the step before it saves. -/
def attempt (c : Config) (P : Programs V) (D : PyErr) (op : Op) (f : FloatId) (fate : Fate) (s : Store (Content V)) :
    Option (Except PyErr V) × Store (Content V) :=
  match fate with
  | .killedBefore => (none, s)
  | .killedSaving =>
    match compute c P D op f s with
    | .ok _ => (none, write s (output c op f) .damaged)
    | .error e => (some (.error e), s)
  | .ends =>
    match compute c P D op f s with
    | .ok v => (some (.ok v), write s (output c op f) (.whole v))
    | .error e => (some (.error e), s)

/-- A history of steps for any floats, some of them interrupted: the results, and the files at the end. -/
def runAll (c : Config) (P : Programs V) (D : PyErr) : List (Op × FloatId × Fate) → Store (Content V) → List (Option (Except PyErr V)) × Store (Content V)
  | [], s => ([], s)
  | (op, f, fate) :: h, s =>
    let r := attempt c P D op f fate s
    let rest := runAll c P D h r.2
    (r.1 :: rest.1, rest.2)

end Verif.Crash
