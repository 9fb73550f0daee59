import Verif.Np

/-!
# Model of the files that the steps of an analysis read and write

Names of files as they are put together in pyowc/calibration.py, pyowc/configuration.py and pyowc/plot. A store maps files to contents; what the steps compute
is a parameter. Assumptions: the directories exist, a path is not changed by `..` or symbolic links, and letter case matters.
-/

namespace Verif.Workflow

open Verif.Np

/-- `os.path.sep.join(parts)`. -/
def sepJoin : List (List Char) → List Char
  | [] => []
  | [a] => a
  | a :: l => a ++ '/' :: sepJoin l

/-- The part of a path before the first `/` and the parts after it. -/
def splitSep : List Char → List Char × List (List Char)
  | [] => ([], [])
  | c :: l => let r := splitSep l
    if c = '/' then ([], r.1 :: r.2) else (c :: r.1, r.2)

/-- The names along a path; empty parts and `.` do not count for the operating system. -/
def components (p : List Char) : List (List Char) :=
  ((splitSep p).1 :: (splitSep p).2).filter fun c => decide (c ≠ [] ∧ c ≠ ['.'])

/-- A file as the operating system finds it: whether the path is absolute, and the names along it. -/
abbrev File := Bool × List (List Char)

/-- The file of a path. -/
def file (p : List Char) : File := (decide (p.head? = some '/'), components p)

/-- The settings that make up the names (pyowc/configuration.py:37-63). -/
structure Config where
  sourceDir : List Char
  sourcePost : List Char
  mappedDir : List Char
  mappedPre : List Char
  mappedPost : List Char
  calibDir : List Char
  calibPre : List Char
  calseriesPre : List Char
  calibPost : List Char

/-- The arguments `float_dir` and `float_name`. -/
structure FloatId where
  dir : List Char
  name : List Char
deriving DecidableEq

/-- pyowc/calibration.py:57-58, 400-401; pyowc/configuration.py:150-151; pyowc/plot/dashboard.py:32-33. -/
def sourcePath (c : Config) (f : FloatId) : List Char := sepJoin [c.sourceDir, f.dir, f.name ++ c.sourcePost]

/-- Where `update_salinity_mapping` looks for earlier results (pyowc/calibration.py:107-110) and `calc_piecewisefit` for mapped data (lines 413-415). -/
def mappedLoadPath (c : Config) (f : FloatId) : List Char := sepJoin [c.mappedDir, f.dir, c.mappedPre ++ f.name ++ c.mappedPost]

/-- Where `update_salinity_mapping` saves (pyowc/calibration.py:365-366) and `plot_diagnostics` looks (pyowc/plot/dashboard.py:30-31). -/
def mappedSavePath (c : Config) (f : FloatId) : List Char := sepJoin [c.mappedDir, c.mappedPre ++ f.name ++ c.mappedPost]

/-- Where `set_calseries` reads and saves (pyowc/configuration.py:158-161). -/
def calseriesPath (c : Config) (f : FloatId) : List Char := sepJoin [c.calibDir, f.dir, c.calseriesPre ++ f.name ++ c.calibPost]

/-- Where `calc_piecewisefit` looks for the calseries file (pyowc/calibration.py:451-453). -/
def calseriesFitPath (c : Config) (f : FloatId) : List Char := sepJoin [c.calibDir, f.dir, c.calseriesPre ++ f.name ++ c.mappedPost]

/-- Where `plot_diagnostics` looks for the calseries file (pyowc/plot/dashboard.py:36-37). -/
def calseriesPlotPath (c : Config) (f : FloatId) : List Char := sepJoin [c.calibDir, f.dir, c.calseriesPre ++ f.name ++ c.sourcePost]

/-- Where `calc_piecewisefit` saves (pyowc/calibration.py:538-540, 725-727). -/
def calPath (c : Config) (f : FloatId) : List Char := sepJoin [c.calibDir, f.dir, c.calibPre ++ f.name ++ c.calibPost]

/-- Where `plot_diagnostics` looks for the calibration (pyowc/plot/dashboard.py:34-35). -/
def calPlotPath (c : Config) (f : FloatId) : List Char := sepJoin [c.calibDir, f.dir, c.calibPre ++ f.name ++ c.sourcePost]

variable {V : Type}

/-- The files on the disk. -/
abbrev Store (V : Type) := File → Option V

/-- `savemat(path, content)`. -/
def save (s : Store V) (p : List Char) (v : V) : Store V := fun x => if x = file p then some v else s x

/-- `loadmat(path)`: if there is no such file, `.mat` is appended to the name (if it is not there already) and tried again. -/
def load (s : Store V) (p : List Char) : Except PyErr V :=
  match s (file p) with
  | some v => .ok v
  | none =>
    if ['.', 'm', 'a', 't'].isSuffixOf p then .error .fileNotFound
    else match s (file (p ++ ['.', 'm', 'a', 't'])) with
      | some v => .ok v
      | none => .error .fileNotFound

/-- What the steps compute from the contents of the files they read. -/
structure Programs (V : Type) where
  /-- `update_salinity_mapping`, from the source and the earlier results. -/
  mapping : V → Option V → Except PyErr V
  /-- `set_calseries`, from the source and the earlier file. -/
  calseries : V → Option V → Except PyErr V
  /-- `calc_piecewisefit`, from the source, the mapped data and the calseries file. -/
  fit : V → V → V → Except PyErr V
  /-- `plot_diagnostics`, from the mapped data, the source, the calibration and the calseries file. -/
  plots : V → V → V → V → Except PyErr V

/-- The four steps of an analysis. -/
inductive Op
  | mapping
  | calseries
  | fit
  | plots
deriving DecidableEq

/-- The result of a step (what it saves, for `plots` what it draws) and the files after it. Figures are saved elsewhere. -/
def step (c : Config) (P : Programs V) (op : Op) (f : FloatId) (s : Store V) : Except PyErr V × Store V :=
  match op with
  | .mapping =>
    -- pyowc/calibration.py:57-62, 107-114 (`is_file` does not append `.mat`), 365-370
    match (do
        let src ← load s (sourcePath c f)
        P.mapping src (s (file (mappedLoadPath c f)))) with
    | .ok v => (.ok v, save s (mappedSavePath c f) v)
    | .error e => (.error e, s)
  | .calseries =>
    -- pyowc/configuration.py:150-151, 158-183 (`FileNotFoundError` is caught)
    match (do
        let src ← load s (sourcePath c f)
        P.calseries src (load s (calseriesPath c f)).toOption) with
    | .ok v => (.ok v, save s (calseriesPath c f) v)
    | .error e => (.error e, s)
  | .fit =>
    -- pyowc/calibration.py:400-416, 451-454, 538-557, 725-743
    match (do
        let src ← load s (sourcePath c f)
        let m ← load s (mappedLoadPath c f)
        let k ← load s (calseriesFitPath c f)
        P.fit src m k) with
    | .ok v => (.ok v, save s (calPath c f) v)
    | .error e => (.error e, s)
  | .plots =>
    -- pyowc/plot/dashboard.py:30-42
    ((do
        let m ← load s (mappedSavePath c f)
        let src ← load s (sourcePath c f)
        let cal ← load s (calPlotPath c f)
        let k ← load s (calseriesPlotPath c f)
        P.plots m src cal k), s)

/-- A history of steps for any floats: the results, and the files at the end. -/
def run (c : Config) (P : Programs V) : List (Op × FloatId) → Store V → List (Except PyErr V) × Store V
  | [], s => ([], s)
  | (op, f) :: h, s =>
    let r := step c P op f s
    let rest := run c P h r.2
    (r.1 :: rest.1, rest.2)

/-! ## Figures -/

/-- The figures of `plot_diagnostics`. -/
inductive Figure
  | trajectory
  | thetaSal (title : Bool)
  | profile
  | variance (i : List Char)
  | curve
  | anomaly (title : Bool) (bounds : List Char)
deriving DecidableEq

/-- The argument `title`: "calibrated" or "uncalibrated". -/
def titleOf (cal : Bool) : List Char := if cal then ['c', 'a', 'l', 'i', 'b', 'r', 'a', 't', 'e', 'd'] else ['u', 'n', 'c', 'a', 'l', 'i', 'b', 'r', 'a', 't', 'e', 'd']

/-- What is appended to `plot_loc` before the format (pyowc/plot/plots.py:141, 202, 273, 554, 658, 750). `str(i + 1)` and `str(bounds)` are given as
strings. In full: `_trajectory.`, `_<title>_theta_sal.`, `_salinity_profile.`, `_salinity_variance_<i>.`, `_salinity_curve.`,
`_<title>_salinity_anomaly_<bounds>.`. -/
def figureSuffix : Figure → List Char
  | .trajectory => ['_', 't', 'r', 'a', 'j', 'e', 'c', 't', 'o', 'r', 'y', '.']
  | .thetaSal t => ['_'] ++ titleOf t ++ ['_', 't', 'h', 'e', 't', 'a', '_', 's', 'a', 'l', '.']
  | .profile => ['_', 's', 'a', 'l', 'i', 'n', 'i', 't', 'y', '_', 'p', 'r', 'o', 'f', 'i', 'l', 'e', '.']
  | .variance i => ['_', 's', 'a', 'l', 'i', 'n', 'i', 't', 'y', '_', 'v', 'a', 'r', 'i', 'a', 'n', 'c', 'e', '_'] ++ i ++ ['.']
  | .curve => ['_', 's', 'a', 'l', 'i', 'n', 'i', 't', 'y', '_', 'c', 'u', 'r', 'v', 'e', '.']
  | .anomaly t b => ['_'] ++ titleOf t ++ ['_', 's', 'a', 'l', 'i', 'n', 'i', 't', 'y', '_', 'a', 'n', 'o', 'm', 'a', 'l', 'y', '_'] ++ b ++ ['.']

/-- The path of a figure (e.g. pyowc/plot/plots.py:140-141). -/
def figurePath (plotsDir format name : List Char) (g : Figure) : List Char := sepJoin [plotsDir, name] ++ figureSuffix g ++ format

end Verif.Workflow
