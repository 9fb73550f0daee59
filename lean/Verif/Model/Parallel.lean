import Verif.Model.Crash

/-!
# Model of processes that run at the same time

Several floats are often analysed at the same time, each by a process of its own. The steps of `Verif.Model.Workflow` are written again here as programs of single
accesses to files, so that the accesses of different processes can come in any order. A process that stops (it is killed, or an exception ends it) is one that no
longer moves. Simplifications: reading a file takes one moment, and a file is damaged from the moment `savemat` opens it until it has written everything (see
`Verif.Model.Crash`); computing takes no moves of its own, since it touches no files. Figures, the reference data and the caches are not part of this model.
-/

namespace Verif.Parallel

open Verif.Np Verif.Workflow Verif.Crash

variable {V R R' : Type}

/-- A program: it ends with a result, looks at a file and goes on depending on its content (`none`: there is no such file), or puts a content into a file. -/
inductive Prog (V R : Type)
  | ret (r : R)
  | look (x : File) (k : Option (Content V) → Prog V R)
  | put (x : File) (y : Content V) (k : Prog V R)

/-- First one program, then another one that knows the result. -/
def Prog.andThen : Prog V R → (R → Prog V R') → Prog V R'
  | .ret r, g => g r
  | .look x k, g => .look x fun o => (k o).andThen g
  | .put x y k, g => .put x y (k.andThen g)

/-- The same for results that may be exceptions: an exception ends the program. -/
def Prog.tryThen (p : Prog V (Except PyErr R)) (g : R → Prog V (Except PyErr R')) : Prog V (Except PyErr R') :=
  p.andThen fun r => match r with
    | .ok v => g v
    | .error e => .ret (.error e)

/-- What reading a content gives; `D` is the exception for a damaged file. -/
def opened (D : PyErr) : Content V → Except PyErr V
  | .whole v => .ok v
  | .damaged => .error D

/-- `loadmat(path)`: if there is no such file, `.mat` is appended to the name (if it is not there already) and tried again (see `Workflow.load`). -/
def fetchProg (D : PyErr) (p : List Char) : Prog V (Except PyErr V) :=
  .look (file p) fun o => match o with
    | some x => .ret (opened D x)
    | none =>
      if ['.', 'm', 'a', 't'].isSuffixOf p then .ret (.error .fileNotFound)
      else .look (file (p ++ ['.', 'm', 'a', 't'])) fun o => match o with
        | some x => .ret (opened D x)
        | none => .ret (.error .fileNotFound)

/-- What a step does before it saves. -/
def computeProg (c : Config) (P : Programs V) (D : PyErr) (op : Op) (f : FloatId) : Prog V (Except PyErr V) :=
  match op with
  | .mapping =>
    -- pyowc/calibration.py:57-62, 107-114, pyowc/helper.py:28-31 (`is_file` and `loadmat` look at the file one after the other)
    (fetchProg D (sourcePath c f)).tryThen fun src =>
    .look (file (mappedLoadPath c f)) fun o => match o with
      | none => .ret (P.mapping src none)
      | some _ => (fetchProg D (mappedLoadPath c f)).tryThen fun m => .ret (P.mapping src (some m))
  | .calseries =>
    -- pyowc/configuration.py:150-151, 158-202 (only `FileNotFoundError` leads to a new file)
    (fetchProg D (sourcePath c f)).tryThen fun src =>
    (fetchProg D (calseriesPath c f)).andThen fun r => match r with
      | .ok k => .ret (P.calseries src (some k))
      | .error .fileNotFound => .ret (P.calseries src none)
      | .error e => .ret (.error e)
  | .fit =>
    -- pyowc/calibration.py:400-416, 451-454
    (fetchProg D (sourcePath c f)).tryThen fun src =>
    (fetchProg D (mappedLoadPath c f)).tryThen fun m =>
    (fetchProg D (calseriesFitPath c f)).tryThen fun k => .ret (P.fit src m k)
  | .plots =>
    -- pyowc/plot/dashboard.py:30-42
    (fetchProg D (mappedSavePath c f)).tryThen fun m =>
    (fetchProg D (sourcePath c f)).tryThen fun src =>
    (fetchProg D (calPlotPath c f)).tryThen fun cal =>
    (fetchProg D (calseriesPlotPath c f)).tryThen fun k => .ret (P.plots m src cal k)

/-- `savemat`: the file is opened, which empties it, and then written. -/
def saveProg (p : List Char) (v : V) : Prog V (Except PyErr V) := .put (file p) .damaged (.put (file p) (.whole v) (.ret (.ok v)))

/-- A step (pyowc/calibration.py:365-370, 538-557, 725-743; pyowc/configuration.py:260-268; pyowc/plot/dashboard.py:30-42). -/
def stepProg (c : Config) (P : Programs V) (D : PyErr) (op : Op) (f : FloatId) : Prog V (Except PyErr V) :=
  (computeProg c P D op f).tryThen fun v =>
    match output c op f with
    | some p => saveProg p v
    | none => .ret (.ok v)

/-- The steps of a process, one after the other, with all their results. -/
def workProg (c : Config) (P : Programs V) (D : PyErr) : List (Op × FloatId) → Prog V (List (Except PyErr V))
  | [] => .ret []
  | (op, f) :: l => (stepProg c P D op f).andThen fun r => (workProg c P D l).andThen fun rs => .ret (r :: rs)

/-- One access of a program to the files. A program at its end stays there. -/
def move : Prog V R × Store (Content V) → Prog V R × Store (Content V)
  | (.ret r, s) => (.ret r, s)
  | (.look x k, s) => (k (s x), s)
  | (.put x y k, s) => (k, fun z => if z = x then some y else s z)

/-- A program that runs alone for some moves. -/
def moves : ℕ → Prog V R × Store (Content V) → Prog V R × Store (Content V)
  | 0, t => t
  | n + 1, t => moves n (move t)

/-- Processes with the same files: the schedule says which of them moves next. -/
def parallel : List ℕ → (ℕ → Prog V R) → Store (Content V) → (ℕ → Prog V R) × Store (Content V)
  | [], ps, s => (ps, s)
  | i :: l, ps, s => parallel l (Function.update ps i (move (ps i, s)).1) (move (ps i, s)).2

end Verif.Parallel
