import Verif.Model.Helper

/-!
# Model of the outer loop of `update_salinity_mapping` (pyowc/calibration.py:31-370) with its loading and saving helpers
(pyowc/helper.py:15-118, 146-179, 285-331)

What is computed for one profile (pyowc/calibration.py:157-331, without the storing) is the parameter `P`; it is modelled in
`Verif.Model.Profile`.
-/

namespace Verif.Update

open Verif.Np Verif.Helper

variable {K : Type} [Field K] [LinearOrder K] [IsStrictOrderedRing K]

/-- The matrices `la_ptmp`, `la_mapped_sal`, `la_map_sal_errors`, `la_noise_sal`, `la_signal_sal`. -/
inductive Mat where
  | ptmp | mappedSal | mapErrors | noise | signal
  deriving DecidableEq

/-- All of them. -/
def Mat.all : List Mat := [.ptmp, .mappedSal, .mapErrors, .noise, .signal]

/-- The arrays `scale_long_large`, ..., `p_exclude` that record the configuration. -/
inductive Setting where
  | longLarge | latLarge | longSmall | latSmall | phiLarge | phiSmall | ageLarge | ageSmall | usePv | useSaf | pDelta | pExclude
  deriving DecidableEq

/-- All of them. -/
def Setting.all : List Setting :=
  [.longLarge, .latLarge, .longSmall, .latSmall, .phiLarge, .phiSmall, .ageLarge, .ageSmall, .usePv, .useSaf, .pDelta, .pExclude]

/-- The dictionary `data`. Matrices are lists of columns, one per profile, with `rows` entries. `lists` says whether the
settings are Python lists (new) or arrays (loaded from a file). Profile numbers are never NaN. -/
structure Mapped (K : Type) where
  profileNo : List K
  rows : ℕ
  mats : Mat → List (List (Option K))
  settings : Setting → List (Option K)
  selected : List (Selected K)
  profileIndex : ℕ
  lists : Bool

/-- The content of a mapped file. -/
structure MapFile (K : Type) where
  profileNo : List K
  rows : ℕ
  mats : Mat → List (List (Option K))
  settings : Setting → List (Option K)
  selected : List (Selected K)
  profileIndex : ℕ

/-- A file on disk: complete, or cut off because `savemat` was interrupted. -/
inductive FileState (K : Type) where
  | whole (f : MapFile K)
  | torn

/-- The mapped directory. -/
abbrev Fs (K : Type) := String → Option (FileState K)

/-- What one level stores (pyowc/calibration.py:305-330): the values of the five matrices and the casts used. -/
structure LevelOut (K : Type) where
  values : Mat → Option K
  points : HistData K

/-- The computation for the profile in column `i` of the source: `none` if its position or pressures are missing, otherwise the
computation for each level, which may skip it. -/
abbrev Profile (K : Type) := ℕ → Except PyErr (Option (ℕ → Except PyErr (Option (LevelOut K))))

/-- New rows of NaN at the end of a column (pyowc/helper.py:66-87). -/
def extendColumn (n : ℕ) (c : List (Option K)) : List (Option K) := c ++ List.replicate n none

/-- `load_varibales_from_file` (pyowc/helper.py:15-118). A cut off file cannot be read. -/
def loadVariables (file : Option (FileState K)) (levels : ℕ) : Except PyErr (Mapped K) :=
  match file with
  | none => .ok ⟨[], levels, fun _ => [], fun _ => [], [], 0, true⟩                       -- lines 94-113
  | some .torn => .error .valueError
  | some (.whole f) =>
    let more := if levels > f.rows ∧ f.rows ≠ 0 then levels - f.rows else 0               -- line 65
    .ok ⟨f.profileNo, f.rows + more, fun m => (f.mats m).map (extendColumn more), f.settings, f.selected,
      (f.mats .mappedSal).length, false⟩

/-- The profiles of the source that are not in the mapped data (pyowc/calibration.py:119-125). -/
def missingProfiles (have' no : List K) : List ℕ :=
  (List.range no.length).filter fun i => match no[i]? with
    | some v => decide ((argwhere (fun x => decide (x = v)) have').length = 0)
    | none => false

/-- `np.insert(a, i, v)`: `IndexError` beyond the end. -/
def npInsert (l : List K) (i : ℕ) (v : K) : Except PyErr (List K) :=
  if i ≤ l.length then .ok (l.take i ++ v :: l.drop i) else .error .indexError

/-- `process_profiles_la_variables` (pyowc/helper.py:146-179): `ValueError` if the number of levels differs. -/
def laVariables (levels profileIndex : ℕ) (d : Mapped K) : Except PyErr (Mapped K) :=
  if d.rows = levels then
    if profileIndex < (d.mats .ptmp).length then
      .ok { d with mats := fun m => (d.mats m).set profileIndex (List.replicate levels none) }
    else .ok { d with mats := fun m => d.mats m ++ [List.replicate levels none] }
  else .error .valueError

/-- `m[level, profileIndex] = v`: `IndexError` outside of the matrix. -/
def setEntry (cols : List (List (Option K))) (level profileIndex : ℕ) (v : Option K) : Except PyErr (List (List (Option K))) :=
  match cols[profileIndex]? with
  | some c => if level < c.length then .ok (cols.set profileIndex (c.set level v)) else .error .indexError
  | none => .error .indexError

/-- Storing what a level has given (pyowc/calibration.py:305-331). -/
def storeLevel (cfg : Setting → K) (profileIndex level : ℕ) (d : Mapped K) (o : LevelOut K) : Except PyErr (Mapped K) := do
  let ptmp ← setEntry (d.mats .ptmp) level profileIndex (o.values .ptmp)
  let mappedSal ← setEntry (d.mats .mappedSal) level profileIndex (o.values .mappedSal)
  let mapErrors ← setEntry (d.mats .mapErrors) level profileIndex (o.values .mapErrors)
  let noise ← setEntry (d.mats .noise) level profileIndex (o.values .noise)
  let signal ← setEntry (d.mats .signal) level profileIndex (o.values .signal)
  let no ← item d.profileNo profileIndex
  let selected ← selectedHistoricalPoints no d.selected o.points
  pure { d with
    mats := fun m => match m with
      | .ptmp => ptmp
      | .mappedSal => mappedSal
      | .mapErrors => mapErrors
      | .noise => noise
      | .signal => signal
    settings := fun s => (d.settings s).set profileIndex (some (cfg s))
    selected := selected }

/-- The level loop (pyowc/calibration.py:243-331). -/
def levelLoop (cfg : Setting → K) (profileIndex : ℕ) (f : ℕ → Except PyErr (Option (LevelOut K))) :
    List ℕ → Mapped K → Except PyErr (Mapped K)
  | [], d => .ok d
  | n :: ns, d => do
    match ← f n with
    | none => levelLoop cfg profileIndex f ns d
    | some o => do
      let d ← storeLevel cfg profileIndex n d o
      levelLoop cfg profileIndex f ns d

/-- One pass of the profile loop (pyowc/calibration.py:129-334). Settings that come from a file are arrays, which have no
`append`. -/
def processProfile (cfg : Setting → K) (P : Profile K) (no : List K) (levels : ℕ) (d : Mapped K) (profileIndex i : ℕ) :
    Except PyErr (Mapped K) := do
  let v ← item no i
  let nos ← npInsert d.profileNo profileIndex v                                           -- line 137
  if d.lists then do
    let d : Mapped K := { d with profileNo := nos, settings := fun s => d.settings s ++ [none] }   -- lines 141-152
    let d ← laVariables levels profileIndex d                                             -- line 155
    match ← P i with
    | none => pure d
    | some f => levelLoop cfg profileIndex f (List.range levels) d
  else .error .attributeError

/-- The profile loop (pyowc/calibration.py:129-334), with the data after every profile that was completed. -/
def profileLoop (cfg : Setting → K) (P : Profile K) (no : List K) (levels : ℕ) :
    List ℕ → ℕ → Mapped K → ℕ × Except PyErr (Mapped K)
  | [], _, d => (0, .ok d)
  | i :: is, profileIndex, d =>
    match processProfile cfg P no levels d profileIndex i with
    | .error e => (0, .error e)
    | .ok d =>
      let r := profileLoop cfg P no levels is (profileIndex + 1) d
      (r.1 + 1, r.2)

/-- The quality control of one mapped salinity (pyowc/calibration.py:336-342). -/
def checkSal (v : Option K) : Option K :=
  match v with
  | some x => if x < 30 ∨ 40 < x then none else some x
  | none => none

/-- `value[index]` for the arrays named in `keys`, the others stay: `IndexError` if one is too short. -/
def gatherAll {ι α : Type} [DecidableEq ι] (keys : List ι) (f : ι → List α) (idx : List ℕ) : Except PyErr (ι → List α) :=
  if keys.all fun k => idx.all fun i => decide (i < (f k).length) then
    .ok fun k => if k ∈ keys then idx.filterMap fun (i : ℕ) => (f k)[i]? else f k
  else .error .indexError

/-- The sorting before saving (pyowc/calibration.py:344-362 with pyowc/helper.py:304-331): the matrices are sorted, then everything with more than
one element, including the matrices, is sorted by the same index; `selected_hist` is sorted by profile number. Without a
selected point the name `selected_hist_1` is not bound. -/
def sortAndCollect (argsort : List (Option K) → List ℕ) (d : Mapped K) : Except PyErr (MapFile K) := do
  let mats0 : Mat → List (List (Option K)) := fun m =>
    if m = .mappedSal then (d.mats m).map (fun c => c.map checkSal) else d.mats m         -- lines 336-342
  let idx := argsort (d.profileNo.map some)                                               -- line 345
  let mats1 ← gatherAll Mat.all mats0 idx                                                 -- lines 348-350
  let mats2 ← (if d.rows * d.profileNo.length > 1 then gatherAll Mat.all mats1 idx else .ok mats1)   -- line 360
  let nos ← (if d.profileNo.length > 1 then gather d.profileNo idx else .ok d.profileNo)
  let settings ← (if d.profileNo.length > 1 then gatherAll Setting.all d.settings idx else .ok d.settings)
  if d.selected.length > 0 then                                                           -- lines 355-362
    pure ⟨nos, d.rows, mats2, settings, d.selected.mergeSort (fun a b => decide (a.profileNo ≤ b.profileNo)), d.profileIndex⟩
  else .error .nameError

/-- The inputs of a run. -/
structure RunArgs (K : Type) where
  loadPath : String
  savePath : String
  cfg : Setting → K
  argsort : List (Option K) → List ℕ
  P : Profile K
  no : List K
  levels : ℕ

/-- The run: the exception it ends with, if any, and the states of the mapped directory at all points where it may be
interrupted, the last one being the state at the end. The steps are loading, every profile, opening the file for saving, and
completing it. -/
def updateMapping (A : RunArgs K) (fs : Fs K) : Option PyErr × List (Fs K) :=
  match loadVariables (fs A.loadPath) A.levels with
  | .error e => (some e, [fs])
  | .ok d =>
    match profileLoop A.cfg A.P A.no A.levels (missingProfiles d.profileNo A.no) d.profileIndex d with
    | (k, .error e) => (some e, fs :: List.replicate k fs)
    | (k, .ok d) =>
      match sortAndCollect A.argsort d with
      | .error e => (some e, fs :: List.replicate k fs)
      | .ok f =>
        (none, fs :: List.replicate k fs ++
          [Function.update fs A.savePath (some .torn), Function.update fs A.savePath (some (.whole f))])

/-- The mapped directory after the run. -/
def finalFs (A : RunArgs K) (fs : Fs K) : Fs K := ((updateMapping A fs).2.getLast?).getD fs

end Verif.Update
