import Verif.Model.Region

/-!
# Model of the `lru_cache` in front of the reference files (pyowc/data/fetchers.py:22-60)

The decorated functions keep what they return. A later call with the same arguments gets the same dictionary, which
`get_region_data` may edit in place (lines 335-341). Which entries are thrown out when the cache is full is left open: the stream
`ev` says which entries are dropped before each access.
-/

namespace Verif.Region

open Verif.Np

variable {K : Type} [Field K] [LinearOrder K] [IsStrictOrderedRing K]

/-- The arguments of a cached call: data type, box number, and for Argo data the float name. -/
abbrev Key := ℕ × ℤ × List Char

/-- The cached dictionaries and the number of accesses so far. -/
structure CacheState (K : Type) where
  get : Key → Option (Loaded K)
  count : ℕ

/-- `read_mat_argo` has the float name as an argument, the other two do not. -/
def keyOf (name : List Char) (t : ℕ) (n : ℤ) : Key := (t, n, if t = 3 then name else [])

/-- Drop the entries that are thrown out before this access. -/
def evict (ev : ℕ → Key → Bool) (s : CacheState K) : CacheState K :=
  ⟨fun k => if ev s.count k then none else s.get k, s.count + 1⟩

/-- Keep `d` under `key`. -/
def CacheState.put (s : CacheState K) (key : Key) (d : Loaded K) : CacheState K :=
  ⟨fun k => if k = key then some d else s.get k, s.count⟩

/-- `get_data` (pyowc/data/fetchers.py:162-208) with the cache. Exceptions are not cached. -/
def getDataCached (disk : Disk K) (ev : ℕ → Key → Bool) (name : List Char) (b : WmoBox) (t : ℕ) (s : CacheState K) :
    Except PyErr (Option (Loaded K)) × CacheState K :=
  match b.number with
  | none => (.error .valueError, s)
  | some n =>
    if b.flag t = 1 then
      let s := evict ev s
      match s.get (keyOf name t n) with
      | some d => (.ok (some d), s)
      | none =>
        match getData disk name b t with
        | .ok (some d) => (.ok (some d), s.put (keyOf name t n) d)
        | r => (r, s)
    else (.ok none, s)

/-- `data['pres'].__len__()` (pyowc/data/fetchers.py:335): no rows give an empty array, one row is squeezed away, and with
one row and one cast there is only a number, which has no length. -/
def presLen (d : Loaded K) : Option ℕ :=
  if d.levels = 0 then some 0
  else if d.levels = 1 then (if d.scalar then none else some d.casts.length)
  else some d.levels

/-- The loading step of `get_region_data` (pyowc/data/fetchers.py:331-341): if the profiles have length one the dictionary is
edited in place, so that the cache sees the edit. What the edit does is the parameter `unwrap`. -/
def loadStep (disk : Disk K) (ev : ℕ → Key → Bool) (unwrap : Loaded K → Loaded K) (name : List Char) (b : WmoBox) (t : ℕ)
    (s : CacheState K) : Except PyErr (Option (Loaded K)) × CacheState K :=
  match getDataCached disk ev name b t s with
  | (.ok (some d), s) =>
    match presLen d with
    | none => (.error .attributeError, s)
    | some l =>
      if l = 1 then
        match b.number with
        | some n => (.ok (some (unwrap d)), s.put (keyOf name t n) (unwrap d))
        | none => (.ok (some (unwrap d)), s)
      else (.ok (some d), s)
  | r => r

/-- A loop of accesses. -/
def accessAll (step : WmoBox → ℕ → CacheState K → Except PyErr (Option (Loaded K)) × CacheState K) :
    List (WmoBox × ℕ) → CacheState K → List (Except PyErr (Option (Loaded K))) × CacheState K
  | [], s => ([], s)
  | v :: vs, s =>
    let (r, s) := step v.1 v.2 s
    let (rs, s) := accessAll step vs s
    (r :: rs, s)

/-- A call of one of the two functions. -/
inductive Call (K : Type) where
  | hist (name : List Char) (boxes : List WmoBox)
  | region (name : List Char) (boxes : List WmoBox) (index : List ℕ) (floatPres : List (Option K)) (delta : K)

/-- What a call returns or raises. -/
inductive Result (K : Type) where
  | hist (r : Except PyErr (List (Option K) × List (Option K) × List K))
  | region (r : Except PyErr (RegionData K))

/-- One call with the cache (pyowc/data/fetchers.py:212-267 or 276-458). Loading all files first and then working on
them gives the same as the code, which interleaves the two: the work does not touch the cached arrays, since fancy
indexing, `np.delete`, `np.append` and `np.concatenate` copy. -/
def runCall (disk : Disk K) (ev : ℕ → Key → Bool) (unwrap : Loaded K → Loaded K) (c : Call K) (s : CacheState K) :
    Result K × CacheState K :=
  match c with
  | .hist name boxes =>
    let (loads, s) := accessAll (getDataCached disk ev name) (visits boxes) s
    (.hist (histFrom loads), s)
  | .region name boxes index floatPres delta =>
    let (loads, s) := accessAll (loadStep disk ev unwrap name) (visits boxes) s
    (.region (regionFrom index floatPres delta loads), s)

/-- A sequence of calls. -/
def runCalls (disk : Disk K) (ev : ℕ → Key → Bool) (unwrap : Loaded K → Loaded K) :
    List (Call K) → CacheState K → List (Result K)
  | [], _ => []
  | c :: cs, s =>
    let (r, s) := runCall disk ev unwrap c s
    r :: runCalls disk ev unwrap cs s

/-- The cache at the start of the process. -/
def emptyCache : CacheState K := ⟨fun _ => none, 0⟩

/-- A call that reads the files itself. -/
def freshCall (disk : Disk K) (c : Call K) : Result K :=
  match c with
  | .hist name boxes => .hist (histLocations disk name boxes)
  | .region name boxes index floatPres delta => .region (regionData disk name boxes index floatPres delta)

end Verif.Region
