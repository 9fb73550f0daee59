import Verif.Model.Region

/-!
# Model of `frontal_constraint_saf` (pyowc/data/fetchers.py:477-667)

`np.interp` with `left=nan, right=nan` is the parameter `interp`: nothing is assumed about it when the first array is not ascending. The
temperature from `gsw` (lines 622-624) is the parameter `temperature`, a function of the salinities, pressures, potential temperatures, longitude
and latitude of one cast (`gsw` works element by element).
-/

namespace Verif.Saf

open Verif.Np Verif.Helper Verif.Region

variable {K : Type} [Field K] [LinearOrder K] [IsStrictOrderedRing K]

/-- `np.interp(x, xp, fp, left=np.nan, right=np.nan)` for a number `x`. -/
abbrev Interp (K : Type) := K → List K → List (Option K) → Option K

/-- The typical profiles around the front, without the first two depths (pyowc/data/fetchers.py:522-543). -/
structure SafProfiles (K : Type) where
  deph : List K
  sMeanS : List K
  sMeanN : List K
  sStdS : List K
  sStdN : List K
  tMeanS : List K
  tMeanN : List K
  tStdS : List K
  tStdN : List K

/-- The float profile: latitude, and per level pressure, temperature and salinity. -/
structure SafFloat (K : Type) where
  lat : K
  levels : List (Option K × Option K × Option K)

/-- The historical data: the result of `get_region_data` and the depths. -/
structure SafGrid (K : Type) where
  data : RegionData K
  z : List K

/-- `np.argwhere(np.diff(a) == 0)`: the positions followed by an equal number. -/
def ties (l : List K) : List ℕ := argwhere (fun p : K × K => decide (p.2 - p.1 = 0)) (l.zip l.tail)

/-- `np.min(a) < 300 < np.max(a)` -/
def around300 (l : List K) : Bool := l.any (fun p => decide (p < 300)) && l.any (fun p => decide (300 < p))

/-- The class given by the temperature at 300 dbar (pyowc/data/fetchers.py:556-564, 636-641); NaN compares false. -/
def classOf (t300 : Option K) : ℤ :=
  match t300 with
  | some t => if t > 5 then 1 else if t < 3 then -1 else 0
  | none => 0

/-- The in-situ temperatures of a cast, from its salinities, pressures, potential temperatures, longitude and latitude. -/
abbrev Temperature (K : Type) := List (Option K) → List (Option K) → List (Option K) → Option K → Option K → List (Option K)

/-- The float's levels with pressure and temperature (pyowc/data/fetchers.py:548): pressure, temperature, salinity. -/
def okLevels (f : SafFloat K) : List (K × K × Option K) :=
  f.levels.filterMap fun l => match l with
    | (some p, some t, s) => some (p, t, s)
    | _ => none

/-- `np.interp` of a number or NaN. -/
def interpAt (interp : Interp K) (x : Option K) (xp : List K) (fp : List (Option K)) : Option K := x.bind fun v => interp v xp fp

/-- The five numbers of the envelope test at one depth: depth, salinity, temperature, the limits of the salinity from the northern profile
and the limits of the temperature from the southern profile (pyowc/data/fetchers.py:569-582). -/
structure EnvelopePoint (K : Type) where
  sal : Option K
  temp : Option K
  northInf : Option K
  northSup : Option K
  southInf : Option K
  southSup : Option K
  deriving DecidableEq

def envelopePoint (interp : Interp K) (s : SafProfiles K) (lv : List (K × K × Option K)) (depth : K) : EnvelopePoint K :=
  let pres := lv.map (·.1)
  let salInt := interp depth pres (lv.map (·.2.2))                                        -- lines 569-570
  let tempInt := interp depth pres (lv.map fun l => some l.2.1)                           -- lines 571-572
  { sal := salInt
    temp := tempInt
    northInf := interpAt interp tempInt (List.zipWith (· - ·) s.tMeanN s.tStdN).reverse
      ((List.zipWith (· - ·) s.sMeanN s.sStdN).reverse.map some)
    northSup := interpAt interp tempInt (List.zipWith (· + ·) s.tMeanN s.tStdN).reverse
      ((List.zipWith (· + ·) s.sMeanN s.sStdN).reverse.map some)
    southInf := interpAt interp salInt (List.zipWith (· - ·) s.sMeanS s.sStdS) ((List.zipWith (· - ·) s.tMeanS s.tStdS).map some)
    southSup := interpAt interp salInt (List.zipWith (· + ·) s.sMeanS s.sStdS) ((List.zipWith (· + ·) s.tMeanS s.tStdS).map some) }

/-- A point takes part in the test (pyowc/data/fetchers.py:585-589, `isok2`). -/
def EnvelopePoint.ok (e : EnvelopePoint K) (depth : K) : Bool :=
  decide (depth > 150) && decide (depth < 1700) && e.sal.isSome && e.southInf.isSome && e.southSup.isSome && e.northInf.isSome &&
    e.northSup.isSome

/-- `a < x < b` for numbers that may be NaN. -/
def strictlyIn (x a b : Option K) : Bool :=
  match x, a, b with
  | some x, some a, some b => decide (x > a) && decide (x < b)
  | _, _, _ => false

/-- The envelope test (pyowc/data/fetchers.py:567-615). -/
def envelopeClass (interp : Interp K) (s : SafProfiles K) (lv : List (K × K × Option K)) : ℤ :=
  let pts := (s.deph.map fun d => (d, envelopePoint interp s lv d)).filter fun p => p.2.ok p.1
  if pts.length > 0 then
    let isSouth := pts.all fun p => strictlyIn p.2.temp p.2.southInf p.2.southSup
    let isNorth := pts.all fun p => strictlyIn p.2.sal p.2.northInf p.2.northSup
    if isSouth && isNorth then 0 else if isSouth then -1 else if isNorth then 1 else 0
  else 0

/-- The class of the float (pyowc/data/fetchers.py:548-617). `float_pres[isok].T` has two dimensions, so that one tie already makes an
array with two elements, which has no truth value. -/
def floatClass (interp : Interp K) (s : SafProfiles K) (f : SafFloat K) : Except PyErr ℤ :=
  let lv := okLevels f
  let pres := lv.map (·.1)
  if (ties pres).length > 0 then .error .valueError
  else if lv.length > 2 ∧ around300 pres = true then
    let c := classOf (interp 300 pres (lv.map fun l => some l.2.1))
    .ok (if c = 0 then envelopeClass interp s lv else c)
  else .ok 0

/-- The levels of a cast that are used (pyowc/data/fetchers.py:628-630): all three numbers known, and the next pressure different or
missing. The last row is never used. -/
def castOk (pres sal ptmp : List (Option K)) : List ℕ :=
  (List.range (pres.length - 1)).filter fun i =>
    ((pres[i]?).join).isSome && ((sal[i]?).join).isSome && ((ptmp[i]?).join).isSome &&
      (match (pres[i]?).join, (pres[i + 1]?).join with
       | some a, some b => decide (b - a ≠ 0)
       | _, _ => true)

/-- The class of a cast (pyowc/data/fetchers.py:628-641). The array of ties has the truth value of its only element, the position
of the tie; with two ties it has none. -/
def castClass (interp : Interp K) (pres sal ptmp tmp : List (Option K)) : Except PyErr ℤ :=
  let isok := castOk pres sal ptmp
  let p := gatherKnown pres isok
  let t := isok.map fun (i : ℕ) => (tmp[i]?).join
  match ties p with
  | _ :: _ :: _ => .error .valueError
  | l =>
    if (l = [] ∨ l = [0]) ∧ isok.length > 2 ∧ around300 p = true then .ok (classOf (interp 300 p t))
    else .ok 0

/-- Indexing all arrays with `is_select` (pyowc/data/fetchers.py:649-655). -/
def selectCasts (g : SafGrid K) (idx : List ℕ) : Except PyErr (SafGrid K) := do
  let sal ← gather g.data.sal idx
  let ptmp ← gather g.data.ptmp idx
  let pres ← gather g.data.pres idx
  let lat ← gather g.data.lat idx
  let long ← gather g.data.long idx
  let dates ← gather g.data.dates idx
  let z ← gather g.z idx
  pure ⟨⟨sal, ptmp, pres, lat, long, dates⟩, z⟩

/-- The classes of the casts (pyowc/data/fetchers.py:620-641). -/
def gridClasses (interp : Interp K) (temperature : Temperature K) (g : SafGrid K) (crit : ℤ) :
    Except PyErr (List ℤ) :=
  if crit ≠ 0 then
    (List.range g.data.long.length).mapM fun (i : ℕ) => do
      let pres ← item g.data.pres i
      let sal ← item g.data.sal i
      let ptmp ← item g.data.ptmp i
      let long ← item g.data.long i
      let lat ← item g.data.lat i
      castClass interp pres sal ptmp (temperature sal pres ptmp long lat)
  else .ok (List.replicate g.data.long.length 0)

/-- `frontal_constraint_saf` (pyowc/data/fetchers.py:477-667). -/
def frontalConstraint (interp : Interp K) (temperature : Temperature K) (s : SafProfiles K) (g : SafGrid K)
    (f : SafFloat K) : Except PyErr (SafGrid K) :=
  if f.lat < -30 then do
    let crit ← floatClass interp s f
    let classes ← gridClasses interp temperature g crit
    selectCasts g (argwhere (fun c => decide (c = crit)) classes)
  else .ok g

/-- The use of the constraint in `update_salinity_mapping` (pyowc/calibration.py:221-226): only if more than five casts remain. A matrix
without rows has no row 0. -/
def applySaf (interp : Interp K) (temperature : Temperature K) (s : SafProfiles K) (useSaf : Bool) (g : SafGrid K)
    (f : SafFloat K) : Except PyErr (SafGrid K) :=
  if useSaf then do
    let g2 ← frontalConstraint interp temperature s g f
    if (g2.data.sal.headD []).length = 0 ∧ g2.data.sal.length > 0 then .error .indexError
    else if g2.data.sal.length > 5 then pure g2 else pure g
  else .ok g

end Verif.Saf
