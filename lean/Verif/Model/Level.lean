import Verif.Model.Helper
import Verif.Model.Mapping

/-!
# Model of one level of the mapping loop (`update_salinity_mapping`, pyowc/calibration.py:243-330)
-/

namespace Verif.Level

open Verif.Np Verif.Stats Verif.Mapping Verif.Helper

/-- The configuration values the level uses (pyowc/calibration.py:69-80). -/
structure MapConfig where
  longLarge : ℝ
  longSmall : ℝ
  latLarge : ℝ
  latSmall : ℝ
  phiLarge : ℝ
  phiSmall : ℝ
  ageLarge : ℝ
  ageSmall : ℝ
  usePv : ℤ
  pDelta : ℝ
  pExclude : ℝ

/-- Position, date and depth of the float profile. -/
structure FloatPos where
  lat : ℝ
  long : ℝ
  date : ℝ
  z : ℝ

/-- What one level stores (pyowc/calibration.py:305-315); `none` is NaN. -/
structure LevelResult where
  mappedSal : Option ℝ
  mapError : Option ℝ
  noise : Option ℝ
  signal : ℝ

open Classical in
/-- `outlier1[:, 0]` (pyowc/calibration.py:262-266): with zero variance every quotient is `0/0`, NaN, and no cast is an outlier. -/
noncomputable def outliers (sal : List ℝ) (signal : ℝ) : List ℕ :=
  let mean := sal.sum / (sal.length : ℝ)
  argwhere (fun s => match npDiv |s - mean| (Real.sqrt signal) with
    | some q => decide (3 < q)
    | none => false) sal

/-- `np.column_stack((hist_lat, hist_long, hist_dates, hist_z))` (pyowc/calibration.py:285-286): `ValueError` for unequal lengths. -/
def columnStack : List ℝ → List ℝ → List ℝ → List ℝ → Except PyErr (List Pos)
  | [], [], [], [] => .ok []
  | a :: as, b :: bs, c :: cs, d :: ds => do
    let r ← columnStack as bs cs ds
    pure (⟨a, b, c, d⟩ :: r)
  | _, _, _, _ => .error .valueError

/-- The three flattened arrays of `noise_variance` (pyowc/calibration.py:272-275) as a list of casts. The code's arrays have equal lengths. -/
def observations (h : HistData ℝ) : List (Obs ℝ) :=
  (h.sal.zip (h.lat.zip h.long)).map fun p => ⟨some p.1, some p.2.1, some p.2.2⟩

/-- The scale arguments of the first mapping (pyowc/calibration.py:288-290). `map_data_grid` calls its parameters `lat, long`; the code passes
`long_large, lat_large` in these places. -/
def largeScales (c : MapConfig) : Scales := ⟨c.longLarge, c.latLarge, c.ageLarge, c.phiLarge, c.usePv⟩

/-- The scale arguments of the second mapping (pyowc/calibration.py:297-303). -/
def smallScales (c : MapConfig) : Scales := ⟨c.longSmall, c.latSmall, c.ageSmall, c.phiSmall, c.usePv⟩

/-- Sum of two numpy numbers (pyowc/calibration.py:306-307). -/
noncomputable def addOpt (a b : Option ℝ) : Option ℝ := do
  let x ← a
  let y ← b
  some (x + y)

/-- `np.sqrt(e1 * e1 + e2 * e2)` (pyowc/calibration.py:309-313). -/
noncomputable def combineErr (a b : Option ℝ) : Option ℝ := do
  let x ← a
  let y ← b
  npSqrt (x * x + y * y)

/-- The two mappings (pyowc/calibration.py:288-313) of `n` casts with salinities `sal` at `data`, for the float position `g`: first with the large scales,
then the residuals with the small scales. -/
noncomputable def mapStages (c : MapConfig) (g : Pos) {n : ℕ} (sal : Fin n → ℝ) (data : Fin n → Pos) (signal noise : ℝ) :
    Except PyErr LevelResult := do
  let m1 ← mapDataGrid sal g data (largeScales c) signal noise                            -- lines 288-290
  match (List.ofFn fun i => (m1.dataSal i).map fun v => sal i - v).mapM id with           -- line 294
  | none => .error .runtimeError                                                          -- line 295: all residuals are NaN
  | some res =>
    let signal2 ← signalVariance (res.map some)                                           -- line 295
    let m2 ← mapDataGrid (fun i : Fin n => res.getD i 0) g data (smallScales c) signal2 noise   -- lines 297-303
    pure ⟨addOpt m1.gridSal m2.gridSal, combineErr m1.gridErr m2.gridErr, some noise, signal⟩

/-- The casts used and the result of pyowc/calibration.py:262-315 (without the outputs that only copy the configuration), for more than five casts. -/
noncomputable def mapCasts (c : MapConfig) (f : FloatPos) (h : HistData ℝ) : Except PyErr (HistData ℝ × LevelResult) := do
  let signal0 ← signalVariance (h.sal.map some)                                           -- line 263
  let h' ← removeOutliers (outliers h.sal signal0) h                                      -- lines 262-269
  let noise ← noiseVariance (observations h')                                             -- lines 272-275
  let signal ← signalVariance (h'.sal.map some)                                           -- line 277
  let pos ← columnStack h'.lat h'.long h'.dates h'.z                                      -- lines 285-286
  if h'.sal.length = pos.length then
    match noise with
    | none => .error .runtimeError                                                        -- NaN noise: all residuals are NaN, as below
    | some nv => do
      let r ← mapStages c ⟨f.lat, f.long, f.date, f.z⟩ (fun i : Fin pos.length => h'.sal.getD i 0) (fun i => pos[(i : ℕ)]) signal nv
      pure (h', r)
  else .error .valueError

/-- One pass of the level loop (pyowc/calibration.py:243-330): `none` if the level is skipped. -/
noncomputable def mapLevel (c : MapConfig) (f : FloatPos) (g : GridData ℝ) (floatSal floatPres : List (Option ℝ))
    (interpSal interpPres : List (List (Option ℝ))) (n : ℕ) : Except PyErr (Option (HistData ℝ × LevelResult)) := do
  let s ← item floatSal n
  let p ← item floatPres n
  match s, p with
  | some _, some pv =>
    if c.pExclude ≤ pv then do                                                            -- lines 247-248
      let h ← processProfileHist g floatPres interpSal interpPres n c.pDelta              -- lines 250-255
      if h.sal.length > 5 then do                                                         -- line 259
        let r ← mapCasts c f h
        pure (some r)
      else pure none
    else pure none
  | _, _ => pure none

end Verif.Level
