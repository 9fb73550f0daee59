import Verif.Np

/-!
# Model of `pyowc/data/wrangling.py`

A two-dimensional array is a `Grid`; `at r c` is its element in row `r` and column `c`, `none` for NaN and infinities. Elements
outside of the array are never read. All arithmetic with NaN gives NaN.
-/

namespace Verif.Interp

open Verif.Np

variable {K : Type} [Field K] [LinearOrder K] [IsStrictOrderedRing K]

/-- A two-dimensional array. -/
structure Grid (K : Type) where
  rows : ℕ
  cols : ℕ
  at_ : ℕ → ℕ → Option K

/-- A level of the float profile (elements of `float_sal`, `float_theta`, `float_pres` in the same row; the three arrays are assumed to have the
same length). -/
structure FloatLevel (K : Type) where
  sal : Option K
  theta : Option K
  pres : Option K

/-- `_get_finite_element_mask` (pyowc/data/wrangling.py:231-239) for one element. -/
def finite (s t p : Option K) : Bool := s.isSome && t.isSome && p.isSome

/-- The rows of a station in which all three values are finite (line 207, and the boolean index of lines 215-217). -/
def goodRows (sal theta pres : Grid K) (c : ℕ) : List ℕ :=
  (List.range sal.rows).filter fun r => finite (sal.at_ r c) (theta.at_ r c) (pres.at_ r c)

/-- `column_counts` (line 210). -/
def columnCounts (sal theta pres : Grid K) : List ℕ :=
  (List.range sal.cols).map fun c => (goodRows sal theta pres c).length

/-- `grid[:good_values, station] = grid_in[:, station][good]` (lines 215-217) and the truncation to `max_level` rows (lines 220-223). -/
def compact (good : ℕ → List ℕ) (maxLevel : ℕ) (g : Grid K) : Grid K where
  rows := maxLevel
  cols := g.cols
  at_ := fun r c => ((good c)[r]?).bind fun r' => g.at_ r' c

/-- `_get_cleaned_grid_data` (lines 200-228). `np.max` of an empty array raises (line 211). -/
def cleaned (sal theta pres : Grid K) : Except PyErr (Option (Grid K × Grid K × Grid K)) :=
  match (columnCounts sal theta pres).max? with
  | none => .error .valueError
  | some maxLevel =>
    if maxLevel > 0 then
      let g := goodRows sal theta pres
      .ok (some (compact g maxLevel sal, compact g maxLevel theta, compact g maxLevel pres))
    else .ok none

/-- `np.diff(grid, axis=0)` (lines 129-131). -/
def diff (g : Grid K) : Grid K where
  rows := g.rows - 1
  cols := g.cols
  at_ := fun r c => match g.at_ (r + 1) c, g.at_ r c with
    | some a, some b => some (a - b)
    | _, _ => none

/-- `find_sign_changes_in_columns` (lines 191-197) of `reference_values - value` (line 169): an element of the boolean array. -/
def signChange (theta : Grid K) (v : K) (r c : ℕ) : Bool :=
  match theta.at_ (r + 1) c, theta.at_ r c with
  | some a, some b => decide ((a - v) * (b - v) ≤ 0)
  | _, _ => false

/-- `calculate_interpolation_weights` (lines 167-183) at a sign change. A zero difference occurs only with a zero numerator
(lemma `weight_zero_div`), so the quotient is NaN. -/
def weight (theta : Grid K) (v : K) (r c : ℕ) : Option K :=
  match theta.at_ r c, (diff theta).at_ r c with
  | some b, some d => if d = 0 then none else some ((v - b) / d)
  | _, _ => none

/-- `interpolate_values` (lines 186-188) at a sign change. -/
def interpolate (w : Option K) (g : Grid K) (r c : ℕ) : Option K :=
  match g.at_ r c, w, (diff g).at_ r c with
  | some a, some w, some d => some (a + w * d)
  | _, _, _ => none

/-- What the loop of lines 136-162 changes: `output_placeholder`, `interp_sal_final`, `interp_pres_final`. -/
structure State (K : Type) where
  hold : ℕ → ℕ → Option K
  sal : ℕ → ℕ → Option K
  pres : ℕ → ℕ → Option K

/-- `np.nonzero` of the boolean array (line 175): is `(r, c)` one of the positions. -/
def changes (theta : Grid K) (v : K) (r c : ℕ) : Bool :=
  decide (r < theta.rows - 1) && decide (c < theta.cols) && signChange theta v r c

/-- `array[sign_changes] = values` -/
def put (hold : ℕ → ℕ → Option K) (at_ : ℕ → ℕ → Bool) (values : ℕ → ℕ → Option K) : ℕ → ℕ → Option K :=
  fun r c => if at_ r c then values r c else hold r c

/-- The column given to `nanargmin` (line 147). -/
def column (rows : ℕ) (hold : ℕ → ℕ → Option K) (fp : K) (c : ℕ) : List (Option K) :=
  (List.range rows).map fun r => (hold r c).map fun p => |p - fp|

/-- `stations_with_possible_interp` (line 144). -/
def stations (theta : Grid K) (v : K) : List ℕ :=
  (List.range theta.cols).filter fun c => (List.range (theta.rows - 1)).any fun r => changes theta v r c

/-- `array[index, stations] = hold[min_pres, stations]` (lines 150, 159). -/
def scatter (a hold : ℕ → ℕ → Option K) (i : ℕ) (picks : List (ℕ × ℕ)) : ℕ → ℕ → Option K := fun i' c =>
  if i' = i then
    match picks.find? fun q => q.1 == c with
    | some q => hold q.2 c
    | none => a i' c
  else a i' c

/-- The body of the loop (lines 136-162) for row `i` of the float, which has temperature `v` and pressure `fp`. `nanargmin` raises if
there are no rows at all or a column is all NaN (line 147). -/
def step (sal theta pres : Grid K) (i : ℕ) (v fp : K) (s : State K) : Except PyErr (State K) := do
  let ch := changes theta v
  let hold := put s.hold ch fun r c => interpolate (weight theta v r c) pres r c
  let rows := theta.rows - 1
  if rows = 0 then .error .valueError
  let minPres ← (stations theta v).mapM fun c =>
    match nanArgmin (column rows hold fp c) with
    | some r => .ok (c, r)
    | none => .error .valueError
  let presOut := scatter s.pres hold i minPres
  let hold := put hold ch fun _ _ => none
  let hold := put hold ch fun r c => interpolate (weight theta v r c) sal r c
  let salOut := scatter s.sal hold i minPres
  let hold := put hold ch fun _ _ => none
  .ok { hold := hold, sal := salOut, pres := presOut }

/-- The loop of lines 136-162 over the good rows of the float (line 127). -/
def loop (sal theta pres : Grid K) : ℕ → List (FloatLevel K) → State K → Except PyErr (State K)
  | _, [], s => .ok s
  | i, f :: rest, s =>
    match f.sal, f.theta, f.pres with
    | some _, some v, some fp => do
      let s' ← step sal theta pres i v fp s
      loop sal theta pres (i + 1) rest s'
    | _, _, _ => loop sal theta pres (i + 1) rest s

/-- An array of NaN. -/
def blank : ℕ → ℕ → Option K := fun _ _ => none

/-- `interp_climatology` (lines 89-164): the arrays of interpolated salinity and pressure, with a row for each level of the float and a column
for each station. -/
def interpClimatology (sal theta pres : Grid K) (float : List (FloatLevel K)) :
    Except PyErr ((ℕ → ℕ → Option K) × (ℕ → ℕ → Option K)) :=
  if ¬ ((sal.rows = theta.rows ∧ sal.cols = theta.cols) ∧ (theta.rows = pres.rows ∧ theta.cols = pres.cols)) then .ok (blank, blank)
  else do
    match ← cleaned sal theta pres with
    | none => .ok (blank, blank)
    | some (sal', theta', pres') =>
      let s ← loop sal' theta' pres' 0 float { hold := blank, sal := blank, pres := blank }
      .ok (s.sal, s.pres)

end Verif.Interp
