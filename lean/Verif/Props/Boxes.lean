import Verif.Lemmas.Boxes
import Verif.Lemmas.Np
import Mathlib.Data.Real.Archimedean

/-!
# Properties of `find_25boxes` (C15 - C17)
-/

set_option linter.unusedSectionVars false

namespace Verif.Props

open Verif.Np Verif.Finders Verif.Spec

variable {K : Type} [Field K] [LinearOrder K] [IsStrictOrderedRing K]

theorem boxNumbers_eq (x y : K) (cx cy : ℤ) (hx : -10 ≤ x ∧ x ≤ 370) (h1 : 10 * (cx : K) < x + 0.01)
    (h2 : x + 0.01 ≤ 10 * (cx : K) + 10) (h3 : 10 * (cy : K) ≤ y + 0.01) (h4 : y + 0.01 < 10 * (cy : K) + 10) :
    boxNumbers (some x) (some y) = .ok ((cells25 cx cy).map fun r => some (r + 1)) := by
  obtain ⟨hxl, hxu⟩ := hx
  have hc1 : -2 < cx := by
    have : (10 : K) * (-2) < 10 * cx := by linarith
    have : (((-2 : ℤ)) : K) < cx := by push_cast; linarith
    exact_mod_cast this
  have hc2 : cx < 38 := by
    have : (cx : K) < ((38 : ℤ) : K) := by push_cast; linarith
    exact_mod_cast this
  -- every longitude, after wrapping
  have key : ∀ (dx dy : ℤ) (v w : K) (m : ℤ), v = x + 0.01 + 10 * dx + 360 * m → w = y + 0.01 + 10 * dy →
      -10 < v → v ≤ 370 → nearestNeighbour lookupX lookupY lookupColumns v w = .ok (wmoRow (cx + dx) (cy + dy) + 1) := by
    intro dx dy v w m hv hw hvl hvu
    have hn := nearestNeighbour_eq v w (cx + dx + 36 * m) (cy + dy)
      (by
        constructor
        · have : ((-2 : ℤ) : K) < ((cx + dx + 36 * m : ℤ) : K) := by push_cast; linarith
          have : (-2 : ℤ) < cx + dx + 36 * m := by exact_mod_cast this
          omega
        · have : ((cx + dx + 36 * m : ℤ) : K) < ((37 : ℤ) : K) := by push_cast; linarith
          have : cx + dx + 36 * m < 37 := by exact_mod_cast this
          omega)
      (by push_cast; linarith) (by push_cast; linarith) (by push_cast; linarith) (by push_cast; linarith)
    rw [hn, wmoRow_mod]
  have keys : ∀ (dy : ℤ) (w : K), w = y + 0.01 + 10 * dy → ∀ f, f = (fun v => nearestNeighbour lookupX lookupY lookupColumns v w) →
      (boxLongs x).map f = offsets.map fun dx => .ok (wmoRow (cx + dx) (cy + dy) + 1) := by
    intro dy w hw f hf
    subst hf
    unfold boxLongs offsets
    simp only [List.map_cons, List.map_nil]
    refine congrArg₂ List.cons ?_ (congrArg₂ List.cons ?_ (congrArg₂ List.cons ?_ (congrArg₂ List.cons ?_
      (congrArg₂ List.cons ?_ rfl))))
    · split_ifs with h
      · exact key 0 dy _ w (-1) (by push_cast; ring) hw (by linarith) (by linarith)
      · exact key 0 dy _ w 0 (by push_cast; ring) hw (by linarith) (by linarith)
    · split_ifs with h
      · exact key 1 dy _ w (-1) (by push_cast; ring) hw (by linarith) (by linarith)
      · exact key 1 dy _ w 0 (by push_cast; ring) hw (by linarith) (by linarith)
    · split_ifs with h
      · exact key (-1) dy _ w 1 (by push_cast; ring) hw (by linarith) (by linarith)
      · exact key (-1) dy _ w 0 (by push_cast; ring) hw (by linarith) (by linarith)
    · split_ifs with h
      · exact key 2 dy _ w (-1) (by push_cast; ring) hw (by linarith) (by linarith)
      · exact key 2 dy _ w 0 (by push_cast; ring) hw (by linarith) (by linarith)
    · split_ifs with h
      · exact key (-2) dy _ w 1 (by push_cast; ring) hw (by linarith) (by linarith)
      · exact key (-2) dy _ w 0 (by push_cast; ring) hw (by linarith) (by linarith)
  have hmap : ((boxLats y).flatMap fun yy => (boxLongs x).map fun xx => (xx, yy)).map
      (fun p => nearestNeighbour lookupX lookupY lookupColumns p.1 p.2) = (cells25 cx cy).map fun r => .ok (r + 1) := by
    unfold boxLats cells25
    conv_rhs => unfold offsets
    simp only [List.flatMap_cons, List.flatMap_nil, List.append_nil, List.map_append, List.map_map, Function.comp_def]
    rw [keys 0 (y + 0.01) (by push_cast; ring) _ rfl, keys 1 (y + 10.01) (by push_cast; ring) _ rfl,
      keys (-1) (y - 9.99) (by push_cast; ring) _ rfl, keys 2 (y + 20.01) (by push_cast; ring) _ rfl,
      keys (-2) (y - 19.99) (by push_cast; ring) _ rfl]
    rfl
  unfold boxNumbers
  simp only
  rw [mapM_ok_of_map hmap]
  simp [bind, Except.bind, pure, Except.pure]

/-- C15. For a table of 648 boxes and a float at longitude `x`, latitude `y`, let `(cx, cy)` be the cell that contains the point
0.01 degree north-east of the float. Then the 25 rows returned are those of the 5 x 5 cells around it, in the listed
order, longitudes modulo 360 and latitudes clamped at the poles. -/
theorem boxes_are_neighbours {Row : Type} (table : List Row) (htab : table.length = 648) (x y : K) (cx cy : ℤ)
    (hx : -10 ≤ x ∧ x ≤ 370) (h1 : 10 * (cx : K) < x + 0.01) (h2 : x + 0.01 ≤ 10 * (cx : K) + 10)
    (h3 : 10 * (cy : K) ≤ y + 0.01) (h4 : y + 0.01 < 10 * (cy : K) + 10) :
    find25boxes table (some x) (some y) = .ok ((cells25 cx cy).map fun r => table[r]?) := by
  unfold find25boxes
  rw [boxNumbers_eq x y cx cy hx h1 h2 h3 h4]
  simp only [bind, Except.bind]
  apply mapM_ok_of_map
  rw [List.map_map]
  apply List.map_congr_left
  intro r hr
  have hlt : r < 648 := by
    unfold cells25 at hr
    simp only [List.mem_flatMap, List.mem_map] at hr
    obtain ⟨_, _, _, _, rfl⟩ := hr
    exact wmoRow_lt _ _
  have hlt' : r < table.length := by omega
  simp [hlt']

/-- C15, central box: a float not within 0.01 degree of the eastern or northern edge of its cell gets the box of its cell first.
-/
theorem boxes_centre_contains_float {Row : Type} (table : List Row) (htab : table.length = 648) (x y : K) (cx cy : ℤ)
    (hx0 : 0 ≤ x) (hx1 : x < 360) (hy0 : -90 ≤ y) (hy1 : y < 90)
    (h1 : 10 * (cx : K) ≤ x) (h2 : x ≤ 10 * (cx : K) + 9.99) (h3 : 10 * (cy : K) ≤ y) (h4 : y < 10 * (cy : K) + 9.99) :
    ∃ rows, find25boxes table (some x) (some y) = .ok rows ∧ rows.length = 25 ∧ 0 ≤ cx ∧ cx < 36 ∧ -9 ≤ cy ∧ cy ≤ 8 ∧
      rows[0]? = some table[18 * cx.toNat + (8 - cy).toNat]? := by
  have hc1 : -1 < cx := by
    have : ((-1 : ℤ) : K) < cx := by push_cast; linarith
    exact_mod_cast this
  have hc2 : cx < 36 := by
    have : (cx : K) < ((36 : ℤ) : K) := by push_cast; linarith
    exact_mod_cast this
  have hc3 : -10 < cy := by
    have : ((-10 : ℤ) : K) < cy := by push_cast; linarith
    exact_mod_cast this
  have hc4 : cy < 9 := by
    have : (cy : K) < ((9 : ℤ) : K) := by push_cast; linarith
    exact_mod_cast this
  refine ⟨_, boxes_are_neighbours table htab x y cx cy ⟨by linarith, by linarith⟩ (by linarith) (by linarith) (by linarith)
    (by linarith), by simp [cells25, offsets], by omega, hc2, by omega, by omega, ?_⟩
  have : wmoRow cx cy = 18 * cx.toNat + (8 - cy).toNat := by
    unfold wmoRow
    rw [Int.emod_eq_of_lt (by omega) hc2]
    omega
  simp [cells25, offsets, this]

/-- A cell as required by C15 exists for every real position. -/
theorem boxes_cell_exists (x y : ℝ) : ∃ cx cy : ℤ, 10 * (cx : ℝ) < x + 0.01 ∧ x + 0.01 ≤ 10 * (cx : ℝ) + 10 ∧
    10 * (cy : ℝ) ≤ y + 0.01 ∧ y + 0.01 < 10 * (cy : ℝ) + 10 := by
  refine ⟨⌈(x + 0.01) / 10⌉ - 1, ⌊(y + 0.01) / 10⌋, ?_, ?_, ?_, ?_⟩
  · have := Int.ceil_lt_add_one ((x + 0.01) / 10)
    push_cast; linarith
  · have := Int.le_ceil ((x + 0.01) / 10)
    push_cast; linarith
  · have := Int.floor_le ((y + 0.01) / 10)
    linarith
  · have := Int.lt_floor_add_one ((y + 0.01) / 10)
    linarith

/-- C15 for a float within 0.01 degree of the eastern edge: a float at 9.995 E is given the neighbouring box first. -/
theorem boxes_centre_edge_witness : find25boxes (List.range 648) (some (9.995 : ℚ)) (some 45) =
    .ok ((cells25 1 4).map some) := by
  rw [boxes_are_neighbours (List.range 648) (by simp) (9.995 : ℚ) 45 1 4 (by norm_num) (by norm_num) (by norm_num)
    (by norm_num) (by norm_num)]
  decide +kernel

/-- C16. Whatever the position in the accepted range of longitudes, 25 rows of the table are returned: no failure. -/
theorem boxes_in_range {Row : Type} (table : List Row) (htab : table.length = 648) (x y : ℝ) (hx : -10 ≤ x ∧ x ≤ 370) :
    ∃ rows, find25boxes table (some x) (some y) = .ok rows ∧ rows.length = 25 ∧ ∀ r ∈ rows, ∃ b ∈ table, r = some b := by
  obtain ⟨cx, cy, h1, h2, h3, h4⟩ := boxes_cell_exists x y
  refine ⟨_, boxes_are_neighbours table htab x y cx cy hx h1 h2 h3 h4, by simp [cells25, offsets], ?_⟩
  intro r hr
  rw [List.mem_map] at hr
  obtain ⟨k, hk, rfl⟩ := hr
  have hlt : k < table.length := by
    unfold cells25 at hk
    simp only [List.mem_flatMap, List.mem_map] at hk
    obtain ⟨_, _, _, _, rfl⟩ := hk
    rw [htab]; exact wmoRow_lt _ _
  exact ⟨table[k], List.getElem_mem _, by simp [hlt]⟩

/-- C16, missing position: 25 rows of NaN. -/
theorem boxes_nan {Row : Type} (table : List Row) (long lat : Option K) (h : long = none ∨ lat = none) :
    find25boxes table long lat = .ok (List.replicate 25 none) := by
  have : boxNumbers long lat = .ok (List.replicate 25 none) := by
    rcases h with rfl | rfl
    · rfl
    · cases long <;> rfl
  unfold find25boxes
  rw [this]
  rfl

theorem wmoRow_inj (a b c d : ℤ) (hb : -9 ≤ b ∧ b ≤ 8) (hd : -9 ≤ d ∧ d ≤ 8) (h : wmoRow a b = wmoRow c d) :
    a % 36 = c % 36 ∧ b = d := by
  unfold wmoRow at h
  have := Int.emod_nonneg a (show (36 : ℤ) ≠ 0 by norm_num)
  have := Int.emod_nonneg c (show (36 : ℤ) ≠ 0 by norm_num)
  omega

/-- C17. The 25 rows are 25 different rows exactly when the float is between 70 S and 70 N (up to the 0.01 degree shift). Nearer
to a pole some historical box is listed more than once. -/
theorem boxes_distinct_iff {Row : Type} (table : List Row) (htab : table.length = 648) (hnd : table.Nodup) (x y : ℝ)
    (hx : -10 ≤ x ∧ x ≤ 370) (rows : List (Option Row)) (h : find25boxes table (some x) (some y) = .ok rows) :
    rows.Nodup ↔ -70 ≤ y + 0.01 ∧ y + 0.01 < 70 := by
  obtain ⟨cx, cy, h1, h2, h3, h4⟩ := boxes_cell_exists x y
  rw [boxes_are_neighbours table htab x y cx cy hx h1 h2 h3 h4] at h
  have h' := Except.ok.inj h
  subst h'
  have hmem : ∀ k ∈ cells25 cx cy, k < table.length := by
    intro k hk
    unfold cells25 at hk
    simp only [List.mem_flatMap, List.mem_map] at hk
    obtain ⟨_, _, _, _, rfl⟩ := hk
    rw [htab]; exact wmoRow_lt _ _
  have hnod : ((cells25 cx cy).map fun r => table[r]?).Nodup ↔ (cells25 cx cy).Nodup := by
    constructor
    · exact List.Nodup.of_map _
    · intro hn
      refine hn.map_on ?_
      intro a ha b hb hab
      have ha' := hmem a ha
      have hb' := hmem b hb
      rw [List.getElem?_eq_getElem ha', List.getElem?_eq_getElem hb'] at hab
      exact (List.Nodup.getElem_inj_iff hnd).1 (Option.some.inj hab)
  rw [hnod]
  have hcy : (-70 ≤ y + 0.01 ∧ y + 0.01 < 70) ↔ -7 ≤ cy ∧ cy ≤ 6 := by
    constructor
    · rintro ⟨ha, hb⟩
      constructor
      · have : ((-8 : ℤ) : ℝ) < cy := by push_cast; linarith
        have : (-8 : ℤ) < cy := by exact_mod_cast this
        omega
      · have : (cy : ℝ) < ((7 : ℤ) : ℝ) := by push_cast; linarith
        have : cy < (7 : ℤ) := by exact_mod_cast this
        omega
    · rintro ⟨ha, hb⟩
      have ha' : ((-7 : ℤ) : ℝ) ≤ cy := by exact_mod_cast ha
      have hb' : (cy : ℝ) ≤ ((6 : ℤ) : ℝ) := by exact_mod_cast hb
      push_cast at ha' hb'
      constructor <;> linarith
  rw [hcy]
  constructor
  · intro hn
    by_contra hcon
    -- the two outermost rows coincide
    by_cases hlow : cy < -7
    · have e : wmoRow (cx + 0) (cy + -1) = wmoRow (cx + 0) (cy + -2) := by unfold wmoRow; omega
      have h5 := List.nodup_iff_injective_getElem.1 hn
      have := @h5 ⟨10, by simp [cells25, offsets]⟩ ⟨20, by simp [cells25, offsets]⟩ (by simpa [cells25, offsets] using e)
      simp at this
    · have e : wmoRow (cx + 0) (cy + 1) = wmoRow (cx + 0) (cy + 2) := by unfold wmoRow; omega
      have h5 := List.nodup_iff_injective_getElem.1 hn
      have := @h5 ⟨5, by simp [cells25, offsets]⟩ ⟨15, by simp [cells25, offsets]⟩ (by simpa [cells25, offsets] using e)
      simp at this
  · rintro ⟨ha, hb⟩
    unfold cells25
    have hoff : ∀ d ∈ offsets, -2 ≤ d ∧ d ≤ 2 := by decide
    have hon : offsets.Nodup := by decide
    rw [List.nodup_flatMap]
    constructor
    · intro dy hdy
      have := hoff dy hdy
      refine hon.map_on ?_
      intro a ha' b hb' hab
      have := hoff a ha'
      have := hoff b hb'
      have := (wmoRow_inj _ _ _ _ (by omega) (by omega) hab).1
      omega
    · refine hon.imp_of_mem ?_
      intro d1 d2 hd1 hd2 hne k hk1 hk2
      have := hoff d1 hd1
      have := hoff d2 hd2
      simp only [List.mem_map] at hk1 hk2
      obtain ⟨a, _, rfl⟩ := hk1
      obtain ⟨b, _, hb'⟩ := hk2
      have := (wmoRow_inj _ _ _ _ (by omega) (by omega) hb').2
      omega

/-- C17 is false near a pole: at 75 N the 25 rows are not 25 different boxes. -/
theorem boxes_repeat_near_pole : ∃ rows, find25boxes (List.range 648) (some (30 : ℝ)) (some 75) = .ok rows ∧ ¬ rows.Nodup := by
  obtain ⟨rows, h, -⟩ := boxes_in_range (List.range 648) (by simp) 30 75 (by norm_num)
  refine ⟨rows, h, ?_⟩
  rw [boxes_distinct_iff (List.range 648) (by simp) List.nodup_range 30 75 (by norm_num) rows h]
  norm_num

/-- Longitudes below -10 are not brought to 0 .. 360: a float at 100 W given as -100 gets another central box (350 .. 360 E) than the
same float given as 260. -/
theorem boxes_negative_longitude_witness :
    (∃ rows, find25boxes (List.range 648) (some (-100 : ℚ)) (some 45) = .ok rows ∧ rows[0]? = some (some (18 * 35 + 4))) ∧
    (∃ rows, find25boxes (List.range 648) (some (260 : ℚ)) (some 45) = .ok rows ∧ rows[0]? = some (some (18 * 26 + 4))) := by
  constructor
  · have h : (match find25boxes (List.range 648) (some (-100 : ℚ)) (some 45) with
        | .ok rows => decide (rows[0]? = some (some (18 * 35 + 4)))
        | .error _ => false) = true := by decide +kernel
    cases hr : find25boxes (List.range 648) (some (-100 : ℚ)) (some 45) with
    | error e => rw [hr] at h; simp at h
    | ok rows => rw [hr] at h; exact ⟨rows, rfl, by simpa using h⟩
  · obtain ⟨rows, h1, -, -, -, -, -, h3⟩ := boxes_centre_contains_float (List.range 648) (by simp) (260 : ℚ) 45 26 4
      (by norm_num) (by norm_num) (by norm_num) (by norm_num) (by norm_num) (by norm_num) (by norm_num) (by norm_num)
    exact ⟨rows, h1, by rw [h3]; decide +kernel⟩

/-- C15 - C17: the hypotheses hold for a float at (12.5 E, 47.3 N). -/
example : ∃ rows, find25boxes (List.range 648) (some (12.5 : ℚ)) (some 47.3) = .ok rows ∧ rows.length = 25 ∧
    rows[0]? = some (some 22) := by
  obtain ⟨rows, h1, h2, -, -, -, -, h3⟩ := boxes_centre_contains_float (List.range 648) (by simp) (12.5 : ℚ) 47.3 1 4
    (by norm_num) (by norm_num) (by norm_num) (by norm_num) (by norm_num) (by norm_num) (by norm_num) (by norm_num)
  exact ⟨rows, h1, h2, by rw [h3]; decide +kernel⟩

end Verif.Props
