import Verif.Props.DepthOwn
import Verif.Props.ProfileExamples

/-!
# Concrete cases for C128 and C45
-/

set_option linter.unusedSectionVars false
set_option maxRecDepth 4000

namespace Verif.Props

open Verif.Np Verif.Utilities Verif.Helper Verif.Region Verif.Profile Verif.Spec Verif.Spec.Profile Verif.Topo Verif.Finders Verif.Lemmas.Depth Verif.Saf Verif.Level
open Verif.Lemmas.Profile Verif.Update

theorem wTopo_elevation (i j : ℤ) (hi : -1079 ≤ i ∧ i ≤ 1080) (hj : 0 ≤ j ∧ j < 4320) : ElevationAt wTopo ((i : ℝ) / 12) ((j : ℝ) / 12) (-j) := by
  refine ⟨(1080 - i).toNat, j.toNat, 0, ?_, ?_, by omega, ?_⟩
  · have : (((1080 - i).toNat : ℤ) : ℝ) = 1080 - i := by rw [Int.toNat_of_nonneg (by omega)]; push_cast; ring
    rw [← Int.cast_natCast, this]; ring
  · have : ((j.toNat : ℤ) : ℝ) = j := by rw [Int.toNat_of_nonneg (by omega)]
    rw [← Int.cast_natCast, this]; push_cast; ring
  · unfold wTopo
    rw [List.getElem?_map, List.getElem?_range (by omega)]
    simp only [Option.map_some, Option.some.injEq]
    omega

/-- On the falling bottom the depth is 12 m for each degree of longitude. -/
theorem wTopo_depth (lat lon : ℝ) (h1 : -1079 / 12 ≤ lat) (h2 : lat ≤ 90) (h3 : 0 ≤ lon) (h4 : lon ≤ 4319 / 12) : DepthAt wTopo lat lon (12 * lon) := by
  obtain ⟨i, i1, i2, i3, i4⟩ : ∃ i : ℤ, (i : ℝ) ≤ 12 * lat ∧ 12 * lat ≤ i + 1 ∧ -1079 ≤ i ∧ i ≤ 1079 := by
    have f1 := Int.floor_le (12 * lat)
    have f2 := (Int.lt_floor_add_one (12 * lat)).le
    have g1 : -1079 ≤ ⌊12 * lat⌋ := Int.le_floor.2 (by push_cast; linarith)
    have g2 : ⌊12 * lat⌋ ≤ 1080 := by
      have : ((⌊12 * lat⌋ : ℤ) : ℝ) ≤ 1080 := by linarith
      exact_mod_cast this
    rcases (show ⌊12 * lat⌋ ≤ 1079 ∨ ⌊12 * lat⌋ = 1080 by omega) with h | h
    · exact ⟨_, f1, f2, g1, h⟩
    · rw [h] at f1 f2
      push_cast at f1 f2
      exact ⟨1079, by push_cast; linarith, by push_cast; linarith, by norm_num, by norm_num⟩
  obtain ⟨j, j1, j2, j3, j4⟩ : ∃ j : ℤ, (j : ℝ) ≤ 12 * lon ∧ 12 * lon ≤ j + 1 ∧ 0 ≤ j ∧ j ≤ 4318 := by
    have f1 := Int.floor_le (12 * lon)
    have f2 := (Int.lt_floor_add_one (12 * lon)).le
    have g1 : 0 ≤ ⌊12 * lon⌋ := Int.le_floor.2 (by push_cast; linarith)
    have g2 : ⌊12 * lon⌋ ≤ 4319 := by
      have : ((⌊12 * lon⌋ : ℤ) : ℝ) ≤ 4319 := by linarith
      exact_mod_cast this
    rcases (show ⌊12 * lon⌋ ≤ 4318 ∨ ⌊12 * lon⌋ = 4319 by omega) with h | h
    · exact ⟨_, f1, f2, g1, h⟩
    · rw [h] at f1 f2
      push_cast at f1 f2
      exact ⟨4318, by push_cast; linarith, by push_cast; linarith, by norm_num, by norm_num⟩
  refine ⟨i, j, -j, -(j + 1), -j, -(j + 1), wTopo_elevation i j (by omega) (by omega), wTopo_elevation i (j + 1) (by omega) (by omega),
    wTopo_elevation (i + 1) j (by omega) (by omega), wTopo_elevation (i + 1) (j + 1) (by omega) (by omega), i1, i2, j1, j2, ?_⟩
  unfold bilinear
  push_cast
  ring

/-- C128 for a float at 105°E over this bottom: its depth is 1260 m. -/
example : floatDepth (wEnv 91 108 170 186) 5 105 = .ok 1260 := by
  obtain ⟨z, hz, hd⟩ := float_depth_right (wEnv 91 108 170 186) grid2_isInterp2d (wEnv_topo _ _ _ _) 5 105 (by norm_num) (by norm_num) (by norm_num) (by norm_num)
  have h := wTopo_depth (max 5 (-1079 / 12)) 105 (by norm_num) (by norm_num) (by norm_num) (by norm_num)
  rw [hz, depth_unique _ _ _ _ _ hd h]
  norm_num

/-- C128 near the south pole, and for a longitude counted past a turn. -/
example : floatDepth (wEnv 91 108 170 186) (-89.95) 465 = .ok 1260 := by
  obtain ⟨z, hz, hd⟩ := float_depth_right (wEnv 91 108 170 186) grid2_isInterp2d (wEnv_topo _ _ _ _) (-89.95) 465 (by norm_num) (by norm_num) (by norm_num)
    (by norm_num)
  have h := wTopo_depth (max (-89.95) (-1079 / 12)) 105 (by norm_num) (by norm_num) (by norm_num) (by norm_num)
  rw [hz, ← depth_well_defined _ _ 105 465 _ _ 1 (by norm_num) h hd]
  norm_num

/-- C128 for two casts. -/
example : gridDepths (wEnv 91 108 170 186) (([5, 28] : List ℝ).map some) (([91, 359] : List ℝ).map some) = .ok [1092, 4308] := by
  obtain ⟨gz, h1, h2, h3⟩ := grid_depths_right (wEnv 91 108 170 186) grid2_isInterp2d (wEnv_topo _ _ _ _) [5, 28] [91, 359] rfl (by simp)
    (by simp; norm_num) (by simp; norm_num)
  rw [h1]
  match gz, h2 with
  | [a, b], _ =>
    have e1 := depth_unique _ _ _ _ _ (h3 0 5 91 a rfl rfl rfl) (wTopo_depth (max 5 (-1079 / 12)) 91 (by norm_num) (by norm_num) (by norm_num) (by norm_num))
    have e2 := depth_unique _ _ _ _ _ (h3 1 28 359 b rfl rfl rfl) (wTopo_depth (max 28 (-1079 / 12)) 359 (by norm_num) (by norm_num) (by norm_num) (by norm_num))
    rw [e1, e2]
    norm_num

/-- The calibration takes the same depths. -/
example : ∃ cs, Verif.Piecewise.coordFloat wTopo grid2 1 [105, 200] [5, 6] = .ok (some cs) ∧ cs[1]? = some ⟨200, 6, 2400⟩ := by
  obtain ⟨cs, h1, -, h2⟩ := calibration_depth_right wTopo wTopo_length grid2 grid2_isInterp2d 1 (by norm_num) [105, 200] [5, 6] (by simp) rfl
    (by simp; norm_num) (Or.inr ⟨⟨200, by simp, by norm_num⟩, by simp; norm_num⟩)
  obtain ⟨z, h3, h4⟩ := h2 1 200 6 rfl rfl
  have e := depth_unique _ _ _ _ _ h4 (wTopo_depth (max 6 (-1079 / 12)) 200 (by norm_num) (by norm_num) (by norm_num) (by norm_num))
  refine ⟨cs, h1, ?_⟩
  rw [h3, e]
  norm_num

/-- C45 for the six casts in the open ocean: each has the depth at its own longitude. -/
example : ∃ p, prepare (wEnv 91 108 170 186) (wFloat 105) 5 105 = .ok p ∧ p.grid.long = [91, 91 + 1, 91 + 2, 91 + 3, 91 + 4, 91 + 5] ∧
    ∀ (k : ℕ) (x d : ℝ), p.grid.long[k]? = some x → p.grid.z[k]? = some d → d = 12 * x := by
  obtain ⟨p, hp, -, hl, hla, -, hz, -⟩ := wPrepared 91 108 108 105 170 186 10 world_open
  have hsur : surrounding (wEnv 91 108 170 186) 105 5 = wSix 91 ++ wTwo 108 := by
    unfold surrounding
    rw [world_open.boxes]
    exact world_open.casts
  have hform : ∀ c ∈ wSix 91 ++ wTwo 108, ∃ x y s, c = wCast x y s ∧ (y = 5 ∨ y = 28) ∧ 91 ≤ x ∧ x ≤ 108 := by
    intro c hc
    simp only [wSix, wTwo, List.cons_append, List.nil_append, List.mem_cons, List.not_mem_nil, or_false] at hc
    rcases hc with rfl | rfl | rfl | rfl | rfl | rfl | rfl | rfl <;> exact ⟨_, _, _, rfl, by norm_num, by norm_num, by norm_num⟩
  obtain ⟨-, -, h3⟩ := own_depths_partial (wEnv 91 108 170 186) grid2_isInterp2d (wEnv_topo _ _ _ _) (wDisk_wellFormed _ _ _ _) (by change (0 : ℤ) ≠ 1; norm_num)
    (wFloat 105) 5 105 p hp
    (by
      rw [hsur]
      intro c hc y x hy hx
      obtain ⟨x', y', s, rfl, h1, h2, h3⟩ := hform c hc
      obtain rfl := Option.some.inj hy
      obtain rfl := Option.some.inj hx
      rcases h1 with rfl | rfl <;> norm_num <;> constructor <;> linarith)
    (by rw [hsur]; change 8 ≤ 100; norm_num)
    (by
      rw [hsur]
      intro c hc
      obtain ⟨x', y', s, rfl, -⟩ := hform c hc
      rw [show (wEnv 91 108 170 186).cfg.pDelta = 250 from rfl, wLimit]
      exact wHasData _ _ _)
  refine ⟨p, hp, hl, ?_⟩
  intro k x d hx hd
  have hk : k < 6 := by
    have := (List.getElem?_eq_some_iff.1 hd).1
    omega
  have hy : p.grid.lat[k]? = some 5 := by
    rw [hla]
    rcases (show k = 0 ∨ k = 1 ∨ k = 2 ∨ k = 3 ∨ k = 4 ∨ k = 5 by omega) with rfl | rfl | rfl | rfl | rfl | rfl <;> rfl
  have hxr : 91 ≤ x ∧ x ≤ 96 := by
    rw [hl] at hx
    rcases (show k = 0 ∨ k = 1 ∨ k = 2 ∨ k = 3 ∨ k = 4 ∨ k = 5 by omega) with rfl | rfl | rfl | rfl | rfl | rfl <;>
      (have := Option.some.inj hx; rw [← this]; norm_num)
  exact depth_unique _ _ _ _ _ (h3 k 5 x d hy hx hd) (wTopo_depth _ x (by norm_num) (by norm_num) (by linarith [hxr.1]) (by linarith [hxr.2]))

/-! ## A cast without data shifts the depths -/

/-- A cast without salinities. -/
noncomputable def vEmpty : RefCast ℝ := ⟨some 5, some 92, "20100615120000".toList, [], [some 900, some 1100], [none, none], [some 10, some 0]⟩

noncomputable def vCasts : List (RefCast ℝ) := [wCast 91 5 35, vEmpty, wCast 93 5 35.02]

noncomputable def vEnv : Env := { wEnv 91 108 170 186 with disk := fun t n => if t = 1 ∧ n = 170 then some ⟨vCasts, 2⟩ else none }

theorem vDisk_wellFormed : WellFormedDisk vEnv.disk := by
  intro t n f h
  change (if t = 1 ∧ n = 170 then some ⟨vCasts, 2⟩ else none) = some f at h
  split_ifs at h
  obtain rfl := Option.some.inj h
  simp [vCasts, vEmpty, wCast]

theorem vBoxes : boxesAt vEnv 105 5 = .ok (wBoxes 10) := wBoxes_eq 91 108 105 170 186 10 (by norm_num) (by norm_num) (by norm_num)

theorem vSurrounding : surrounding vEnv 105 5 = vCasts := by
  unfold surrounding
  rw [vBoxes]
  rfl

theorem vEmpty_noData : ¬ HasData (some 1250) vEmpty := by
  rintro ⟨l, hl, p, t, s, rfl⟩
  have := (List.mem_filter.1 hl).1
  simp [levelsOf, vEmpty] at this

theorem vRegion : regionResult (some 1250) vCasts =
    ⟨[[some 35, some 35], [some 35.02, some 35.02]], [[some 10, some 0], [some 10, some 0]], [[some 900, some 1100], [some 900, some 1100]],
      [some 5, some 5], [some 91, some 93], [decimalDate (wCast 91 5 35), decimalDate (wCast 93 5 35.02)]⟩ := by
  have hw : wrapLongitude (vCasts.map (·.long)) = ([91, 92, 93] : List ℝ).map some := by
    refine wrapLongitude_id [91, 92, 93] ?_
    intro x hx
    simp only [List.mem_cons, List.not_mem_nil, or_false] at hx
    rcases hx with rfl | rfl | rfl <;> norm_num
  have hu : (usableLevels (some 1250) vEmpty).length ≤ 2 := le_trans (List.length_filter_le _ _) (by simp [levelsOf, vEmpty])
  have hd : depthOf (some 1250) vCasts = 2 := by
    simp only [depthOf, vCasts, List.map_cons, List.map_nil, wUsable, List.length_cons, List.length_nil, List.foldr_cons, List.foldr_nil]
    omega
  unfold regionResult
  rw [hw, hd]
  dsimp only
  have hk : (vCasts.zip (([91, 92, 93] : List ℝ).map some)).filter (fun p => @decide (HasData (some 1250) p.1) (Classical.propDecidable _)) =
      [(wCast 91 5 35, some 91), (wCast 93 5 35.02, some 93)] := by
    simp only [vCasts, List.map_cons, List.map_nil, List.zip_cons_cons, List.zip_nil_left, List.filter_cons, List.filter_nil, wHasData, vEmpty_noData, decide_true,
      decide_false, if_true, Bool.false_eq_true, if_false]
  rw [hk]
  simp only [columnOf, wUsable, List.map_cons, List.map_nil]
  rfl

theorem vStation (c : ℕ) (hc : c < 2) : ∃ s : ℝ,
    station (toGrid [[some 35, some 35], [some 35.02, some 35.02]]) (toGrid [[some 10, some 0], [some 10, some 0]])
      (toGrid [[some 900, some 1100], [some 900, some 1100]]) c = [⟨s, 10, 900⟩, ⟨s, 0, 1100⟩] := by
  rcases c with _ | _ | c
  · exact ⟨35, rfl⟩
  · exact ⟨35.02, rfl⟩
  · omega

/-- C45 fails in this run: the casts are at 91°E and 93°E, and the cast at 93°E is given the depth at 92°E. A third depth is left over. -/
theorem depth_of_other_cast : ∃ p, prepare vEnv (wFloat 105) 5 105 = .ok p ∧ p.grid.lat = [5, 5] ∧ p.grid.long = [91, 93] ∧
    p.grid.z = [12 * 91, 12 * 92, 12 * 93] ∧ DepthAt vEnv.topo 5 93 (12 * 93) := by
  have h93 : DepthAt vEnv.topo 5 93 (12 * 93) := wTopo_depth 5 93 (by norm_num) (by norm_num) (by norm_num) (by norm_num)
  have hist := (hist_locations_spec vEnv.disk vDisk_wellFormed vEnv.name (wBoxes 10)).2 (by
    rw [show refCasts vEnv.disk vEnv.name (wBoxes 10) = vCasts from rfl]; simp [vCasts])
  rw [show refCasts vEnv.disk vEnv.name (wBoxes 10) = vCasts from rfl] at hist
  have hw : wrapLongitude (vCasts.map (·.long)) = ([91, 92, 93] : List ℝ).map some := by
    refine wrapLongitude_id [91, 92, 93] ?_
    intro x hx
    simp only [List.mem_cons, List.not_mem_nil, or_false] at hx
    rcases hx with rfl | rfl | rfl <;> norm_num
  have hlat : vCasts.map (·.lat) = ([5, 5, 5] : List ℝ).map some := rfl
  rw [hw, hlat] at hist
  have hgz : gridDepths vEnv (([5, 5, 5] : List ℝ).map some) (([91, 92, 93] : List ℝ).map some) = .ok [12 * 91, 12 * 92, 12 * 93] := by
    obtain ⟨gz, h1, h2, h3⟩ := grid_depths_right vEnv grid2_isInterp2d (wEnv_topo 91 108 170 186) [5, 5, 5] [91, 92, 93] rfl (by simp)
      (by simp; norm_num) (by simp; norm_num)
    rw [h1]
    match gz, h2 with
    | [a, b, c], _ =>
      have e1 := depth_unique _ _ _ _ _ (h3 0 5 91 a rfl rfl rfl) (wTopo_depth (max 5 (-1079 / 12)) 91 (by norm_num) (by norm_num) (by norm_num) (by norm_num))
      have e2 := depth_unique _ _ _ _ _ (h3 1 5 92 b rfl rfl rfl) (wTopo_depth (max 5 (-1079 / 12)) 92 (by norm_num) (by norm_num) (by norm_num) (by norm_num))
      have e3 := depth_unique _ _ _ _ _ (h3 2 5 93 c rfl rfl rfl) (wTopo_depth (max 5 (-1079 / 12)) 93 (by norm_num) (by norm_num) (by norm_num) (by norm_num))
      rw [e1, e2, e3]
  obtain ⟨z, hz⟩ := float_depth_defined vEnv (wEnv_topo 91 108 170 186) 5 105 (by norm_num) (by norm_num) (by norm_num) (by norm_num)
  set cs := Verif.Profile.castsOf (([5, 5, 5] : List ℝ).map some) (([91, 92, 93] : List ℝ).map some) (vCasts.map decimalDate) [12 * 91, 12 * 92, 12 * 93] with hcs
  have hmatch : matchLongitude (([91, 92, 93] : List ℝ).map some) 105 = 105 := by
    refine (matchLongitude_spec _ _).2 (Or.inl ?_)
    intro x hx
    simp only [List.map_cons, List.map_nil, List.mem_cons, List.not_mem_nil, or_false, Option.some.injEq] at hx
    rcases hx with rfl | rfl | rfl <;> norm_num
  have hin : ∀ (x y : ℝ) (t : Option ℝ) (g : Option ℝ), InEllipse (besthistArgs vEnv 5 105 (wFloat 105).date z) ⟨some x, some y, t, g⟩ ↔
      ((x - 105) / 24) ^ 2 + ((y - 5) / 12) ^ 2 < 1 := by
    intro x y t g
    unfold InEllipse besthistArgs vEnv wEnv wConfig
    norm_num
  obtain ⟨out, o1, o2, o3⟩ := besthist_few_returns_all (besthistArgs vEnv 5 105 (wFloat 105).date z)
    vEnv.argsort vEnv.rand cs (by rw [hcs]; exact List.cons_ne_nil _ _) (by intro h; change (0 : ℤ) = 1 at h; norm_num at h)
    (le_trans List.countP_le_length (show cs.length ≤ 100 by simp [hcs, Verif.Profile.castsOf, vCasts]))
  have hout : out = [0, 1, 2] := by
    refine sorted_ext _ _ o2 (by simp) ?_
    intro i
    rw [o3]
    rcases i with _ | _ | _ | i <;>
      simp only [hcs, Verif.Profile.castsOf, vCasts, List.map_cons, List.map_nil, List.zip_cons_cons, List.zip_nil_left,
        List.getElem?_cons_zero, List.getElem?_cons_succ, List.getElem?_nil, Nat.zero_add, Option.some.injEq, exists_eq_left', hin, reduceCtorEq, false_and, exists_false]
    all_goals (try norm_num)
    all_goals (try omega)
  subst hout
  have hsel : chosen [0, 1, 2] (refCasts vEnv.disk vEnv.name (wBoxes 10)) = [wCast 91 5 35, vEmpty, wCast 93 5 35.02] := rfl
  have hreg := region_data_spec vEnv.disk vDisk_wellFormed vEnv.name (wBoxes 10) [0, 1, 2] (wFloat 105).pres 250 _ _ hsel (by rw [wLimit, wUsable]; simp)
  rw [wLimit, hsel, show regionResult (some 1250) [wCast 91 5 35, vEmpty, wCast 93 5 35.02] = _ from vRegion] at hreg
  have hch : chosenCasts vEnv (wFloat 105) 5 105 z = .ok ⟨⟨[[some 35, some 35], [some 35.02, some 35.02]], [[some 10, some 0], [some 10, some 0]],
      [[some 900, some 1100], [some 900, some 1100]], [some 5, some 5], [some 91, some 93],
      [decimalDate (wCast 91 5 35), decimalDate (wCast 93 5 35.02)]⟩, [12 * 91, 12 * 92, 12 * 93]⟩ := by
    unfold chosenCasts
    rw [vBoxes]
    simp only [bind, Except.bind]
    rw [hist]
    dsimp only
    rw [hgz]
    dsimp only
    rw [hmatch, ← hcs, o1]
    dsimp only
    rw [show regionData vEnv.disk vEnv.name (wBoxes 10) [0, 1, 2] (wFloat 105).pres vEnv.cfg.pDelta = _ from hreg]
    rfl
  cases hs : Interp.interpClimatology (toGrid [[some 35, some 35], [some 35.02, some 35.02]]) (toGrid [[some 10, some 0], [some 10, some 0]])
      (toGrid [[some 900, some 1100], [some 900, some 1100]]) (floatLevels (wFloat 105)) with
  | error e =>
    exfalso
    have hshape : SameShape (toGrid [[some 35, some 35], [some 35.02, some 35.02]]) (toGrid [[some 10, some 0], [some 10, some 0]])
      (toGrid [[some 900, some 1100], [some 900, some 1100]]) := ⟨rfl, rfl, rfl, rfl⟩
    obtain ⟨-, h0 | ⟨-, fs, v, fp, hm, h1 | ⟨c, hc, -, h2⟩⟩⟩ := (interp_fails_iff _ _ _ hshape _ _).1 hs
    · exact absurd h0 (by change ¬ (2 = 0); norm_num)
    · have := h1 0 (by change 0 < 2; norm_num)
      obtain ⟨s, e0⟩ := vStation 0 (by norm_num)
      rw [e0] at this
      simp at this
    · obtain ⟨s, e0⟩ := vStation c hc
      rw [e0] at h2
      have e1 := h2 _ List.mem_cons_self
      have e2 := h2 _ (List.mem_cons_of_mem _ List.mem_cons_self)
      dsimp only at e1 e2
      linarith
  | ok r =>
    unfold prepare
    rw [hz]
    simp only [bind, Except.bind, hch, hs]
    exact ⟨_, rfl, rfl, rfl, rfl, h93⟩

end Verif.Props
