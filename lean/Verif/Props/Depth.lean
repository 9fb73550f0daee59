import Verif.Lemmas.Depth
import Verif.Props.ProfileMore
import Verif.Props.Piecewise

/-!
# C128: the depths used are those of the bathymetry
-/

set_option linter.unusedSectionVars false

namespace Verif.Props

open Verif.Np Verif.Profile Verif.Spec Verif.Topo Verif.Lemmas.Depth

/-- The interpolation on the window of the file gives the depth of the file: at every position inside the window, with the latitude raised to the most
southern row of the file. -/
theorem window_depth (interp2 : List ℝ → List ℝ → List (List ℤ) → ℝ → ℝ → ℝ) (hi : IsInterp2d interp2) (file : List ℤ)
    (topo : List (List ℤ)) (lgs lts : List ℝ) (hl : topo.length = lts.length) (hrow : ∀ row ∈ topo, row.length = lgs.length)
    (hel : ∀ (i j : ℕ) (row : List ℤ) (z : ℤ) (lat lon : ℝ), topo[i]? = some row → row[j]? = some z →
        lts[i]? = some lat → lgs[j]? = some lon → ElevationAt file lat lon z)
    (w e n s : ℝ) (hw : lgs.head? = some w) (he : lgs.getLast? = some e) (hn : lts.head? = some n) (hs : lts.getLast? = some s)
    (hx : ∀ (j : ℕ) (a b : ℝ), lgs[j]? = some a → lgs[j + 1]? = some b → b = a + 1 / 12)
    (hy : ∀ (i : ℕ) (a b : ℝ), lts[i]? = some a → lts[i + 1]? = some b → b = a - 1 / 12)
    (x y : ℝ) (h1 : w ≤ x - 1) (h2 : x + 1 ≤ e) (h3 : -90 ≤ y) (h4 : y ≤ 90) (h5 : min (y + 1) 90 ≤ n) (h6 : s ≤ max (y - 1) (-1079 / 12))
    (hf : file.length = 2160 * 4320) :
    DepthAt file (max y (-1079 / 12)) x (-(interp2 lgs lts topo x y)) := by
  have hxs : lgs.Pairwise (· < ·) := pairwise_of_steps _ _ fun j a b ha hb => by rw [hx j a b ha hb]; linarith
  have hys : lts.Pairwise (· > ·) := pairwise_of_steps _ _ fun j a b ha hb => by rw [hy j a b ha hb]; linarith
  have hyn : max y (-1079 / 12) ≤ n := by
    refine max_le (le_trans (le_min (by linarith) h4) h5) (le_trans (le_min (by linarith) (by norm_num)) h5)
  have hsy : s ≤ max y (-1079 / 12) := le_trans h6 (max_le_max_right _ (by linarith))
  have h7 : -1079 / 12 ≤ s := by
    rw [List.getLast?_eq_getElem?] at hs
    have hlt := (List.getElem?_eq_some_iff.1 hs).1
    have hlt' : lts.length - 1 < topo.length := by rw [hl]; exact hlt
    have h0 : 0 < (topo[lts.length - 1]).length := by
      rw [hrow _ (List.getElem_mem hlt')]
      cases lgs with
      | nil => cases hw
      | cons a t => exact Nat.succ_pos _
    have hlg : lgs[0]? = some w := by rw [← List.head?_eq_getElem?]; exact hw
    obtain ⟨row, col, turns, c1, -, -, c4⟩ := hel _ 0 _ _ s w (List.getElem?_eq_getElem hlt') (List.getElem?_eq_getElem h0) hs hlg
    have hr := (List.getElem?_eq_some_iff.1 c4).1
    have hr' : row ≤ 2159 := by omega
    have : (row : ℝ) ≤ 2159 := by exact_mod_cast hr'
    linarith
  have hsn : s < n := by
    refine lt_of_le_of_lt h6 (lt_of_lt_of_le ?_ h5)
    rw [max_lt_iff]
    constructor <;> rw [lt_min_iff] <;> constructor <;> linarith
  have hclip : interp2 lgs lts topo x y = interp2 lgs lts topo x (max y (-1079 / 12)) := by
    by_cases hyl : -1079 / 12 ≤ y
    · rw [max_eq_left hyl]
    · push Not at hyl
      have hse : s = -1079 / 12 := le_antisymm (le_trans h6 (max_le (by linarith) le_rfl)) h7
      rw [max_eq_right hyl.le, ← hse]
      exact hi.south lgs lts topo hxs hys hl hrow s hs x y (by rw [hse]; exact hyl.le)
  rw [hclip]
  obtain ⟨j, x0, x1, a1, a2, a3, a4⟩ := between_neighbours lgs w e x hw he (by linarith) (by linarith) (by linarith)
  obtain ⟨i, y0, y1, b1, b2, b3, b4⟩ := between_neighbours_desc lts n s (max y (-1079 / 12)) hn hs hsn hyn hsy
  have get : ∀ k : ℕ, ∀ t : ℝ, lts[k]? = some t → ∃ r, topo[k]? = some r ∧ r.length = lgs.length := by
    intro k t hk
    have hlt : k < topo.length := by rw [hl]; exact (List.getElem?_eq_some_iff.1 hk).1
    exact ⟨topo[k], List.getElem?_eq_getElem hlt, hrow _ (List.getElem_mem hlt)⟩
  obtain ⟨r0, q0, l0⟩ := get i y0 b1
  obtain ⟨r1, q1, l1⟩ := get (i + 1) y1 b2
  have getc : ∀ (r : List ℤ), r.length = lgs.length → ∀ (k : ℕ) (t : ℝ), lgs[k]? = some t → ∃ z, r[k]? = some z := by
    intro r hr k t hk
    have hlt : k < r.length := by rw [hr]; exact (List.getElem?_eq_some_iff.1 hk).1
    exact ⟨r[k], List.getElem?_eq_getElem hlt⟩
  obtain ⟨a, ea⟩ := getc r0 l0 j x0 a1
  obtain ⟨b, eb⟩ := getc r0 l0 (j + 1) x1 a2
  obtain ⟨c, ec⟩ := getc r1 l1 j x0 a1
  obtain ⟨d, ed⟩ := getc r1 l1 (j + 1) x1 a2
  have E0 := hel _ _ _ _ _ _ q0 ea b1 a1
  have E1 := hel _ _ _ _ _ _ q0 eb b1 a2
  have E2 := hel _ _ _ _ _ _ q1 ec b2 a1
  have E3 := hel _ _ _ _ _ _ q1 ed b2 a2
  rw [hi.cell lgs lts topo hxs hys hl hrow i j x0 x1 y0 y1 r0 r1 a b c d a1 a2 b1 b2 q0 q1 ea eb ec ed x _ a3 a4 b3 b4]
  have hx1 := hx j x0 x1 a1 a2
  have hy1 := hy i y0 y1 b1 b2
  obtain ⟨p, q, hp, hq⟩ := elevation_node _ _ _ _ E2
  have hx1' : x1 = ((q + 1 : ℤ) : ℝ) / 12 := by rw [hx1, hq]; push_cast; ring
  have hy0' : y0 = ((p + 1 : ℤ) : ℝ) / 12 := by
    have : y0 = y1 + 1 / 12 := by linarith
    rw [this, hp]; push_cast; ring
  refine ⟨p, q, c, d, a, b, ?_, ?_, ?_, ?_, ?_, ?_, ?_, ?_, ?_⟩
  · rw [← hp, ← hq]; exact E2
  · rw [← hp, ← hx1']; exact E3
  · rw [← hy0', ← hq]; exact E0
  · rw [← hy0', ← hx1']; exact E1
  · rw [hp] at b3; linarith
  · rw [hy0'] at b4; push_cast at b4; linarith
  · rw [hq] at a3; linarith
  · rw [hx1'] at a4; push_cast at a4; linarith
  · rw [neg_inj]
    have f1 : (y0 - max y (-1079 / 12)) / (y0 - y1) = 1 - (12 * max y (-1079 / 12) - p) := by
      rw [hy0', hp]; push_cast
      rw [show (((p : ℝ) + 1) / 12 - (p : ℝ) / 12) = 1 / 12 by ring]
      ring
    have f2 : (x - x0) / (x1 - x0) = 12 * x - q := by
      rw [hx1', hq]; push_cast
      rw [show (((q : ℝ) + 1) / 12 - (q : ℝ) / 12) = 1 / 12 by ring]
      ring
    rw [f1, f2]
    unfold bilinear
    ring

/-- C128. With a complete bathymetry file, the depth used for the float is the bilinear depth of the file at the position of the float. South of the last row
of the file, 89°55'S, it is the depth there. -/
theorem float_depth_right (E : Env) (hi : IsInterp2d E.interp2) (hf : E.topo.length = 2160 * 4320) (lat long : ℝ) (h1 : -90 ≤ lat) (h2 : lat ≤ 90)
    (h3 : -180 ≤ long) (h4 : long ≤ 540) : ∃ z, floatDepth E lat long = .ok z ∧ DepthAt E.topo (max lat (-1079 / 12)) long z := by
  have ht : -180 ≤ tbase long ∧ tbase long ≤ 180 := by
    unfold tbase; split_ifs <;> constructor <;> linarith
  obtain ⟨topo, lgs, lts, e, g1, g2, g3, ⟨w, ee, g4, g5, g6, -, g7, -⟩, g8, ⟨n, s, g9, g10, g11, -, g12, -⟩, g14⟩ :=
    topo_grid_window E.topo hf (tbase long - 1) (tbase long + 1) (lat - 1) (lat + 1)
    (by linarith) (by linarith) (by linarith) (by linarith) (Or.inl ⟨by linarith, by linarith⟩)
  have key := window_depth E.interp2 hi E.topo topo lgs lts g1 g2 g3 w ee n s g4 g5 g9 g10 g8 g14 (tbase long) lat g6 g7 h1 h2 g11 g12 hf
  unfold floatDepth
  dsimp only
  rw [e]
  refine ⟨_, rfl, ?_⟩
  unfold tbase at key ⊢
  split_ifs at key ⊢ with h
  · refine depth_turn _ _ _ _ (-1) ?_
    rw [show long + 360 * ((-1 : ℤ) : ℝ) = long - 360 by push_cast; ring]
    exact key
  · exact key

/-- C128. The same for the reference casts: the depth of each is the bilinear depth at its own position. -/
theorem grid_depths_right (E : Env) (hi : IsInterp2d E.interp2) (hf : E.topo.length = 2160 * 4320) (lats longs : List ℝ) (hlen : lats.length = longs.length)
    (hne : lats ≠ []) (hla : ∀ y ∈ lats, -90 ≤ y ∧ y ≤ 90) (hlo : ∀ x ∈ longs, -180 ≤ x ∧ x ≤ 540) :
    ∃ gz, gridDepths E (lats.map some) (longs.map some) = .ok gz ∧ gz.length = lats.length ∧
      ∀ (k : ℕ) (y x z : ℝ), lats[k]? = some y → longs[k]? = some x → gz[k]? = some z → DepthAt E.topo (max y (-1079 / 12)) x z := by
  have hne2 : longs ≠ [] := by
    rintro rfl
    exact hne (List.length_eq_zero_iff.1 hlen)
  have ht : ∀ t ∈ longs.map tbase, -180 ≤ t ∧ t ≤ 180 := by
    intro t ht
    obtain ⟨x, hx, rfl⟩ := List.mem_map.1 ht
    have := hlo x hx
    unfold tbase; split_ifs <;> constructor <;> linarith
  obtain ⟨x0, x1, e1, e2, m1, m2, hx⟩ := min_max_of (longs.map tbase) (by simpa using hne2)
  obtain ⟨y0, y1, e3, e4, m3, m4, hy⟩ := min_max_of lats hne
  have b1 := ht x0 m1
  have b2 := ht x1 m2
  have b3 := hla y0 m3
  have b4 := hla y1 m4
  have o1 := (hx x1 m2).1
  have o2 := (hy y1 m4).1
  obtain ⟨topo, lgs, lts, e, g1, g2, g3, ⟨w, ee, g4, g5, g6, -, g7, -⟩, g8, ⟨n, s, g9, g10, g11, -, g12, -⟩, g14⟩ :=
    topo_grid_window E.topo hf (x0 - 1) (x1 + 1) (y0 - 1) (y1 + 1)
    (by linarith) (by linarith) (by linarith) (by linarith) (Or.inl ⟨by linarith, by linarith⟩)
  refine ⟨((longs.map tbase).zip lats).map fun p => -(E.interp2 lgs lts topo p.1 p.2), ?_, by simp [hlen], ?_⟩
  · unfold gridDepths
    rw [mapM_id_some, mapM_id_some]
    dsimp only
    rw [e1, e2, e3, e4]
    dsimp only
    rw [e]
    rfl
  · intro k y x z hk1 hk2 hk3
    have hz : ((longs.map tbase).zip lats)[k]? = some (tbase x, y) :=
      List.getElem?_zip_eq_some.2 ⟨by rw [List.getElem?_map, hk2]; rfl, hk1⟩
    rw [List.getElem?_map, hz] at hk3
    obtain rfl := Option.some.inj hk3
    have hxm := hx (tbase x) (List.mem_map.2 ⟨x, List.mem_of_getElem? hk2, rfl⟩)
    have hym := hy y (List.mem_of_getElem? hk1)
    have hyb := hla y (List.mem_of_getElem? hk1)
    have key := window_depth E.interp2 hi E.topo topo lgs lts g1 g2 g3 w ee n s g4 g5 g9 g10 g8 g14 (tbase x) y (by linarith) (by linarith) hyb.1 hyb.2
      (le_trans (min_le_min_right _ (by linarith)) g11) (le_trans g12 (max_le_max_right _ (by linarith))) hf
    dsimp only
    unfold tbase at key ⊢
    split_ifs at key ⊢ with h
    · refine depth_turn _ _ _ _ (-1) ?_
      rw [show x + 360 * ((-1 : ℤ) : ℝ) = x - 360 by push_cast; ring]
      exact key
    · exact key

/-- C128. The same for the depths that the calibration uses (`calc_piecewisefit`). -/
theorem calibration_depth_right (topo : List ℤ) (hf : topo.length = 2160 * 4320) (interp2 : List ℝ → List ℝ → List (List ℤ) → ℝ → ℝ → ℝ)
    (hi : IsInterp2d interp2) (hist : ℕ) (hh : 0 < hist) (long lat : List ℝ) (hne : long ≠ []) (hlen : long.length = lat.length)
    (hlat : ∀ y ∈ lat, -90 ≤ y ∧ y ≤ 90)
    (hlong : (∀ x ∈ long, -180 ≤ x ∧ x ≤ 180) ∨ ((∃ x ∈ long, 180 < x) ∧ ∀ x ∈ long, 1 ≤ x ∧ x ≤ 360)) :
    ∃ cs : List Verif.Stats.Coord, Verif.Piecewise.coordFloat topo interp2 hist long lat = .ok (some cs) ∧ cs.length = long.length ∧
      ∀ (k : ℕ) (x y : ℝ), long[k]? = some x → lat[k]? = some y →
        ∃ z, cs[k]? = some ⟨x, y, z⟩ ∧ DepthAt topo (max y (-1079 / 12)) x z := by
  set d : ℝ := if long.any (fun x => decide (x > 180)) then 360 else 0 with hd
  have hlong1 : (if long.any (fun x => decide (x > 180)) then long.map fun x => x - 360 else long) = long.map fun x => x - d := by
    rw [hd]
    split_ifs with h
    · rfl
    · simp
  have hd' : d = 0 ∨ d = 360 := by rw [hd]; split_ifs <;> simp
  have hbound : ∀ x ∈ long, -359 ≤ x - d ∧ x - d ≤ 180 := by
    rcases hlong with hl | ⟨⟨x0, hx0, hgt⟩, hl⟩
    · have : long.any (fun x => decide (x > 180)) = false := by
        rw [List.any_eq_false]
        intro x hx
        have := (hl x hx).2
        simp; exact this
      rw [hd, this]
      intro x hx
      have := hl x hx
      simp only [Bool.false_eq_true, if_false]
      constructor <;> linarith
    · have : long.any (fun x => decide (x > 180)) = true := by
        rw [List.any_eq_true]
        exact ⟨x0, hx0, by simpa using hgt⟩
      rw [hd, this]
      intro x hx
      have := hl x hx
      simp only [if_true]
      constructor <;> linarith
  have hlatne : lat ≠ [] := by
    intro h; rw [h] at hlen
    exact hne (List.length_eq_zero_iff.1 hlen)
  obtain ⟨x0, x1, hx0, hx1, mx0, mx1, hx⟩ := min_max_of (long.map fun x => x - d) (by simpa using hne)
  obtain ⟨y0, y1, hy0, hy1, my0, my1, hy⟩ := min_max_of lat hlatne
  obtain ⟨u0, hu0, rfl⟩ := List.mem_map.1 mx0
  obtain ⟨u1, hu1, rfl⟩ := List.mem_map.1 mx1
  have b0 := hbound u0 hu0
  have b1 := hbound u1 hu1
  have b2 := hlat y0 my0
  have b3 := hlat y1 my1
  have hxx := (hx _ mx1).1
  have hyy := (hy _ my1).1
  obtain ⟨grid, lgs, lts, hg, g1, g2, hel, ⟨w, e, hw, he, hw1, -, he1, -⟩, g8, ⟨n, s, hn, hs, hn1, -, hs1, -⟩, g14⟩ :=
    topo_grid_window topo hf (u0 - d - 1) (u1 - d + 1) (y0 - 1) (y1 + 1) (by linarith) (by linarith) (by linarith) (by linarith)
      (Or.inl ⟨by linarith, by linarith⟩)
  refine ⟨(long.zip (lat.zip (((long.map fun x => x - d).zip lat).map fun p => -(interp2 lgs lts grid p.1 p.2)))).map fun p => ⟨p.1, p.2.1, p.2.2⟩,
    ?_, by simp [hlen], ?_⟩
  · unfold Verif.Piecewise.coordFloat
    rw [if_pos hh]
    simp only [hlong1]
    rw [hx0, hx1, hy0, hy1]
    simp only [hg]
    rfl
  · intro k x y hk1 hk2
    have hz : ((long.map fun x => x - d).zip lat)[k]? = some (x - d, y) :=
      List.getElem?_zip_eq_some.2 ⟨by rw [List.getElem?_map, hk1]; rfl, hk2⟩
    have hxm := hx (x - d) (List.mem_map.2 ⟨x, List.mem_of_getElem? hk1, rfl⟩)
    have hym := hy y (List.mem_of_getElem? hk2)
    have hyb := hlat y (List.mem_of_getElem? hk2)
    refine ⟨-(interp2 lgs lts grid (x - d) y), zip_coords _ _ _ _ _ _ _ hk1 hk2 (by rw [List.getElem?_map, hz]; rfl), ?_⟩
    have key := window_depth interp2 hi topo grid lgs lts g1 g2 hel w e n s hw he hn hs g8 g14 (x - d) y (by linarith) (by linarith) hyb.1 hyb.2
      (le_trans (min_le_min_right _ (by linarith)) hn1) (le_trans hs1 (max_le_max_right _ (by linarith))) hf
    rcases hd' with h | h
    · rw [h, sub_zero] at key ⊢; exact key
    · refine depth_turn _ _ _ _ (-1) ?_
      rw [show x + 360 * ((-1 : ℤ) : ℝ) = x - d by rw [h]; push_cast; ring]
      exact key

/-- C128. The depth of the file at a position is one number, and is the same for longitudes that differ by whole turns. -/
theorem depth_well_defined (file : List ℤ) (lat lon lon' d d' : ℝ) (n : ℤ) (hn : lon' = lon + 360 * n) (h : DepthAt file lat lon d)
    (h' : DepthAt file lat lon' d') : d = d' :=
  depth_unique file lat lon d d' h (depth_turn file lat lon d' n (hn ▸ h'))

end Verif.Props
