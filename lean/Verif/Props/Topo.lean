import Verif.Lemmas.Topo
import Verif.Spec.Topo
import Mathlib.Data.Rat.Floor

/-!
# C42: `get_topo_grid` returns the requested window of the bathymetry
-/

set_option linter.unusedSectionVars false

namespace Verif.Props

open Verif.Np Verif.Topo

variable {K : Type} [Field K] [LinearOrder K] [IsStrictOrderedRing K] [FloorRing K]

/-- The columns after the shift lie in the file, the second copy of Greenwich included. -/
private theorem shiftCols_spec (L R : ℤ) (hLR : L ≤ R)
    (h : (-4320 ≤ L ∧ R ≤ 4319) ∨ (0 ≤ L ∧ R ≤ 8639)) :
    ∃ k : ℤ, shiftCols L R = (L + 4320 * k, R + 4320 * k) ∧ 0 ≤ L + 4320 * k ∧ L + 4320 * k ≤ 4319 ∧
      R + 4320 * k ≤ 8639 := by
  unfold shiftCols
  by_cases h1 : R > 360 * 12 - 1
  · by_cases h2 : L - 360 * 12 < 0
    · refine ⟨0, ?_, ?_, ?_, ?_⟩
      · simp only [h1, if_true, h2]; simp
      all_goals omega
    · refine ⟨-1, ?_, ?_, ?_, ?_⟩
      · simp only [h1, if_true, h2, if_false, Prod.mk.injEq]; omega
      all_goals omega
  · by_cases h2 : L < 0
    · refine ⟨1, ?_, ?_, ?_, ?_⟩
      · simp only [h1, if_false, h2, if_true, Prod.mk.injEq]; omega
      all_goals omega
    · refine ⟨0, ?_, ?_, ?_, ?_⟩
      · simp only [h1, if_false, h2, Prod.mk.injEq]; omega
      all_goals omega

/-- The rows of the window, with integer limits. -/
private theorem topo_rows (file : List ℤ) (hf : file.length = 2160 * 4320) (B T L R : ℤ)
    (hBT : B ≤ T) (hB : -1079 ≤ B) (hT : T ≤ 1080) (hLR : L ≤ R)
    (h : (-4320 ≤ L ∧ R ≤ 4319) ∨ (0 ≤ L ∧ R ≤ 8639)) :
    ∃ topo, (if (shiftCols L R).2 > 4319 then do
        let topoEnd ← readRows file ((90 * 12 - B) - (90 * 12 - T) + 1) (90 * 12 - T) 0
          ((shiftCols L R).2 - 4320 + 1)
        let topoBeg ← readRows file ((90 * 12 - B) - (90 * 12 - T) + 1) (90 * 12 - T) (shiftCols L R).1
          (4320 - (shiftCols L R).1)
        pure (List.zipWith (· ++ ·) topoBeg topoEnd)
      else readRows file ((90 * 12 - B) - (90 * 12 - T) + 1) (90 * 12 - T) (shiftCols L R).1
        ((shiftCols L R).2 - (shiftCols L R).1 + 1)) = .ok topo ∧
      (topo.length : ℤ) = T - B + 1 ∧
      ∀ i : ℕ, (i : ℤ) < T - B + 1 → ∃ row, topo[i]? = some row ∧ (row.length : ℤ) = R - L + 1 ∧
        ∀ j : ℕ, (j : ℤ) < R - L + 1 → ∃ (col : ℕ) (turns : ℤ), (col : ℤ) = L + j + 4320 * turns ∧
          col < 4320 ∧ row[j]? = file[4320 * (i + (1080 - T).toNat) + col]? := by
  obtain ⟨k, hk, h0, h1, h2⟩ := shiftCols_spec L R hLR h
  rw [hk]
  dsimp only
  by_cases hw : R + 4320 * k > 4319
  · rw [if_pos hw]
    obtain ⟨e, he, hel, heg⟩ := readRows_ok file hf ((90 * 12 - B) - (90 * 12 - T) + 1) (90 * 12 - T) 0
      (R + 4320 * k - 4320 + 1) (by omega) (by omega) (by omega) (by omega) (by omega) (by omega)
    obtain ⟨b, hb, hbl, hbg⟩ := readRows_ok file hf ((90 * 12 - B) - (90 * 12 - T) + 1) (90 * 12 - T)
      (L + 4320 * k) (4320 - (L + 4320 * k)) (by omega) (by omega) (by omega) (by omega) (by omega)
      (by omega)
    rw [he, hb]
    refine ⟨List.zipWith (· ++ ·) b e, rfl, ?_, ?_⟩
    · rw [List.length_zipWith]; omega
    · intro i hi
      obtain ⟨re, hre, hrel, hreg⟩ := heg i (by omega)
      obtain ⟨rb, hrb, hrbl, hrbg⟩ := hbg i (by omega)
      refine ⟨rb ++ re, by rw [List.getElem?_zipWith, hrb, hre], by rw [List.length_append]; omega, ?_⟩
      intro j hj
      by_cases hjb : j < rb.length
      · refine ⟨(L + 4320 * k).toNat + j, k, by omega, by omega, ?_⟩
        rw [List.getElem?_append_left hjb, hrbg j (by omega)]
        congr 1
      · refine ⟨j - rb.length, k - 1, by omega, by omega, ?_⟩
        rw [List.getElem?_append_right (by omega), hreg (j - rb.length) (by omega)]
        congr 1
        omega
  · rw [if_neg hw]
    obtain ⟨t, ht, htl, htg⟩ := readRows_ok file hf ((90 * 12 - B) - (90 * 12 - T) + 1) (90 * 12 - T)
      (L + 4320 * k) (R + 4320 * k - (L + 4320 * k) + 1) (by omega) (by omega) (by omega) (by omega)
      (by omega) (by omega)
    refine ⟨t, ht, by omega, ?_⟩
    intro i hi
    obtain ⟨r, hr, hrl, hrg⟩ := htg i (by omega)
    refine ⟨r, hr, by omega, ?_⟩
    intro j hj
    refine ⟨(L + 4320 * k).toNat + j, k, by omega, by omega, ?_⟩
    rw [hrg j (by omega)]
    congr 1

/-- C42. For every window between 360W and 360E (or between 0 and just under 720E) the call succeeds. The
elevation at row `i` and column `j` is the file's elevation at the returned latitude `i` and longitude
`j`. The returned longitudes and latitudes are 5 minutes apart and reach the requested limits, the
latter clipped to the poles. -/
theorem topo_grid_window (file : List ℤ) (hf : file.length = 2160 * 4320)
    (minLong maxLong minLat maxLat : K) (hlong : minLong ≤ maxLong) (hlat : minLat ≤ maxLat)
    (hn : minLat ≤ 90) (hs : -1079 / 12 ≤ maxLat)
    (hr : (-360 ≤ minLong ∧ maxLong ≤ 4319 / 12) ∨ (0 ≤ minLong ∧ maxLong ≤ 8639 / 12)) :
    ∃ (topo : List (List ℤ)) (lgs lts : List K),
      topoGrid file minLong maxLong minLat maxLat = .ok (topo, lgs, lts) ∧
      topo.length = lts.length ∧ (∀ row ∈ topo, row.length = lgs.length) ∧
      (∀ (i j : ℕ) (row : List ℤ) (z : ℤ) (lat lon : K), topo[i]? = some row → row[j]? = some z →
        lts[i]? = some lat → lgs[j]? = some lon → ElevationAt file lat lon z) ∧
      (∃ w e, lgs.head? = some w ∧ lgs.getLast? = some e ∧ w ≤ minLong ∧ minLong < w + 1 / 12 ∧
        maxLong ≤ e ∧ e < maxLong + 1 / 12) ∧
      (∀ (j : ℕ) (a b : K), lgs[j]? = some a → lgs[j + 1]? = some b → b = a + 1 / 12) ∧
      (∃ n s, lts.head? = some n ∧ lts.getLast? = some s ∧ min maxLat 90 ≤ n ∧
        n < min maxLat 90 + 1 / 12 ∧ s ≤ max minLat (-1079 / 12) ∧ max minLat (-1079 / 12) < s + 1 / 12) ∧
      (∀ (i : ℕ) (a b : K), lts[i]? = some a → lts[i + 1]? = some b → b = a - 1 / 12) := by
  -- the integer limits
  obtain ⟨B, T, hBdef, hTdef, hBT, hB1, hT1, hTlo, hThi, hBlo, hBhi⟩ :
      ∃ B T : ℤ, B = max ⌊(clipLat minLat maxLat).1 * 12⌋ (-90 * 12 + 1) ∧
        T = ⌈(clipLat minLat maxLat).2 * 12⌉ ∧ B ≤ T ∧ -1079 ≤ B ∧ T ≤ 1080 ∧
        min maxLat 90 * 12 ≤ T ∧ (T : K) < min maxLat 90 * 12 + 1 ∧
        (B : K) ≤ max minLat (-1079 / 12) * 12 ∧ max minLat (-1079 / 12) * 12 < B + 1 := by
    refine ⟨_, _, rfl, rfl, ?_⟩
    have hT : (clipLat minLat maxLat).2 = min maxLat 90 := by
      unfold clipLat
      by_cases h : maxLat > 90
      · simp [h, min_eq_right h.le]
      · rw [if_neg h, min_eq_left (not_lt.mp h)]
        split <;> rfl
    have hB : max ⌊(clipLat minLat maxLat).1 * 12⌋ (-90 * 12 + 1) =
        max ⌊minLat * 12⌋ (-1079) := by
      unfold clipLat
      by_cases h : maxLat > 90
      · simp [h]
      · rw [if_neg h]
        by_cases h2 : minLat < -90
        · rw [if_pos h2]
          have e1 : ⌊(-90 : K) * 12⌋ = -1080 := by
            rw [show (-90 : K) * 12 = ((-1080 : ℤ) : K) by norm_num, Int.floor_intCast]
          have e2 : ⌊minLat * 12⌋ ≤ -1080 := by
            rw [← e1]; exact Int.floor_mono (by linarith)
          rw [e1]; omega
        · rw [if_neg h2]; norm_num
    rw [hT, hB]
    have hm : minLat ≤ min maxLat 90 := le_min hlat hn
    have hm2 : -1079 / 12 ≤ min maxLat 90 := le_min hs (by norm_num)
    have c1 := Int.le_ceil (min maxLat 90 * 12)
    have c2 := Int.ceil_lt_add_one (min maxLat 90 * 12)
    have f1 := Int.floor_le (minLat * 12)
    have f2 := Int.lt_floor_add_one (minLat * 12)
    have m90 : min maxLat 90 ≤ 90 := min_le_right _ _
    have hcl : (-1079 : ℤ) ≤ ⌈min maxLat 90 * 12⌉ := by
      have : ((-1079 : ℤ) : K) ≤ (⌈min maxLat 90 * 12⌉ : ℤ) := by push_cast; linarith
      exact_mod_cast this
    have hfl : ⌊minLat * 12⌋ ≤ ⌈min maxLat 90 * 12⌉ := by
      have : ((⌊minLat * 12⌋ : ℤ) : K) ≤ (⌈min maxLat 90 * 12⌉ : ℤ) := by linarith
      exact_mod_cast this
    refine ⟨max_le hfl hcl, le_max_right _ _, ?_, c1, c2, ?_, ?_⟩
    · rw [Int.ceil_le]; push_cast; linarith
    · push_cast
      refine max_le ?_ ?_
      · have := le_max_left minLat (-1079 / 12 : K); linarith
      · have := le_max_right minLat (-1079 / 12 : K); linarith
    · push_cast
      have g1 := le_max_left ((⌊minLat * 12⌋ : ℤ) : K) (-1079)
      have g2 := le_max_right ((⌊minLat * 12⌋ : ℤ) : K) (-1079)
      rcases max_choice minLat (-1079 / 12 : K) with h | h <;> rw [h] <;> linarith
  obtain ⟨L, R, hLdef, hRdef, hLR, hLRr, hL1, hL2, hR1, hR2⟩ :
      ∃ L R : ℤ, L = ⌊minLong * 12⌋ ∧ R = ⌈maxLong * 12⌉ ∧ L ≤ R ∧
        ((-4320 ≤ L ∧ R ≤ 4319) ∨ (0 ≤ L ∧ R ≤ 8639)) ∧ (L : K) ≤ minLong * 12 ∧
        minLong * 12 < L + 1 ∧ maxLong * 12 ≤ R ∧ (R : K) < maxLong * 12 + 1 := by
    refine ⟨_, _, rfl, rfl, ?_, ?_, Int.floor_le _, Int.lt_floor_add_one _, Int.le_ceil _,
      Int.ceil_lt_add_one _⟩
    · have : ((⌊minLong * 12⌋ : ℤ) : K) ≤ (⌈maxLong * 12⌉ : ℤ) := by
        have := Int.floor_le (minLong * 12)
        have := Int.le_ceil (maxLong * 12)
        linarith
      exact_mod_cast this
    · rcases hr with ⟨a, b⟩ | ⟨a, b⟩
      · left
        constructor
        · rw [Int.le_floor]; push_cast; linarith
        · rw [Int.ceil_le]; push_cast; linarith
      · right
        constructor
        · rw [Int.le_floor]; push_cast; linarith
        · rw [Int.ceil_le]; push_cast; linarith
  obtain ⟨topo, htopo, hlen, hrows⟩ := topo_rows file hf B T L R hBT hB1 hT1 hLR hLRr
  have hlg : ∀ j : ℕ, ((arangeIncl L R).map fun (k : ℤ) => (k : K) / 12)[j]? =
      if (j : ℤ) < R + 1 - L then some (((L + j : ℤ) : K) / 12) else none := by
    intro j
    rw [List.getElem?_map, arangeIncl_get]
    split <;> simp
  have hlt : ∀ i : ℕ, (((arangeIncl B T).map fun (k : ℤ) => (k : K) / 12).reverse)[i]? =
      if (i : ℤ) < T + 1 - B then some (((T - i : ℤ) : K) / 12) else none := by
    intro i
    by_cases h : (i : ℤ) < T + 1 - B
    · rw [if_pos h, List.getElem?_reverse (by rw [List.length_map, arangeIncl_len]; omega),
        List.getElem?_map, arangeIncl_get, List.length_map, arangeIncl_len, if_pos (by omega)]
      simp only [Option.map_some, Option.some.injEq]
      congr 2
      omega
    · rw [if_neg h, List.getElem?_eq_none]
      rw [List.length_reverse, List.length_map, arangeIncl_len]; omega
  have hlgl : ((arangeIncl L R).map fun (k : ℤ) => (k : K) / 12).length = (R + 1 - L).toNat := by
    rw [List.length_map, arangeIncl_len]
  have hltl : (((arangeIncl B T).map fun (k : ℤ) => (k : K) / 12).reverse).length = (T + 1 - B).toNat := by
    rw [List.length_reverse, List.length_map, arangeIncl_len]
  have hfun : topoGrid file minLong maxLong minLat maxLat = .ok
      (topo, (arangeIncl L R).map (fun (k : ℤ) => (k : K) / 12),
        ((arangeIncl B T).map fun (k : ℤ) => (k : K) / 12).reverse) := by
    unfold topoGrid
    simp only [← hBdef, ← hTdef, ← hLdef, ← hRdef]
    rw [htopo]
    rfl
  refine ⟨_, _, _, hfun, ?_, ?_, ?_, ?_, ?_, ?_, ?_⟩
  · rw [hltl]; omega
  · intro row hrow
    obtain ⟨i, hi, rfl⟩ := List.mem_iff_getElem.mp hrow
    obtain ⟨row', hr1, hr2, _⟩ := hrows i (by omega)
    rw [List.getElem?_eq_getElem hi] at hr1
    rw [Option.some.inj hr1, hlgl]; omega
  · intro i j row z lat lon hi hj hlat' hlon'
    rw [hlt] at hlat'
    rw [hlg] at hlon'
    by_cases hi' : (i : ℤ) < T + 1 - B
    · by_cases hj' : (j : ℤ) < R + 1 - L
      · rw [if_pos hi'] at hlat'
        rw [if_pos hj'] at hlon'
        obtain ⟨row', hr1, hr2, hr3⟩ := hrows i (by omega)
        rw [hi] at hr1
        obtain rfl := Option.some.inj hr1
        obtain ⟨col, turns, hc1, hc2, hc3⟩ := hr3 j (by omega)
        refine ⟨i + (1080 - T).toNat, col, turns, ?_, ?_, hc2, by rw [← hc3, hj]⟩
        · rw [← Option.some.inj hlat']
          have e : ((i + (1080 - T).toNat : ℕ) : ℤ) = 1080 - (T - i) := by omega
          have e' : (((i + (1080 - T).toNat : ℕ) : ℤ) : K) = ((1080 - (T - i) : ℤ) : K) := by rw [e]
          rw [Int.cast_natCast] at e'
          rw [e']
          push_cast
          ring
        · rw [← Option.some.inj hlon']
          have e' : ((col : ℤ) : K) = ((L + j + 4320 * turns : ℤ) : K) := by rw [hc1]
          rw [Int.cast_natCast] at e'
          rw [e']
          push_cast
          ring
      · rw [if_neg hj'] at hlon'; cases hlon'
    · rw [if_neg hi'] at hlat'; cases hlat'
  · refine ⟨(L : K) / 12, (R : K) / 12, ?_, ?_, ?_, ?_, ?_, ?_⟩
    · rw [List.head?_eq_getElem?, hlg, if_pos (by omega)]; simp
    · rw [List.getLast?_eq_getElem?, hlg, hlgl, if_pos (by omega)]
      simp only [Option.some.injEq]
      congr 2
      omega
    all_goals linarith
  · intro j a b ha hb
    rw [hlg] at ha hb
    split at ha
    · split at hb
      · rw [← Option.some.inj ha, ← Option.some.inj hb]; push_cast; ring
      · cases hb
    · cases ha
  · refine ⟨(T : K) / 12, (B : K) / 12, ?_, ?_, ?_, ?_, ?_, ?_⟩
    · rw [List.head?_eq_getElem?, hlt, if_pos (by omega)]; simp
    · rw [List.getLast?_eq_getElem?, hlt, hltl, if_pos (by omega)]
      simp only [Option.some.injEq]
      congr 2
      omega
    all_goals linarith
  · intro j a b ha hb
    rw [hlt] at ha hb
    split at ha
    · split at hb
      · rw [← Option.some.inj ha, ← Option.some.inj hb]; push_cast; ring
      · cases hb
    · cases ha

/-- C42. The windows the mapping asks for, one degree around positions between 180W and 180E, are covered by
`topo_grid_window`, the ones across Greenwich and the date line included. -/
example (lon lat : K) (h1 : -180 ≤ lon) (h2 : lon ≤ 180) (h3 : -90 ≤ lat) (h4 : lat ≤ 90) :
    lon - 1 ≤ lon + 1 ∧ lat - 1 ≤ lat + 1 ∧ lat - 1 ≤ 90 ∧ -1079 / 12 ≤ lat + 1 ∧
      ((-360 ≤ lon - 1 ∧ lon + 1 ≤ 4319 / 12) ∨ (0 ≤ lon - 1 ∧ lon + 1 ≤ 8639 / 12)) := by
  refine ⟨by linarith, by linarith, by linarith, by linarith, Or.inl ⟨by linarith, by linarith⟩⟩

/-- C42, the limit of the guarantee: a window reaching from west of Greenwich to 360E is not shifted into
the file, and at the north pole the call fails. -/
theorem topo_grid_full_circle_fails (file : List ℤ) (hf : file.length = 2160 * 4320) :
    topoGrid file (-1 : ℚ) 360 89 90 = .error .osError := by
  have e1 : ⌊(89 : ℚ) * 12⌋ = 1068 := by rw [show (89 : ℚ) * 12 = ((1068 : ℤ) : ℚ) by norm_num, Int.floor_intCast]
  have e2 : ⌈(90 : ℚ) * 12⌉ = 1080 := by rw [show (90 : ℚ) * 12 = ((1080 : ℤ) : ℚ) by norm_num, Int.ceil_intCast]
  have e3 : ⌊(-1 : ℚ) * 12⌋ = -12 := by rw [show (-1 : ℚ) * 12 = ((-12 : ℤ) : ℚ) by norm_num, Int.floor_intCast]
  have e4 : ⌈(360 : ℚ) * 12⌉ = 4320 := by rw [show (360 : ℚ) * 12 = ((4320 : ℤ) : ℚ) by norm_num, Int.ceil_intCast]
  have c : clipLat (89 : ℚ) 90 = (89, 90) := by norm_num [clipLat]
  obtain ⟨e, he, _⟩ := readRows_ok file hf 13 0 0 1 (by norm_num) (by norm_num) (by norm_num) (by norm_num)
    (by norm_num) (by norm_num)
  have hb : readRows file 13 0 (-12) 4332 = .error .osError := by
    have : List.range (13 : ℤ).toNat = 0 :: (List.range 12).map (· + 1) := by decide
    unfold readRows zeros
    rw [if_neg (by norm_num), this, List.mapM_cons]
    rfl
  unfold topoGrid
  simp only [c, e1, e2, e3, e4]
  have s : shiftCols (-12) 4320 = (-12, 4320) := by decide
  rw [s]
  norm_num
  rw [he, hb]
  rfl

private theorem readRows_negative (file : List ℤ) (nlat top col n : ℤ) (h : nlat < 0 ∨ n < 0) : readRows file nlat top col n = .error .valueError := by
  unfold readRows zeros
  rw [if_pos h]
  rfl

/-- C42. Limits given in the wrong order: a `ValueError`, whatever the file holds. -/
theorem topo_grid_swapped (file : List ℤ) (minLong maxLong minLat maxLat : K)
    (h : maxLat + 1 / 4 ≤ minLat ∨ (maxLong + 1 / 4 ≤ minLong ∧ maxLong ≤ 8639 / 12)) : topoGrid file minLong maxLong minLat maxLat = .error .valueError := by
  unfold topoGrid
  rcases hc : clipLat minLat maxLat with ⟨lo, hi⟩
  dsimp only
  rcases h with h | ⟨h, hm⟩
  · have hn : (90 * 12 - max ⌊lo * 12⌋ (-90 * 12 + 1)) - (90 * 12 - ⌈hi * 12⌉) + 1 < 0 := by
      have h1 : hi + 1 / 4 ≤ lo ∨ hi + 1 / 4 ≤ -90 := by
        unfold clipLat at hc
        split_ifs at hc with g1 g2 <;> obtain ⟨rfl, rfl⟩ := Prod.mk.inj hc
        · left; linarith
        · right; linarith
        · left; exact h
      have h2 : (⌈hi * 12⌉ : K) < hi * 12 + 1 := Int.ceil_lt_add_one _
      have h3 : lo * 12 - 1 < (⌊lo * 12⌋ : K) := Int.sub_one_lt_floor _
      rcases h1 with h1 | h1
      · have : (⌈hi * 12⌉ : K) + 1 < (⌊lo * 12⌋ : K) := by linarith
        have : ⌈hi * 12⌉ + 1 < ⌊lo * 12⌋ := by exact_mod_cast this
        have := le_max_left ⌊lo * 12⌋ (-90 * 12 + 1)
        omega
      · have : (⌈hi * 12⌉ : K) < ((-1080 : ℤ) : K) := by push_cast; linarith
        have : ⌈hi * 12⌉ < -1080 := by exact_mod_cast this
        have := le_max_right ⌊lo * 12⌋ (-90 * 12 + 1)
        omega
    rcases hs : shiftCols ⌊minLong * 12⌋ ⌈maxLong * 12⌉ with ⟨l, r⟩
    dsimp only
    by_cases hr : r > 4319
    · rw [if_pos hr, readRows_negative file _ _ _ _ (Or.inl hn)]
      rfl
    · rw [if_neg hr, readRows_negative file _ _ _ _ (Or.inl hn)]
      rfl
  · have hn : ⌈maxLong * 12⌉ + 1 < ⌊minLong * 12⌋ := by
      have h2 : (⌈maxLong * 12⌉ : K) < maxLong * 12 + 1 := Int.ceil_lt_add_one _
      have h3 : minLong * 12 - 1 < (⌊minLong * 12⌋ : K) := Int.sub_one_lt_floor _
      have : (⌈maxLong * 12⌉ : K) + 1 < (⌊minLong * 12⌋ : K) := by linarith
      exact_mod_cast this
    have hr : ⌈maxLong * 12⌉ ≤ 8639 := Int.ceil_le.2 (by push_cast; linarith)
    have hs : ∃ k : ℤ, shiftCols ⌊minLong * 12⌋ ⌈maxLong * 12⌉ = (⌊minLong * 12⌋ + 4320 * k, ⌈maxLong * 12⌉ + 4320 * k) ∧ ⌈maxLong * 12⌉ + 4320 * k ≤ 4319 := by
      generalize ⌊minLong * 12⌋ = l at *
      generalize ⌈maxLong * 12⌉ = r at *
      unfold shiftCols
      by_cases g1 : r > 360 * 12 - 1
      · refine ⟨-1, ?_, by omega⟩
        rw [if_pos g1]
        dsimp only
        rw [if_neg (by omega)]
        ext <;> dsimp only <;> omega
      · rw [if_neg g1]
        dsimp only
        by_cases g2 : l < 0
        · refine ⟨1, ?_, by omega⟩
          rw [if_pos g2]
          rfl
        · refine ⟨0, ?_, by omega⟩
          rw [if_neg g2]
          ext <;> dsimp only <;> omega
    obtain ⟨k, hs, hk⟩ := hs
    rw [hs]
    dsimp only
    rw [if_neg (by omega), readRows_negative file _ _ _ _ (Or.inr (by omega))]
    rfl

/-- Latitudes exchanged, and longitudes exchanged. -/
example : topoGrid ([] : List ℤ) (10 : ℚ) 20 (-40) (-50) = .error .valueError ∧ topoGrid ([] : List ℤ) (20 : ℚ) 10 (-50) (-40) = .error .valueError :=
  ⟨topo_grid_swapped _ _ _ _ _ (Or.inl (by norm_num)), topo_grid_swapped _ _ _ _ _ (Or.inr ⟨by norm_num, by norm_num⟩)⟩

end Verif.Props
