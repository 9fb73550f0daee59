import Verif.Props.SelectedRun
import Verif.Props.SixCastsExample

/-!
# The selected historical points are casts in reach (C183)
-/

set_option linter.unusedSectionVars false

namespace Verif.Props

open Verif.Np Verif.Helper Verif.Region Verif.Profile Verif.Update Verif.Spec Verif.Spec.Profile Verif.Level Verif.Finders
open Verif.Lemmas.Profile Verif.Utilities Verif.Saf Verif.Topo

private theorem peelOk' {α β : Type} {x : Except PyErr α} {f : α → Except PyErr β} {b : β} (h : x >>= f = .ok b) :
    ∃ a, x = .ok a ∧ f a = .ok b := by
  cases x with
  | error e => cases h
  | ok a => exact ⟨a, rfl, h⟩

/-- What stands at a position of `a[idx]`. -/
theorem gather_at {α : Type} (l : List α) (idx : List ℕ) (r : List α) (h : gather l idx = .ok r) :
    r.length = idx.length ∧ ∀ (j : ℕ) (x : α), r[j]? = some x → ∃ i, idx[j]? = some i ∧ l[i]? = some x := by
  induction idx generalizing r with
  | nil => cases h; simp
  | cons a idx ih =>
    unfold gather at h
    rw [List.mapM_cons] at h
    obtain ⟨v, hv, h⟩ := peelOk' h
    obtain ⟨vs, hvs, h⟩ := peelOk' h
    cases h
    obtain ⟨i1, i2⟩ := ih vs hvs
    refine ⟨by simp [i1], ?_⟩
    intro j x hx
    cases j with
    | zero =>
      simp only [List.getElem?_cons_zero, Option.some.injEq] at hx
      subst hx
      refine ⟨a, rfl, ?_⟩
      cases hl : l[a]? with
      | none => rw [hl] at hv; cases hv
      | some w => rw [hl] at hv; cases hv; rfl
    | succ j => exact i2 j x hx

private theorem filterMap_at {α : Type} (l : List α) (L : List ℕ) (hL : ∀ i ∈ L, i < l.length) (j : ℕ) (x : α)
    (h : (L.filterMap fun i => l[i]?)[j]? = some x) : ∃ i, L[j]? = some i ∧ l[i]? = some x := by
  induction L generalizing j with
  | nil => simp at h
  | cons a L ih =>
    rw [List.filterMap_cons, List.getElem?_eq_getElem (hL a List.mem_cons_self)] at h
    cases j with
    | zero =>
      refine ⟨a, rfl, ?_⟩
      rw [List.getElem?_eq_getElem (hL a List.mem_cons_self)]
      simpa using h
    | succ j => exact ih (fun i hi => hL i (List.mem_cons_of_mem _ hi)) j (by simpa using h)

/-- What stands at a position of `np.delete(a, idx)`. -/
theorem npDelete_at {α : Type} (l r : List α) (idx : List ℕ) (h : npDelete l idx = .ok r) (j : ℕ) (x : α) (hx : r[j]? = some x) :
    ∃ i, ((List.range l.length).filter fun i => decide (i ∉ idx))[j]? = some i ∧ l[i]? = some x := by
  unfold npDelete at h
  split at h
  · cases h
    exact filterMap_at l _ (fun i hi => List.mem_range.1 (List.mem_filter.1 hi).1) j x hx
  · cases h

/-- The casts left after the outliers are removed were there before. -/
theorem removeOutliers_at (out : List ℕ) (h h' : HistData ℝ) (hl : h.long.length = h.lat.length) (hr : removeOutliers out h = .ok h') (j : ℕ) (x y : ℝ)
    (hx : h'.long[j]? = some x) (hy : h'.lat[j]? = some y) : ∃ i : ℕ, h.long[i]? = some x ∧ h.lat[i]? = some y := by
  unfold removeOutliers at hr
  split at hr
  · obtain ⟨_, -, hr⟩ := peelOk' hr
    obtain ⟨_, -, hr⟩ := peelOk' hr
    obtain ⟨lo, hlo, hr⟩ := peelOk' hr
    obtain ⟨la, hla, hr⟩ := peelOk' hr
    obtain ⟨_, -, hr⟩ := peelOk' hr
    obtain ⟨_, -, hr⟩ := peelOk' hr
    cases hr
    obtain ⟨i, a1, a2⟩ := npDelete_at _ _ _ hlo j x hx
    obtain ⟨i', b1, b2⟩ := npDelete_at _ _ _ hla j y hy
    rw [← hl, a1] at b1
    cases b1
    exact ⟨i, a2, b2⟩
  · cases hr
    exact ⟨j, hx, hy⟩

/-- The casts of a level are among those of the profile. -/
theorem profileHist_at (g : GridData ℝ) (fp : List (Option ℝ)) (is ip : List (List (Option ℝ))) (n : ℕ) (delta : ℝ) (h : HistData ℝ)
    (hh : processProfileHist g fp is ip n delta = .ok h) : h.long.length = h.lat.length ∧ ∀ (j : ℕ) (x y : ℝ), h.long[j]? = some x → h.lat[j]? = some y →
      ∃ k : ℕ, g.long[k]? = some x ∧ g.lat[k]? = some y := by
  unfold processProfileHist at hh
  obtain ⟨row, -, hh⟩ := peelOk' hh
  obtain ⟨_, -, hh⟩ := peelOk' hh
  obtain ⟨_, -, hh⟩ := peelOk' hh
  obtain ⟨lo, hlo, hh⟩ := peelOk' hh
  obtain ⟨la, hla, hh⟩ := peelOk' hh
  obtain ⟨_, -, hh⟩ := peelOk' hh
  obtain ⟨_, -, hh⟩ := peelOk' hh
  obtain ⟨_, -, hh⟩ := peelOk' hh
  obtain ⟨_, -, hh⟩ := peelOk' hh
  obtain ⟨lo', hlo', hh⟩ := peelOk' hh
  obtain ⟨la', hla', hh⟩ := peelOk' hh
  obtain ⟨_, -, hh⟩ := peelOk' hh
  obtain ⟨_, -, hh⟩ := peelOk' hh
  cases hh
  obtain ⟨e1, a1⟩ := gather_at _ _ _ hlo
  obtain ⟨e2, a2⟩ := gather_at _ _ _ hla
  obtain ⟨e3, a3⟩ := gather_at _ _ _ hlo'
  obtain ⟨e4, a4⟩ := gather_at _ _ _ hla'
  refine ⟨by dsimp only; rw [e3, e4], ?_⟩
  intro j x y hx hy
  obtain ⟨i, b1, b2⟩ := a3 j x hx
  obtain ⟨i', b3, b4⟩ := a4 j y hy
  rw [b1] at b3
  cases b3
  obtain ⟨k, c1, c2⟩ := a1 i x b2
  obtain ⟨k', c3, c4⟩ := a2 i y b4
  rw [c1] at c3
  cases c3
  exact ⟨k, c2, c4⟩

/-- The casts used for a level are among those of the profile. -/
theorem levelOf_at (E : Env) (f : FloatProfile) (p : Prepared) (n : ℕ) (o : LevelOut ℝ) (h : levelOf E f p n = .ok (some o)) (j : ℕ) (x y : ℝ)
    (hx : o.points.long[j]? = some x) (hy : o.points.lat[j]? = some y) : ∃ k : ℕ, p.grid.long[k]? = some x ∧ p.grid.lat[k]? = some y := by
  unfold levelOf at h
  obtain ⟨q, hm, h⟩ := peelOk' h
  cases q with
  | none => cases h
  | some q =>
    obtain ⟨h', r⟩ := q
    obtain ⟨t, -, h⟩ := peelOk' h
    cases h
    dsimp only at hx hy
    unfold mapLevel at hm
    obtain ⟨s, -, hm⟩ := peelOk' hm
    obtain ⟨pr, -, hm⟩ := peelOk' hm
    cases s with
    | none => cases hm
    | some s =>
      cases pr with
      | none => cases hm
      | some pv =>
        dsimp only at hm
        split at hm
        · obtain ⟨hh, hpp, hm⟩ := peelOk' hm
          split at hm
          · obtain ⟨c, hc, hm⟩ := peelOk' hm
            cases hm
            obtain ⟨l1, l2⟩ := profileHist_at _ _ _ _ _ _ _ hpp
            unfold mapCasts at hc
            obtain ⟨_, -, hc⟩ := peelOk' hc
            obtain ⟨h2, hr, hc⟩ := peelOk' hc
            obtain ⟨nv, -, hc⟩ := peelOk' hc
            obtain ⟨_, -, hc⟩ := peelOk' hc
            obtain ⟨_, -, hc⟩ := peelOk' hc
            split at hc
            · cases nv with
              | none => cases hc
              | some v =>
                obtain ⟨_, -, hc⟩ := peelOk' hc
                cases hc
                obtain ⟨i, i1, i2⟩ := removeOutliers_at _ _ _ l1 hr j x y hx hy
                exact l2 i x y i1 i2
            · cases hc
          · cases hm
        · cases hm

/-- The casts of a profile are casts in reach, with their longitude changed by whole turns at most. -/
theorem prepared_in_reach (E : Env) (hi : IsInterp2d E.interp2) (hf : E.topo.length = 2160 * 4320) (hw : WellFormedDisk E.disk)
    (hsort : IsArgsort E.argsort) (hrand : ValidRand E.rand) (hcfg : ProperConfig E.cfg) (hmax : 1 ≤ E.maxCasts)
    (f : FloatProfile) (lat long : ℝ) (hlat : -90 ≤ lat ∧ lat ≤ 90) (hlong : -180 ≤ long ∧ long ≤ 540)
    (hl1 : f.ptmp.length = f.sal.length) (hl2 : f.pres.length = f.sal.length)
    (hpos : ∀ c ∈ surrounding E long lat, ∀ y x : ℝ, c.lat = some y → c.long = some x → (-90 ≤ y ∧ y ≤ 90) ∧ -180 ≤ x ∧ x ≤ 360)
    (p : Prepared) (hpr : prepare E f lat long = .ok p) (k : ℕ) (x y : ℝ) (hx : p.grid.long[k]? = some x) (hy : p.grid.lat[k]? = some y) :
    ∃ c ∈ surrounding E long lat, Near E.cfg lat long (surrounding E long lat) c ∧ c.lat = some y ∧ ∃ (x' : ℝ) (m : ℤ), c.long = some x' ∧ x = x' + 360 * m := by
  obtain ⟨index, z, zs, d, bz, b, S, P, hF, hb, g1, g2, g3, g4, g5⟩ := prepared_found E hi hf hw f lat long p hpr _ rfl hpos
  have hle := keptNumbers_le (pressureLimit f.pres E.cfg.pDelta) index (surrounding E long lat)
  obtain ⟨sel, hsel, hcol, hz1, hz2, hz3⟩ := applySaf_selects E _ hF.columns bz (by rw [hF.zlen]; exact hle) b hb
  have hsl : sel.length ≤ index.length := by
    have : sel.length ≤ (List.range (keptNumbers (pressureLimit f.pres E.cfg.pDelta) index (surrounding E long lat)).length).length :=
      ((show sel.Nodup from hsel.ascending.imp fun h => ne_of_lt h).subperm fun i hi => List.mem_range.2 (hsel.inside i hi)).length_le
    rw [List.length_range] at this
    omega
  obtain ⟨there, hsur, -⟩ := columns_levels E hi hf hsort hrand hcfg hmax f lat long hlat hlong hl1 hl2 p _ index z zs d bz b S P hF _
    (sel.map fun i => index.getD i 0) hcol (by simpa using hsl) (by simpa using hz2) hz3 (by
      intro k hk
      rw [List.length_map] at hk
      obtain ⟨i, hi⟩ : ∃ i, sel[k]? = some i := ⟨_, List.getElem?_eq_getElem hk⟩
      have h1 := hsel.inside i (List.mem_of_getElem? hi)
      have h2 : index[i]? = some (index.getD i 0) := by
        have : i < index.length := by omega
        simp [this]
      obtain ⟨c, y, x, w, e1, e2, e3, e4, e5⟩ := hF.zdepth i _ h2
      exact ⟨_, c, y, x, w, by rw [List.getElem?_map, hi]; rfl, e1, e2, e3, by rw [hz1 k i hi]; exact e4, e5⟩) g1 g2 g3 g4 g5
  obtain ⟨h12, h13, h14⟩ := hcol.plain
  have hk : k < sel.length := by
    have := (List.getElem?_eq_some_iff.1 hx).1
    rw [g2] at this
    dsimp only at this
    rw [h13, List.length_map] at this
    exact this
  have hki : (sel.map fun i => (keptNumbers (pressureLimit f.pres E.cfg.pDelta) index (surrounding E long lat)).getD i 0)[k]? =
      some ((keptNumbers (pressureLimit f.pres E.cfg.pDelta) index (surrounding E long lat)).getD sel[k] 0) := by
    rw [List.getElem?_map, List.getElem?_eq_getElem hk]; rfl
  obtain ⟨c, y', x', x2, m, e1, e2, e3, e4, e5, e6⟩ := h14 k _ hki
  rw [g2] at hx hy
  dsimp only at hx hy
  rw [hx] at e5
  rw [hy] at e4
  cases e4
  cases e5
  have li := hsel.inside sel[k] (List.getElem_mem hk)
  have hmem : (keptNumbers (pressureLimit f.pres E.cfg.pDelta) index (surrounding E long lat)).getD sel[k] 0 ∈
      keptNumbers (pressureLimit f.pres E.cfg.pDelta) index (surrounding E long lat) := by
    rw [List.getD_eq_getElem?_getD, List.getElem?_eq_getElem li]
    exact List.getElem_mem li
  obtain ⟨c', hc', hnear⟩ := chosen_in_reach E f lat long _ index _ _ p.pos there hsur _ ((kept_mem _ _ _ _).1 hmem).1
  rw [e1] at hc'
  cases hc'
  exact ⟨c, List.mem_of_getElem? e1, hnear, e2, x', m, e3, e6⟩

/-- C183. Every point in `selected_hist` after a run is the place of a cast in reach of the profile whose number stands beside it. -/
theorem selected_in_reach (R : FloatRun) (fs : Fs ℝ) (hi : IsInterp2d R.env.interp2) (hf : R.env.topo.length = 2160 * 4320) (hw : WellFormedDisk R.env.disk)
    (hsort : IsArgsort R.env.argsort) (hrand : ValidRand R.env.rand) (hcfg : ProperConfig R.env.cfg) (hmax : 1 ≤ R.env.maxCasts) (hload : fs R.loadPath = none)
    (hshape : ∀ f ∈ R.source, f.sal.length = R.levels ∧ f.ptmp.length = R.levels ∧ f.pres.length = R.levels)
    (hrange : ∀ f ∈ R.source, Placed f → ∀ lat long, f.lat = some lat → f.long = some long → (-90 ≤ lat ∧ lat ≤ 90) ∧ (-180 ≤ long ∧ long ≤ 540) ∧
      ∀ c ∈ surrounding R.env long lat, ∀ y x : ℝ, c.lat = some y → c.long = some x → (-90 ≤ y ∧ y ≤ 90) ∧ -180 ≤ x ∧ x ≤ 360)
    (h : (updateMapping R.args fs).1 = none) :
    ∃ file : MapFile ℝ, finalFs R.args fs R.savePath = some (.whole file) ∧ file.selected ≠ [] ∧
      ∀ s ∈ file.selected, ∃ (i : ℕ) (f : FloatProfile) (lat long : ℝ), R.no[i]? = some s.profileNo ∧ R.source[i]? = some f ∧ Placed f ∧ f.lat = some lat ∧ f.long = some long ∧
        ∃ c ∈ surrounding R.env long lat, Near R.env.cfg lat long (surrounding R.env long lat) c ∧ c.lat = some s.lat ∧
          ∃ (x : ℝ) (m : ℤ), c.long = some x ∧ s.long = x + 360 * m := by
  obtain ⟨file, h1, h2, -, -, h3⟩ := selected_of_float R fs hload h
  refine ⟨file, h1, h2, ?_⟩
  intro s hs
  obtain ⟨i, -, hno, n, -, o, ho, j, hx, hy⟩ := h3 s hs
  obtain ⟨f, lat, long, p, hf', hu, hla, hlo, hp, hl⟩ := levelOut_cases R.env R.source i n o ho
  have hmem := List.mem_of_getElem? hf'
  have hpl := (usable_iff f).1 hu
  obtain ⟨s1, s2, s3⟩ := hshape f hmem
  obtain ⟨r1, r2, r3⟩ := hrange f hmem hpl lat long hla hlo
  obtain ⟨k, k1, k2⟩ := levelOf_at R.env f p n o hl j s.long s.lat hx hy
  exact ⟨i, f, lat, long, hno, hf', hpl, hla, hlo, prepared_in_reach R.env hi hf hw hsort hrand hcfg hmax f lat long r1 r2 (by rw [s1, s2]) (by rw [s1, s3]) r3 p hp k _ _ k1 k2⟩

/-- In the run over two profiles all selected points are from the second one, at the latitude of the casts. -/
theorem seven_in_reach : ∃ file : MapFile ℝ, finalFs (sevenRun wConfig 6).args (fun _ => none) (sevenRun wConfig 6).savePath = some (.whole file) ∧
    file.selected ≠ [] ∧ ∀ s ∈ file.selected, s.profileNo = 2 ∧ s.lat = 5 := by
  obtain ⟨file, h1, h2, h3⟩ := selected_in_reach (sevenRun wConfig 6) (fun _ => none) Verif.Lemmas.Depth.grid2_isInterp2d (wEnv_topo 91 108 170 186)
    (seven_wellFormed _ _) isArgsort_stable (wEnv_rand 91 108 170 186) (by constructor <;> norm_num [sevenRun, wConfig]) (by change 1 ≤ 6; norm_num)
    rfl (seven_shape _ _) (by
      intro f hf hpl lat long hla hlo
      rcases seven_source _ _ f hf with rfl | rfl
      · exact absurd hpl wLost_not_placed
      · obtain rfl := Option.some.inj hla
        obtain rfl := Option.some.inj hlo
        refine ⟨by norm_num, by norm_num, ?_⟩
        intro c hc y x hy hx
        rw [seven_surrounding] at hc
        obtain ⟨x', s, rfl, a, b⟩ := seven_mem c hc
        obtain rfl := Option.some.inj hy
        obtain rfl := Option.some.inj hx
        refine ⟨by norm_num, by linarith, by linarith⟩) six_of_seven.1
  refine ⟨file, h1, h2, ?_⟩
  intro s hs
  obtain ⟨i, f, lat, long, hno, hif, hpl, hla, hlo, c, hc, -, hy, -⟩ := h3 s hs
  have hif' : [wLost, wFloat 105][i]? = some f := hif
  have hno' : ([1, 2] : List ℝ)[i]? = some s.profileNo := hno
  match i, hif', hno' with
  | 0, hif', _ =>
    obtain rfl := Option.some.inj hif'
    exact absurd hpl wLost_not_placed
  | 1, hif', hno' =>
    obtain rfl := Option.some.inj hif'
    obtain rfl := Option.some.inj hla
    obtain rfl := Option.some.inj hlo
    refine ⟨(Option.some.inj hno').symm, ?_⟩
    rw [seven_surrounding] at hc
    obtain ⟨x', s', rfl, -, -⟩ := seven_mem c hc
    exact (Option.some.inj hy).symm
  | i + 2, hif', _ => simp at hif'

end Verif.Props
