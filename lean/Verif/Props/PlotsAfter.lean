import Verif.Spec.PlotsAfter
import Verif.Props.Diagnostics
import Verif.Props.PiecewiseMore

/-!
# C148: the plots after a calibration
-/

set_option linter.unusedSectionVars false

namespace Verif.Props

open Verif.Np Verif.Spec Verif.Helper Verif.Workflow Verif.Diagnostics Verif.Thetas Verif.Piecewise Verif.Stats

/-- In a completed calibration every level of the data has its results. -/
theorem calibrated_shape {E : Env} {S : Settings} {data : List Column} {coords : Option (List Coord)} {out : CalibFile} (hA : Accepted S)
    (hl : data.length = S.calseries.length) (h : calibrate E S data coords = .ok out) :
    out.columns.length = data.length ∧ ∀ (j : ℕ) (c : Column) (o : ColOut), data[j]? = some c → out.columns[j]? = some o → o.cells.length = c.cells.length := by
  obtain ⟨h1, h2⟩ := calibration_fills_segments E S data coords out hA h
  refine ⟨h1, fun j c o hc ho => ?_⟩
  have hj : j < S.calseries.length := by
    rw [← hl]
    exact (List.getElem?_eq_some_iff.1 hc).1
  obtain ⟨o', ho', h0, hn⟩ := h2 j c _ hc (List.getElem?_eq_getElem hj)
  rw [ho] at ho'
  obtain rfl := Option.some.inj ho'
  by_cases hv : S.calseries[j] = 0
  · rw [h0 hv]; simp [missingColumn]
  · exact (hn hv).2

theorem plotCell_level (cells : List Piecewise.Cell) (outs : List CellOut) (h : outs.length = cells.length) :
    (List.zipWith plotCell cells outs).map measuredLevel = cells.map takenLevel := by
  induction cells generalizing outs with
  | nil => simp
  | cons x cells ih =>
    cases outs with
    | nil => simp at h
    | cons o outs =>
      simp only [List.zipWith_cons_cons, List.map_cons]
      rw [ih outs (by simpa using h)]
      rfl

theorem plotData_levels (data : List Column) (cols : List ColOut) (h1 : cols.length = data.length)
    (h2 : ∀ (j : ℕ) (c : Column) (o : ColOut), data[j]? = some c → cols[j]? = some o → o.cells.length = c.cells.length) :
    (List.zipWith (fun (c : Column) (o : ColOut) => List.zipWith plotCell c.cells o.cells) data cols).map (fun prof => prof.map measuredLevel) =
      data.map fun c => c.cells.map takenLevel := by
  apply List.ext_getElem?
  intro j
  rw [List.getElem?_map, List.getElem?_map, List.getElem?_zipWith]
  cases hc : data[j]? with
  | none => simp
  | some c =>
    have hj : j < cols.length := by
      rw [h1]
      exact (List.getElem?_eq_some_iff.1 hc).1
    rw [List.getElem?_eq_getElem hj]
    simp only [Option.map_some]
    rw [plotCell_level c.cells _ (h2 j c _ hc (List.getElem?_eq_getElem hj))]

theorem oneSegment {S : Settings} {data : List Column} {v : ℝ} (hl : data.length = S.calseries.length) (hv : ∀ w ∈ S.calseries, w = v) : segmentColumns S data v = data := by
  unfold segmentColumns
  rw [List.filter_eq_self.2 ?_]
  · exact List.map_fst_zip hl.le
  · rintro ⟨c, w⟩ hp
    simpa using hv w (List.of_mem_zip hp).2

theorem oneSegment_accepted {S : Settings} {v : ℝ} (hb : S.breaks = []) (hv : ∀ w ∈ S.calseries, w = v) : Accepted S := by
  refine ⟨hb, Or.inl ?_⟩
  refine Finset.card_le_one.2 fun a ha b hb => ?_
  rw [segmentValues, Finset.mem_erase, List.mem_toFinset] at ha hb
  rw [hv a ha.2, hv b hb.2]

/-- C148. If all profiles are in one segment and the calibration completes, the plots find the levels that the calibration used. -/
theorem plots_find_levels (E : Env) (S : Settings) (data : List Column) (coords : Option (List Coord)) (out : CalibFile) (v : ℝ) (hb : S.breaks = [])
    (hl : data.length = S.calseries.length) (hne : data ≠ []) (hv : ∀ w ∈ S.calseries, w = v) (hv0 : v ≠ 0) (h : calibrate E S data coords = .ok out)
    (I : Input ℝ) (hI : PlotsOf S data out I) :
    ∃ T, find10thetas S.bounds S.percent ((segmentColumns S data v).map fun c => c.cells.map takenLevel) = .ok T ∧
      find10thetas I.limits I.percent (I.data.map fun prof => prof.map measuredLevel) = .ok T := by
  have hA := oneSegment_accepted hb hv
  obtain ⟨h1, h2⟩ := calibrated_shape hA hl h
  obtain ⟨e1, e2, e3⟩ := hI
  have hj : 0 < S.calseries.length := by rw [← hl]; exact List.length_pos_iff.2 hne
  have h0 : S.calseries[0]? = some v := by
    rw [List.getElem?_eq_getElem hj, hv _ (List.getElem_mem hj)]
  obtain ⟨i, hi⟩ := segment_of h0 hv0
  obtain ⟨D⟩ := accepted_done hA h hi
  obtain ⟨th, cov, hth, -, -⟩ := fitSegment_ok D.hfit
  have hcols := D.hcols
  rw [segmentColumns_eq S data v hl] at hcols
  rw [← Except.ok.inj hcols] at hth
  refine ⟨th, hth, ?_⟩
  rw [e1, e2, e3, plotData_levels data _ h1 h2]
  rw [oneSegment hl hv] at hth
  exact hth

/-- C148. The plots after a completed calibration with one segment: if the map can be drawn, the run gets at least to the salinities on the chosen levels, and an
exception comes from there. -/
theorem plots_after_calibration (E : Env) (S : Settings) (data : List Column) (coords : Option (List Coord)) (out : CalibFile) (v : ℝ) (hb : S.breaks = [])
    (hl : data.length = S.calseries.length) (hne : data ≠ []) (hv : ∀ w ∈ S.calseries, w = v) (hv0 : v ≠ 0) (h : calibrate E S data coords = .ok out)
    (I : Input ℝ) (hI : PlotsOf S data out I) (hmap : I.selected ≠ [] ∧ I.no.length = I.lat.length ∧ I.lat.length = I.long.length) :
    figuresBefore I <+: (diagnostics I).1 ∧ (diagnostics I).2 = (SalVar.salVarPlot I.rows I.levels I.limits I.percent I.data).2 ∧
      ((diagnostics I).2 = none → (diagnostics I).1 = completeFigures I) := by
  obtain ⟨T, -, hT⟩ := plots_find_levels E S data coords out v hb hl hne hv hv0 h I hI
  have hA := oneSegment_accepted hb hv
  have hj : 0 < S.calseries.length := by rw [← hl]; exact List.length_pos_iff.2 hne
  have h0 : S.calseries[0]? = some v := by
    rw [List.getElem?_eq_getElem hj, hv _ (List.getElem_mem hj)]
  obtain ⟨⟨j, hj0, hjv⟩, -⟩ := segment_needs_data E S data coords out hA h v hv0 0 h0
  have hlen : 2 ≤ I.data.length := by
    have h1 := (calibrated_shape hA hl h).1
    have := (List.getElem?_eq_some_iff.1 hjv).1
    rw [hI.2.2, List.length_zipWith, h1]
    omega
  obtain ⟨M, hM⟩ := (map_drawn_iff I.selected I.no I.lat I.long).2 hmap
  rcases diagnostics_cases I with ⟨e, he, -⟩ | ⟨M', -, ⟨e, he, -⟩ | ⟨T', -, ⟨hlt, -, -⟩ | ⟨-, hd⟩⟩⟩
  · rw [hM] at he; simp at he
  · rw [hT] at he; simp at he
  · omega
  · rw [hd]
    cases hs : (SalVar.salVarPlot I.rows I.levels I.limits I.percent I.data).2 with
    | some e =>
      refine ⟨?_, rfl, fun hc => by simp at hc⟩
      exact ⟨_, rfl⟩
    | none =>
      refine ⟨?_, rfl, fun _ => rfl⟩
      refine ⟨((List.range I.levels).map fun i => Figure.variance (I.str (i + 1))) ++ I.bounds.map (.anomaly true) ++ [.profile], ?_⟩
      simp only [completeFigures, figuresBefore, List.append_assoc]

/-! ### A profile outside the segments -/

/-- A profile with a temperature inversion: cold above and below, at the same temperature. -/
def tieColumn : Column := ⟨3, [⟨some 35, some 0, some 0, some 0, some (36, 1)⟩, ⟨some 35, some 10, some 5, some 10, some (36, 1)⟩, ⟨some 35, some 0, some 10, some 0, some (36, 1)⟩]⟩
def tieProf : List (Level ℝ) := [⟨some 0, some 35, some 0, some 0⟩, ⟨some 5, some 35, some 10, some 10⟩, ⟨some 10, some 35, some 0, some 0⟩]
noncomputable def tieSettings : Settings := ⟨[1, 1, 0], [[0]], [], calExBounds, 1 / 2⟩
def tieData : List Column := [exColumn 1, exColumn 2, tieColumn]
def tieCoords : List Coord := [⟨10, 50, 4000⟩, ⟨11, 50, 4000⟩, ⟨12, 50, 4000⟩]

theorem tieProf_mask : tieProf.map (mask calExBounds) = tieProf := by
  simp [tieProf, mask, maskPres, maskTheta, maskUnmapped, excluded, calExBounds]

theorem tieLevels : presLevels [calExProf, calExProf, tieProf] = .ok ((List.range 10).map fun (i : ℕ) => (i : ℝ)) := by
  have h1 : nanmin ([calExProf, calExProf, tieProf].flatten.map Level.ptmp) = some 0 := by simp [calExProf, tieProf, nanmin]
  have h2 : nanmax ([calExProf, calExProf, tieProf].flatten.map Level.ptmp) = some 10 := by simp [calExProf, tieProf, nanmax]
  have h3 : nanmin ([calExProf, calExProf, tieProf].flatten.map Level.pres) = some 0 := by
    change ([0, 10, 0, 10, 0, 5, 10] : List ℝ).min? = some 0
    rw [List.min?_eq_some_iff]
    norm_num
  have h4 : nanmax ([calExProf, calExProf, tieProf].flatten.map Level.pres) = some 10 := by
    change ([0, 10, 0, 10, 0, 5, 10] : List ℝ).max? = some 10
    rw [List.max?_eq_some_iff]
    norm_num
  unfold presLevels
  rw [h1, h2, h3, h4]
  have f1 : ⌈((0:ℝ) * 10)⌉ = 0 := by norm_num
  have f2 : ⌊((10:ℝ) * 10)⌋ = 100 := by norm_num
  have f3 : ⌊((10:ℝ) - 0) / 10⌋ = 1 := by norm_num
  have f4 : (arange (0 : ℝ) 10 50).length = 1 := by
    unfold arange
    rw [List.length_map, List.length_range]
    norm_num
  simp only [f1, f2, f3, f4]
  norm_num [arange]
  rfl

theorem tieInterp : interpT (5 : ℝ) tieProf = some 10 := by
  have hg : goodPT tieProf = [(0, 0), (5, 10), (10, 0)] := by simp [goodPT, tieProf]
  unfold interpT
  rw [hg]
  have a : (([(0, 0), (5, 10), (10, 0)] : List (ℝ × ℝ)).map Prod.fst).min? = some 0 := by norm_num
  have b : (([(0, 0), (5, 10), (10, 0)] : List (ℝ × ℝ)).map Prod.fst).max? = some 10 := by norm_num
  simp only [a, b]
  rw [if_pos ⟨by norm_num, by norm_num⟩]
  unfold interp1d
  rw [show ([(0, 0), (5, 10), (10, 0)] : List (ℝ × ℝ)).insertionSort (fun a b => a.1 ≤ b.1) = [(0, 0), (5, 10), (10, 0)] by norm_num]
  unfold interpSorted
  rw [if_pos le_rfl]
  congr 1
  norm_num

theorem tieTheta : thetaLevel [calExProf, calExProf, tieProf] 5 = some (20 / 3) := by
  unfold thetaLevel
  simp only [List.map_cons, List.map_nil, calExInterp 5 (by norm_num) (by norm_num), tieInterp]
  change some ((([5, 5, 10] : List ℝ).sum) / ((3 : ℕ) : ℝ)) = _
  norm_num

theorem tieSal : salOn (some (20 / 3)) tieProf = .error .valueError := by
  have a : nanmin (tieProf.map Level.ptmp) = some 0 := by simp [tieProf, nanmin]
  have b : nanmax (tieProf.map Level.ptmp) = some 10 := by simp [tieProf, nanmax]
  have hi : thetaIndex (some (20 / 3)) tieProf = some 1 := by
    unfold thetaIndex
    rw [a, b]
    simp only
    rw [if_pos ⟨by norm_num, by norm_num⟩]
    have e1 : |(0 : ℝ) - 20 / 3| = 20 / 3 := by norm_num [abs_div]
    have e2 : |(10 : ℝ) - 20 / 3| = 10 / 3 := by norm_num [abs_div]
    simp only [tieProf, List.map_cons, List.map_nil, Option.map_some, nanArgmin, e1, e2, nanArgminFrom]
    norm_num
  have n1 : neighbours 1 3 = [0, 1, 2] := by decide
  have hk : kIndex tieProf 1 10 (20 / 3) = [0, 2] := by
    unfold kIndex
    rw [show tieProf.length = 3 from rfl, n1]
    simp [tieProf]
    norm_num
  unfold salOn
  rw [hi]
  simp only [show tieProf[1]? = some ⟨some 5, some 35, some 10, some 10⟩ from rfl, hk]

theorem tieThetas : ∃ e, find10thetas calExBounds (1 / 2) [calExProf, calExProf, tieProf] = .error e := by
  cases h : find10thetas calExBounds (1 / 2) [calExProf, calExProf, tieProf] with
  | error e => exact ⟨e, rfl⟩
  | ok T =>
    obtain ⟨pl, rows, h1, h2, -⟩ := find10thetas_ok h
    have hmask : [calExProf, calExProf, tieProf].map (fun prof => prof.map (mask calExBounds)) = [calExProf, calExProf, tieProf] := by
      simp only [List.map_cons, List.map_nil, exProf_mask, tieProf_mask]
    rw [hmask] at h1 h2
    rw [tieLevels] at h1
    obtain rfl := Except.ok.inj h1
    obtain ⟨row, -, hrow⟩ := (mapM_getElem h2).2 5 (some (20 / 3)) (by
      rw [List.getElem?_map, List.getElem?_map, List.getElem?_range (by norm_num)]
      simp only [Option.map_some]
      rw [← tieTheta]
      norm_num)
    obtain ⟨s, -, hs⟩ := (mapM_getElem hrow).2 2 tieProf rfl
    rw [tieSal] at hs
    cases hs

/-- C148. With a profile outside the segments this is not so: the calibration of the first two profiles completes, but the third one, which it does not use, makes the plots
fail: only the map is saved. -/
theorem plots_fail_by_excluded_profile : ∃ out, calibrate exCalEnv tieSettings tieData (some tieCoords) = .ok out ∧
    ∀ I, PlotsOf tieSettings tieData out I → (I.selected ≠ [] ∧ I.no.length = I.lat.length ∧ I.lat.length = I.long.length) →
      ∃ e, diagnostics I = ([.trajectory], some e) := by
  obtain ⟨out, hout, -⟩ := exFirst 0 (Or.inr rfl) tieColumn ⟨3, by norm_num, rfl, by
    intro x hx
    simp only [tieColumn, List.mem_cons, List.not_mem_nil, or_false] at hx
    rcases hx with rfl | rfl | rfl <;> refine ⟨fun t ht => ?_, fun s e he => ?_⟩
    all_goals first
      | (obtain rfl := Option.some.inj ht; norm_num)
      | (obtain ⟨-, rfl⟩ := Prod.mk.inj (Option.some.inj he); norm_num)⟩ tieCoords rfl
  refine ⟨out, hout, fun I hI hmap => ?_⟩
  have hA : Accepted tieSettings := by
    refine ⟨rfl, Or.inr (Or.inl rfl)⟩
  obtain ⟨h1, h2⟩ := calibrated_shape hA rfl hout
  obtain ⟨e1, e2, e3⟩ := hI
  obtain ⟨M, hM⟩ := (map_drawn_iff I.selected I.no I.lat I.long).2 hmap
  obtain ⟨e, he⟩ := tieThetas
  refine ⟨e, figures_without_levels I M hM e ?_⟩
  rw [e1, e2, e3, show List.map _ (List.zipWith _ tieData out.columns) = _ from plotData_levels tieData _ h1 h2]
  exact he

/-- The hypotheses of `plots_find_levels` and `plots_after_calibration` are met: two profiles in one segment. -/
example : ∃ out, calibrate exCalEnv ⟨[1, 1], [[0]], [], calExBounds, 1 / 2⟩ [exColumn 1, exColumn 2] (some [⟨10, 50, 4000⟩, ⟨11, 50, 4000⟩]) = .ok out ∧
    ∃ I : Input ℝ, PlotsOf ⟨[1, 1], [[0]], [], calExBounds, 1 / 2⟩ [exColumn 1, exColumn 2] out I ∧
      (I.selected ≠ [] ∧ I.no.length = I.lat.length ∧ I.lat.length = I.long.length) ∧ (∀ w ∈ ([1, 1] : List ℝ), w = 1) := by
  obtain ⟨out, hout⟩ := calibration_completes exCalEnv ⟨[1, 1], [[0]], [], calExBounds, 1 / 2⟩ [exColumn 1, exColumn 2] [⟨10, 50, 4000⟩, ⟨11, 50, 4000⟩] 0
    ⟨by norm_num [exCalEnv], by norm_num [exCalEnv], rfl⟩ calSound rfl rfl rfl rfl (by norm_num [exColumn]) (by
      intro c hc x hx
      simp only [List.mem_cons, List.not_mem_nil, or_false] at hc
      rcases hc with rfl | rfl <;> exact exSoundCell _ x hx) (Or.inr ⟨rfl, by
      intro v hv
      have hv' : v = 1 := by
        simp [segmentValues] at hv
        tauto
      subst hv'
      rw [show segmentColumns ⟨[1, 1], [[0]], [], calExBounds, 1 / 2⟩ [exColumn 1, exColumn 2] 1 = [exColumn 1, exColumn 2] by norm_num [segmentColumns]]
      exact exCalibratable _ rfl rfl _ _⟩)
  exact ⟨out, hout, ⟨[⟨10, 50, 0⟩], [1, 2], [some 50, some 50], [some 10, some 11], _, 2, calExBounds, 1 / 2, 2, [], fun _ => []⟩, ⟨rfl, rfl, rfl⟩,
    ⟨by simp, rfl, rfl⟩, by simp⟩

end Verif.Props
