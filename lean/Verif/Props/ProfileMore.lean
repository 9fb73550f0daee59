import Verif.Props.Profile
import Verif.Props.Variance
import Verif.Lemmas.Region

/-!
# More properties of a whole run over the profiles of a float
-/

set_option linter.unusedSectionVars false

namespace Verif.Props

open Verif.Np Verif.Helper Verif.Region Verif.Profile Verif.Update Verif.Spec Verif.Spec.Profile Verif.Level Verif.Finders
open Verif.Lemmas.Profile Verif.Utilities Verif.Saf Verif.Topo

/-- What a successful run without a mapped file saves. -/
theorem fresh_run_saved (R : FloatRun) (fs : Fs ℝ) (hsort : IsArgsort R.env.argsort) (hno : R.no.Pairwise (· < ·))
    (hload : fs R.loadPath = none) (h : (updateMapping R.args fs).1 = none) :
    ∃ file : MapFile ℝ, finalFs R.args fs = Function.update fs R.savePath (some (.whole file)) ∧ file.profileNo = R.no ∧
      (∀ m, file.mats m = (List.range R.no.length).map (profileColumn R.args.P R.levels m)) ∧
      ∀ s, file.settings s = (List.range R.no.length).map (profileSetting R.args.P R.settings R.levels s) := by
  obtain ⟨file, -, h1, h2, -, h3, h4⟩ := fresh_run_aligned_partial R.args fs hload hsort (fresh_computable R fs hload h)
    (fresh_mapped R fs hsort hload h) hno
  exact ⟨file, h1, h2, h3, h4⟩

theorem levelOf_needs (E : Env) (f : FloatProfile) (p : Prepared) (n : ℕ) (o : LevelOut ℝ) (h : levelOf E f p n = .ok (some o)) :
    ∃ h' r hh s q, f.sal[n]? = some (some s) ∧ f.pres[n]? = some (some q) ∧ E.cfg.pExclude ≤ q ∧ 5 < hh.sal.length ∧
      mapCasts E.cfg p.pos hh = .ok (h', r) ∧ o.points = h' ∧ o.values .mappedSal = r.mappedSal ∧ o.values .mapErrors = r.mapError ∧
      o.values .noise = r.noise ∧ o.values .signal = some r.signal ∧ f.ptmp[n]? = some (o.values .ptmp) := by
  unfold levelOf at h
  cases hm : mapLevel E.cfg p.pos p.grid f.sal f.pres p.interpSal p.interpPres n with
  | error e => rw [hm] at h; cases h
  | ok q =>
    rw [hm] at h
    cases q with
    | none => cases h
    | some x =>
      obtain ⟨h', r⟩ := x
      simp only [bind, Except.bind] at h
      cases ht : item f.ptmp n with
      | error e => rw [ht] at h; cases h
      | ok t =>
        rw [ht] at h
        have ho := Option.some.inj (Except.ok.inj h)
        rw [← ho]
        have ht' : f.ptmp[n]? = some t := by
          unfold item at ht
          cases h0 : f.ptmp[n]? with
          | none => rw [h0] at ht; cases ht
          | some v => rw [h0] at ht; rw [Except.ok.inj ht]
        unfold mapLevel item at hm
        simp only [bind, Except.bind] at hm
        cases h1 : f.sal[n]? with
        | none => rw [h1] at hm; cases hm
        | some s =>
          cases h2 : f.pres[n]? with
          | none => rw [h1, h2] at hm; cases hm
          | some pr =>
            rw [h1, h2] at hm
            dsimp only at hm
            cases s with
            | none => cases hm
            | some s =>
              cases pr with
              | none => cases hm
              | some pv =>
                dsimp only at hm
                split at hm
                · rename_i hex
                  cases hpp : processProfileHist p.grid f.pres p.interpSal p.interpPres n E.cfg.pDelta with
                  | error e => rw [hpp] at hm; cases hm
                  | ok hh =>
                    rw [hpp] at hm
                    dsimp only at hm
                    split at hm
                    · rename_i hlen
                      cases hc : mapCasts E.cfg p.pos hh with
                      | error e => rw [hc] at hm; cases hm
                      | ok y =>
                        rw [hc] at hm
                        have hy := Option.some.inj (Except.ok.inj hm)
                        rw [hy] at hc
                        exact ⟨h', r, hh, s, pv, rfl, rfl, hex, hlen, hc, rfl, rfl, rfl, rfl, rfl, ht'⟩
                    · cases hm
                · cases hm

theorem profileColumn_get (P : Update.Profile ℝ) (levels : ℕ) (m : Mat) (i n : ℕ) (hn : n < levels) :
    (profileColumn P levels m i)[n]? = some ((levelOut P i n).bind fun o => plausible m (o.values m)) := by
  unfold profileColumn
  simp [hn]

/-- C92. In the file that a successful run without a mapped file saves (profile numbers ascending), all five numbers are missing for every level
without salinity or pressure, for every level above the exclusion depth, and for all levels of a profile without position or
without a pressure below its first level; for such a profile the recorded settings are missing too. -/
theorem saved_missing (R : FloatRun) (fs : Fs ℝ) (hsort : IsArgsort R.env.argsort) (hno : R.no.Pairwise (· < ·))
    (hlen : R.no.length = R.source.length) (hload : fs R.loadPath = none) (h : (updateMapping R.args fs).1 = none) :
    ∃ file : MapFile ℝ, finalFs R.args fs = Function.update fs R.savePath (some (.whole file)) ∧ file.profileNo = R.no ∧
      ∀ (i : ℕ) (f : FloatProfile), R.source[i]? = some f →
        (∀ n < R.levels, (¬ Placed f ∨ f.sal[n]? = some none ∨ f.pres[n]? = some none ∨
            ∃ q, f.pres[n]? = some (some q) ∧ q < R.env.cfg.pExclude) →
          ∀ m, ∃ col, (file.mats m)[i]? = some col ∧ col[n]? = some none) ∧
        (¬ Placed f → ∀ s, (file.settings s)[i]? = some none) := by
  obtain ⟨file, h1, h2, h3, h4⟩ := fresh_run_saved R fs hsort hno hload h
  refine ⟨file, h1, h2, ?_⟩
  intro i f hf
  have hi : i < R.no.length := by rw [hlen]; exact (List.getElem?_eq_some_iff.1 hf).1
  have key : ∀ n, (¬ Placed f ∨ f.sal[n]? = some none ∨ f.pres[n]? = some none ∨
            ∃ q, f.pres[n]? = some (some q) ∧ q < R.env.cfg.pExclude) → levelOut R.args.P i n = none := by
    intro n hn
    cases ho : levelOut R.args.P i n with
    | none => rfl
    | some o =>
      exfalso
      obtain ⟨g, lat, long, p, hg, hu, -, -, -, hl⟩ := levelOut_cases R.env R.source i n o ho
      rw [hf] at hg
      have := Option.some.inj hg
      subst this
      obtain ⟨h', r, hh, s, q, e1, e2, e3, -⟩ := levelOf_needs _ _ _ _ _ hl
      rcases hn with hn | hn | hn | ⟨q', hn, hq⟩
      · exact hn ((usable_iff f).1 hu)
      · rw [hn] at e1; cases e1
      · rw [hn] at e2; cases e2
      · rw [hn] at e2
        have := Option.some.inj (Option.some.inj e2)
        subst this
        linarith
  constructor
  · intro n hn hc m
    refine ⟨profileColumn R.args.P R.levels m i, by rw [h3]; simp [hi], ?_⟩
    rw [profileColumn_get _ _ _ _ _ hn, key n hc]
    rfl
  · intro hp s
    rw [h4]
    simp only [List.getElem?_map, List.getElem?_range hi, Option.map_some, Option.some.injEq]
    unfold profileSetting
    rw [if_neg]
    rintro ⟨n, -, hn⟩
    rw [key n (Or.inl hp)] at hn
    cases hn

theorem npSqrt_nonneg (a x : ℝ) (h : Mapping.npSqrt a = some x) : 0 ≤ x := by
  unfold Mapping.npSqrt at h
  split_ifs at h
  rw [← Option.some.inj h]
  exact Real.sqrt_nonneg _

theorem combineErr_nonneg (a b : Option ℝ) (x : ℝ) (h : combineErr a b = some x) : 0 ≤ x := by
  unfold combineErr at h
  cases a with
  | none => cases h
  | some a =>
    cases b with
    | none => cases h
    | some b => exact npSqrt_nonneg _ _ h

theorem bounds_exist (l : List ℝ) : ∃ lo hi, lo ≤ hi ∧ ∀ x ∈ l, lo ≤ x ∧ x ≤ hi := by
  induction l with
  | nil => exact ⟨0, 0, le_rfl, by simp⟩
  | cons a l ih =>
    obtain ⟨lo, hi, -, h⟩ := ih
    refine ⟨min a lo, max a hi, (min_le_left _ _).trans (le_max_left _ _), ?_⟩
    intro x hx
    rcases List.mem_cons.1 hx with rfl | hx
    · exact ⟨min_le_left _ _, le_max_left _ _⟩
    · exact ⟨(min_le_right _ _).trans (h x hx).1, (h x hx).2.trans (le_max_right _ _)⟩

theorem mapCasts_nonneg (c : MapConfig) (f : FloatPos) (h h' : HistData ℝ) (r : LevelResult) (hr : mapCasts c f h = .ok (h', r)) :
    (∀ x, r.mapError = some x → 0 ≤ x) ∧ (∀ x, r.noise = some x → 0 ≤ x) ∧ 0 ≤ r.signal := by
  unfold mapCasts at hr
  simp only [bind, Except.bind] at hr
  cases h0 : Stats.signalVariance (h.sal.map some) with
  | error e => rw [h0] at hr; cases hr
  | ok s0 =>
    rw [h0] at hr
    dsimp only at hr
    cases h1 : removeOutliers (outliers h.sal s0) h with
    | error e => rw [h1] at hr; cases hr
    | ok h2 =>
      rw [h1] at hr
      dsimp only at hr
      cases h3 : Stats.noiseVariance (observations h2) with
      | error e => rw [h3] at hr; cases hr
      | ok nv =>
        rw [h3] at hr
        dsimp only at hr
        cases h4 : Stats.signalVariance (h2.sal.map some) with
        | error e => rw [h4] at hr; cases hr
        | ok s =>
          rw [h4] at hr
          dsimp only at hr
          have hs := signal_variance_nonneg _ _ h4
          cases h5 : columnStack h2.lat h2.long h2.dates h2.z with
          | error e => rw [h5] at hr; cases hr
          | ok pos =>
            rw [h5] at hr
            dsimp only at hr
            by_cases hlen : h2.sal.length = pos.length
            · rw [if_pos hlen] at hr
              cases nv with
              | none => cases hr
              | some v =>
                dsimp only at hr
                have hv : 0 ≤ v := by
                  obtain ⟨lo, hi, hle, hb⟩ := bounds_exist h2.sal
                  refine (noise_variance_bounds _ _ lo hi hle h3 ?_).1
                  intro a ha x hx
                  unfold observations at ha
                  obtain ⟨q, hq, rfl⟩ := List.mem_map.1 ha
                  have := Option.some.inj hx
                  subst this
                  exact hb _ (List.of_mem_zip hq).1
                unfold mapStages at hr
                simp only [bind, Except.bind] at hr
                generalize Mapping.mapDataGrid _ _ _ (largeScales c) s v = m1 at hr
                cases m1 with
                | error e => cases hr
                | ok m1 =>
                  dsimp only at hr
                  generalize (List.mapM id _ : Option (List ℝ)) = res at hr
                  cases res with
                  | none => cases hr
                  | some res =>
                    dsimp only at hr
                    cases h6 : Stats.signalVariance (res.map some) with
                    | error e => rw [h6] at hr; cases hr
                    | ok s2 =>
                      rw [h6] at hr
                      dsimp only at hr
                      generalize Mapping.mapDataGrid _ _ _ (smallScales c) s2 v = m2 at hr
                      cases m2 with
                      | error e => cases hr
                      | ok m2 =>
                        have := congrArg Prod.snd (Except.ok.inj hr)
                        dsimp only at this
                        rw [← this]
                        exact ⟨fun x hx => combineErr_nonneg _ _ _ hx, fun x hx => by rw [← Option.some.inj hx]; exact hv, hs⟩
            · rw [if_neg hlen] at hr; cases hr

/-- C93. Every mapping error, noise variance and signal variance in the file that a successful run without a mapped file saves is missing or not
negative. Nothing is assumed about the configuration, the reference data or the order of the profiles. -/
theorem saved_errors_nonneg (R : FloatRun) (fs : Fs ℝ) (hsort : IsArgsort R.env.argsort) (hload : fs R.loadPath = none)
    (h : (updateMapping R.args fs).1 = none) :
    ∃ file : MapFile ℝ, finalFs R.args fs R.savePath = some (.whole file) ∧
      ∀ m, m = .mapErrors ∨ m = .noise ∨ m = .signal → ∀ col ∈ file.mats m, ∀ x, some x ∈ col → 0 ≤ x := by
  obtain ⟨file, h1, -, -, h3, -⟩ := fresh_run_file R.args fs hload hsort (fresh_computable R fs hload h)
    (fresh_mapped R fs hsort hload h)
  refine ⟨file, by rw [final_of_trace R.args fs _ file h1]; exact Function.update_self .., ?_⟩
  intro m hm col hcol x hx
  rw [h3] at hcol
  obtain ⟨j, -, rfl⟩ := List.mem_map.1 hcol
  generalize (R.args.argsort (R.args.no.map some)).getD j 0 = i at hx
  unfold profileColumn at hx
  obtain ⟨n, -, hn⟩ := List.mem_map.1 hx
  cases ho : levelOut R.args.P i n with
  | none => rw [ho] at hn; cases hn
  | some o =>
    rw [ho] at hn
    simp only [Option.bind_some] at hn
    obtain ⟨f, lat, long, p, -, -, -, -, -, hl⟩ := levelOut_cases R.env R.source i n o ho
    obtain ⟨h', r, hh, s, q, -, -, -, -, hc, -, -, e2, e3, e4, -⟩ := levelOf_needs _ _ _ _ _ hl
    obtain ⟨n1, n2, n3⟩ := mapCasts_nonneg _ _ _ _ _ hc
    rcases hm with rfl | rfl | rfl
    · rw [plausible, if_neg (by decide), e2] at hn; exact n1 x hn
    · rw [plausible, if_neg (by decide), e3] at hn; exact n2 x hn
    · rw [plausible, if_neg (by decide), e4] at hn
      rw [← Option.some.inj hn]; exact n3

/-- C94. What is saved for a profile depends on that profile only, not on the other profiles of the float or its place among them: if two runs with the same reference data,
configuration and number of levels end without exception (no mapped file, profile numbers ascending), a profile that occurs in both gets the same column in all five
matrices. -/
theorem saved_column_independent (R R' : FloatRun) (fs fs' : Fs ℝ) (henv : R'.env = R.env) (hlev : R'.levels = R.levels)
    (hsort : IsArgsort R.env.argsort) (hno : R.no.Pairwise (· < ·)) (hno' : R'.no.Pairwise (· < ·))
    (hlen : R.no.length = R.source.length) (hlen' : R'.no.length = R'.source.length) (hload : fs R.loadPath = none)
    (hload' : fs' R'.loadPath = none) (h : (updateMapping R.args fs).1 = none) (h' : (updateMapping R'.args fs').1 = none) :
    ∃ file file' : MapFile ℝ, finalFs R.args fs = Function.update fs R.savePath (some (.whole file)) ∧
      finalFs R'.args fs' = Function.update fs' R'.savePath (some (.whole file')) ∧
      ∀ (i j : ℕ) (f : FloatProfile), R.source[i]? = some f → R'.source[j]? = some f →
        ∀ m, ∃ col, (file.mats m)[i]? = some col ∧ (file'.mats m)[j]? = some col := by
  obtain ⟨file, h1, -, h3, -⟩ := fresh_run_saved R fs hsort hno hload h
  obtain ⟨file', h1', -, h3', -⟩ := fresh_run_saved R' fs' (henv ▸ hsort) hno' hload' h'
  refine ⟨file, file', h1, h1', ?_⟩
  intro i j f hi hj m
  have li : i < R.no.length := by rw [hlen]; exact (List.getElem?_eq_some_iff.1 hi).1
  have lj : j < R'.no.length := by rw [hlen']; exact (List.getElem?_eq_some_iff.1 hj).1
  refine ⟨profileColumn R.args.P R.levels m i, by rw [h3]; simp [li], ?_⟩
  rw [h3']
  simp only [List.getElem?_map, List.getElem?_range lj, Option.map_some, Option.some.injEq]
  have hP : R'.args.P j = R.args.P i := by
    change profilesOf R'.env R'.source j = profilesOf R.env R.source i
    unfold profilesOf item
    rw [hi, hj, henv]
  unfold profileColumn levelOut
  rw [hP, hlev]

/-! ## The casts of the float itself -/

theorem getData_agree (name : List Char) (disk disk' : Disk ℝ) (h : OthersAgree name disk disk') (b : WmoBox) (t : ℕ)
    (ht : t = 1 ∨ t = 2 ∨ t = 3) : getData disk name b t = getData disk' name b t := by
  unfold getData
  cases b.number with
  | none => rfl
  | some n =>
    dsimp only
    rcases ht with rfl | rfl | rfl
    · rw [(h.1 n).1]
    · rw [(h.1 n).2]
    · rcases h.2 n with ⟨h1, h2⟩ | ⟨f, f', h1, h2, hl, hf, l1, l2⟩
      · rw [h1, h2]
      · rw [h1, h2]
        have key : ∀ g : RefFile ℝ, npDelete g.casts (argwhere (hasName name) g.casts) =
            .ok (g.casts.filter fun c => decide (¬ name <:+: c.source)) := by
          intro g
          have := npDelete_argwhere (hasName name) (fun c : RefCast ℝ => c) (fun c => c) g.casts
          rw [List.map_id', List.map_id'] at this
          rw [this]
          congr 2
          funext c
          simp [hasName]
        have : readArgo name f = readArgo name f' := by
          unfold readArgo
          rw [if_neg l1, if_neg l2]
          dsimp only
          rw [key f, key f', hl, hf]
        change (if b.flag 3 = 1 then (readArgo name f).map some else .ok none) =
          if b.flag 3 = 1 then (readArgo name f').map some else .ok none
        rw [this]

/-- C95. The Argo casts of the float itself do not influence a run: with reference data that differ only in them, every run does the same (same exceptions,
same states of the directory, same saved numbers), whatever else is in the data, the configuration and the mapped file. -/
theorem own_casts_never_influence (R : FloatRun) (disk' : Disk ℝ) (h : OthersAgree R.env.name R.env.disk disk') (fs : Fs ℝ) :
    updateMapping { R with env := { R.env with disk := disk' } }.args fs = updateMapping R.args fs := by
  have hv : ∀ boxes, (visits boxes).map (fun v => getData disk' R.env.name v.1 v.2) =
      (visits boxes).map (fun v => getData R.env.disk R.env.name v.1 v.2) := by
    intro boxes
    apply List.map_congr_left
    intro v hv
    unfold visits at hv
    obtain ⟨b, -, hb⟩ := List.mem_flatMap.1 hv
    obtain ⟨t, ht, rfl⟩ := List.mem_map.1 hb
    exact (getData_agree _ _ _ h b t (by simpa using ht)).symm
  have hP : profilesOf { R.env with disk := disk' } R.source = profilesOf R.env R.source := by
    funext i
    unfold profilesOf
    congr 1
    funext f
    unfold profileOf
    have : ∀ lat long, prepare { R.env with disk := disk' } f lat long = prepare R.env f lat long := by
      intro lat long
      unfold prepare
      have hc : ∀ z, chosenCasts { R.env with disk := disk' } f lat long z = chosenCasts R.env f lat long z := by
        intro z
        unfold chosenCasts
        have e1 : ∀ boxes, histLocations disk' R.env.name boxes = histLocations R.env.disk R.env.name boxes := by
          intro boxes; unfold histLocations; rw [hv]
        have e2 : ∀ boxes idx, regionData disk' R.env.name boxes idx f.pres R.env.cfg.pDelta =
            regionData R.env.disk R.env.name boxes idx f.pres R.env.cfg.pDelta := by
          intro boxes idx; unfold regionData; rw [hv]
        simp only [e1, e2]
        rfl
      simp only [hc]
      rfl
    simp only [this]
    rfl
  unfold FloatRun.args
  dsimp only
  rw [hP]

/-! ## Longitudes on both sides of Greenwich -/

theorem matchLongitude_spec (grid : List (Option ℝ)) (long : ℝ) :
    ((∃ x, some x ∈ grid ∧ 360 < x) → 0 ≤ long → long ≤ 20 → matchLongitude grid long = long + 360) ∧
    ((∀ x, some x ∈ grid → x ≤ 360) ∨ long < 0 ∨ 20 < long → matchLongitude grid long = long) := by
  have hpos : (argwhere pastTurn grid).length > 0 ↔ ∃ x, some x ∈ grid ∧ 360 < x := by
    rw [gt_iff_lt, List.length_pos_iff_exists_mem]
    simp only [argwhere_mem]
    constructor
    · rintro ⟨i, o, ho, h⟩
      cases o with
      | none => simp [pastTurn] at h
      | some x => exact ⟨x, List.mem_of_getElem? ho, by simpa [pastTurn] using h⟩
    · rintro ⟨x, hx, h⟩
      obtain ⟨i, hi⟩ := List.mem_iff_getElem?.1 hx
      exact ⟨i, some x, hi, by simpa [pastTurn] using h⟩
  unfold matchLongitude
  constructor
  · intro h h0 h20
    rw [if_pos (hpos.2 h), if_pos ⟨h0, h20⟩]
  · rintro (h | h)
    · rw [if_neg]
      rw [hpos]
      rintro ⟨x, hx, hlt⟩
      linarith [h x hx]
    · split_ifs with h1 h2
      · rcases h with h | h <;> linarith [h2.1, h2.2]
      · rfl
      · rfl

/-- C96. The casts of the boxes around a float near Greenwich: `ds` are their signed longitudes, in the five columns that begin at `s`; the float is at signed
longitude `g` in the middle column; all are written between 0 and 360. The differences of longitude that the code uses are the true ones exactly if the casts
are not all on the other side of Greenwich (a cast on the meridian itself is not on the float's side of it). -/
theorem longitude_difference_iff (s g : ℝ) (ds : List ℝ) (hs : -40 ≤ s ∧ s ≤ -10) (hg : s + 19.99 ≤ g ∧ g ≤ s + 30)
    (hd : ∀ d ∈ ds, s ≤ d ∧ d ≤ s + 50) (hne : ds ≠ []) :
    let casts := wrapLongitude (ds.map fun d => some (eastward d))
    (∀ (i : ℕ) (d y : ℝ), ds[i]? = some d → casts[i]? = some (some y) → TrueDifference d g (y - matchLongitude casts (eastward g))) ↔
      if 0 ≤ g then (∀ d ∈ ds, 0 ≤ d) ∨ ∃ d ∈ ds, 0 < d else ∃ d ∈ ds, d < 0 := by
  intro casts
  obtain ⟨hs1, hs2⟩ := hs
  obtain ⟨hg1, hg2⟩ := hg
  have he : ∀ d, eastward d = if d < 0 then d + 360 else d := fun d => rfl
  obtain ⟨d0, hd0⟩ := List.exists_mem_of_ne_nil ds hne
  obtain ⟨i0, hi0⟩ := List.mem_iff_getElem?.1 hd0
  by_cases hneg : ∃ d ∈ ds, d < 0
  · have hc : casts = ds.map fun d => some (d + 360) := by
      rcases wrapLongitude_cases (ds.map fun d => some (eastward d)) with ⟨-, e⟩ | ⟨hno, -⟩
      · change wrapLongitude _ = _
        rw [e, List.map_map]
        apply List.map_congr_left
        intro d hd'
        obtain ⟨b1, b2⟩ := hd d hd'
        simp only [Function.comp, Option.map_some, he, w1, w2]
        congr 1
        split_ifs <;> linarith
      · exfalso
        obtain ⟨d, hdm, hdn⟩ := hneg
        have := hno (eastward d) (List.mem_map.2 ⟨d, hdm, rfl⟩)
        obtain ⟨b1, b2⟩ := hd d hdm
        rw [he, if_pos hdn, w1, if_neg (by linarith)] at this
        linarith
    have hcast : ∀ (i : ℕ) (d y : ℝ), ds[i]? = some d → casts[i]? = some (some y) → y = d + 360 := by
      intro i d y h1 h2
      rw [hc, List.getElem?_map, h1] at h2
      exact (Option.some.inj (Option.some.inj h2)).symm
    by_cases hg0 : 0 ≤ g
    · rw [if_pos hg0]
      have heg : eastward g = g := by rw [he, if_neg (by linarith)]
      by_cases hpos : ∃ d ∈ ds, 0 < d
      · have hm : matchLongitude casts (eastward g) = g + 360 := by
          rw [heg]
          refine (matchLongitude_spec casts g).1 ?_ hg0 (by linarith)
          obtain ⟨d, hdm, hdp⟩ := hpos
          exact ⟨d + 360, by rw [hc]; exact List.mem_map.2 ⟨d, hdm, rfl⟩, by linarith⟩
        refine ⟨fun _ => Or.inr hpos, fun _ i d y h1 h2 => ?_⟩
        obtain ⟨b1, b2⟩ := hd d (List.mem_of_getElem? h1)
        rw [hcast i d y h1 h2, hm]
        exact ⟨by rw [abs_le]; constructor <;> linarith, 0, by push_cast; ring⟩
      · have hm : matchLongitude casts (eastward g) = g := by
          rw [heg]
          refine (matchLongitude_spec casts g).2 (Or.inl ?_)
          intro x hx
          rw [hc] at hx
          obtain ⟨d, hdm, hdx⟩ := List.mem_map.1 hx
          have := Option.some.inj hdx
          push Not at hpos
          linarith [hpos d hdm]
        constructor
        · intro hall
          exfalso
          have := (hall i0 d0 (d0 + 360) hi0 (by rw [hc, List.getElem?_map, hi0]; rfl)).1
          rw [hm, abs_le] at this
          obtain ⟨b1, b2⟩ := hd d0 hd0
          linarith [this.2]
        · rintro (h | h)
          · obtain ⟨d, hdm, hdn⟩ := hneg
            linarith [h d hdm]
          · exact absurd h hpos
    · rw [if_neg hg0]
      push Not at hg0
      have heg : eastward g = g + 360 := by rw [he, if_pos hg0]
      have hm : matchLongitude casts (eastward g) = g + 360 := by
        rw [heg]
        exact (matchLongitude_spec casts _).2 (Or.inr (Or.inr (by linarith)))
      refine ⟨fun _ => hneg, fun _ i d y h1 h2 => ?_⟩
      obtain ⟨b1, b2⟩ := hd d (List.mem_of_getElem? h1)
      rw [hcast i d y h1 h2, hm]
      exact ⟨by rw [abs_le]; constructor <;> linarith, 0, by push_cast; ring⟩
  · push Not at hneg
    have hc : casts = ds.map fun d => some d := by
      rcases wrapLongitude_cases (ds.map fun d => some (eastward d)) with ⟨⟨x, hx, hx2⟩, -⟩ | ⟨-, e⟩
      · exfalso
        obtain ⟨d, hdm, hdx⟩ := List.mem_map.1 hx
        have := Option.some.inj hdx
        obtain ⟨b1, b2⟩ := hd d hdm
        have := hneg d hdm
        rw [he, if_neg (by linarith)] at *
        rw [w1] at hx2
        split_ifs at hx2 <;> linarith
      · change wrapLongitude _ = _
        rw [e, List.map_map]
        apply List.map_congr_left
        intro d hd'
        have := hneg d hd'
        simp only [Function.comp, Option.map_some, he, w1]
        congr 1
        split_ifs <;> linarith
    have hcast : ∀ (i : ℕ) (d y : ℝ), ds[i]? = some d → casts[i]? = some (some y) → y = d := by
      intro i d y h1 h2
      rw [hc, List.getElem?_map, h1] at h2
      exact (Option.some.inj (Option.some.inj h2)).symm
    have hm : matchLongitude casts (eastward g) = eastward g := by
      refine (matchLongitude_spec casts _).2 (Or.inl ?_)
      intro x hx
      rw [hc] at hx
      obtain ⟨d, hdm, hdx⟩ := List.mem_map.1 hx
      have := Option.some.inj hdx
      obtain ⟨b1, b2⟩ := hd d hdm
      linarith
    by_cases hg0 : 0 ≤ g
    · rw [if_pos hg0]
      refine ⟨fun _ => Or.inl hneg, fun _ i d y h1 h2 => ?_⟩
      obtain ⟨b1, b2⟩ := hd d (List.mem_of_getElem? h1)
      rw [hcast i d y h1 h2, hm, he, if_neg (by linarith)]
      exact ⟨by rw [abs_le]; constructor <;> linarith, 0, by push_cast; ring⟩
    · rw [if_neg hg0]
      push Not at hg0
      constructor
      · intro hall
        exfalso
        have := (hall i0 d0 d0 hi0 (by rw [hc, List.getElem?_map, hi0]; rfl)).1
        rw [hm, he, if_pos hg0, abs_le] at this
        obtain ⟨b1, b2⟩ := hd d0 hd0
        linarith [this.1]
      · rintro ⟨d, hdm, hdn⟩
        linarith [hneg d hdm]

/-- C96, the consequence for the mapping. If the longitudes of all casts chosen for a float between 0 and 20 E are between 320 and 360, the
objective mapping takes every one of them to be at least 300 degrees away. -/
theorem mapping_longitude_off (E : Env) (f : FloatProfile) (lat long : ℝ) (p : Prepared) (h : prepare E f lat long = .ok p)
    (h0 : 0 ≤ long) (h20 : long ≤ 20) (hx : ∀ x ∈ p.grid.long, 320 ≤ x ∧ x ≤ 360) :
    p.pos.long = long ∧ ∀ x ∈ p.grid.long, 300 ≤ x - p.pos.long := by
  have _ := h0
  obtain ⟨z, b, -, -, h1, h2⟩ := prepare_ok _ _ _ _ _ h
  have hm : matchLongitude b.data.long long = long := by
    refine (matchLongitude_spec _ _).2 (Or.inl ?_)
    intro x hxm
    refine (hx x ?_).2
    rw [h2]
    exact List.mem_filterMap.2 ⟨some x, hxm, rfl⟩
  have hp : p.pos.long = long := by rw [h1]; exact hm
  refine ⟨hp, fun x hxm => ?_⟩
  rw [hp]
  linarith [(hx x hxm).1]

/-- C96, the consequence for the choice of casts. If all reference casts around a float between 0 and 20 E lie between 320 and 360 (west of Greenwich) and the
large longitude scale is at most 100, the run ends with an exception and nothing is saved, however near the casts are. -/
theorem run_fails_across_greenwich (R : FloatRun) (fs : Fs ℝ) (hno : R.no.length = R.source.length) (hw : WellFormedDisk R.env.disk)
    (hload : fs R.loadPath = none) (f : FloatProfile) (hf : f ∈ R.source) (hp : Placed f) (lat long : ℝ) (hlat : f.lat = some lat)
    (hlong : f.long = some long) (h20 : long ≤ 20) (hpos : 0 < R.env.cfg.longLarge) (h100 : R.env.cfg.longLarge ≤ 100)
    (hs : ∀ c ∈ surrounding R.env long lat, ∃ x, c.long = some x ∧ 320 ≤ x ∧ x ≤ 360) :
    (updateMapping R.args fs).1 ≠ none ∧ ∀ s ∈ (updateMapping R.args fs).2, s = fs := by
  have hne : (updateMapping R.args fs).1 ≠ none := by
    intro h
    obtain ⟨i, hi, hfi⟩ := List.mem_iff_getElem.1 hf
    obtain ⟨r, hr, -⟩ := fresh_ok_all R.args fs hload h i (by change i < R.no.length; omega)
    change profilesOf R.env R.source i = .ok r at hr
    unfold profilesOf item at hr
    rw [List.getElem?_eq_getElem hi, hfi] at hr
    simp only [bind, Except.bind] at hr
    unfold profileOf at hr
    rw [if_pos ((usable_iff f).2 hp), hlat, hlong] at hr
    simp only [bind, Except.bind] at hr
    cases hpr : prepare R.env f lat long with
    | error e => rw [hpr] at hr; cases hr
    | ok p =>
      obtain ⟨z, b, -, hb, -⟩ := prepare_ok _ _ _ _ _ hpr
      obtain ⟨boxes, hl, gz, idx, d, bz, g1, g2, g3, g4, g5, -⟩ := chosenCasts_ok _ _ _ _ _ _ hb
      have hsur : surrounding R.env long lat = refCasts R.env.disk R.env.name boxes := by
        unfold surrounding; rw [g1]
      rw [hsur] at hs
      obtain ⟨s1, s2⟩ := hist_locations_spec R.env.disk hw R.env.name boxes
      have hcne : refCasts R.env.disk R.env.name boxes ≠ [] := by
        intro h0
        rw [s1 h0] at g2
        cases g2
      rw [s2 hcne] at g2
      have hl' := (Except.ok.inj g2).symm
      subst hl'
      have hwrap : wrapLongitude ((refCasts R.env.disk R.env.name boxes).map (·.long)) =
          (refCasts R.env.disk R.env.name boxes).map (·.long) := by
        have hid : ∀ (g : ℝ → ℝ), (∀ x, 320 ≤ x → x ≤ 360 → g x = x) →
            ((refCasts R.env.disk R.env.name boxes).map (·.long)).map (Option.map g) =
              (refCasts R.env.disk R.env.name boxes).map (·.long) := by
          intro g hg
          rw [List.map_map]
          apply List.map_congr_left
          intro c hc
          obtain ⟨x, hx, x1, x2⟩ := hs c hc
          simp only [Function.comp, hx, Option.map_some, hg x x1 x2]
        rcases wrapLongitude_cases ((refCasts R.env.disk R.env.name boxes).map (·.long)) with ⟨-, e⟩ | ⟨-, e⟩
        · rw [e]
          apply hid
          intro x x1 x2
          simp only [w1, w2]
          split_ifs <;> linarith
        · rw [e]
          apply hid
          intro x x1 x2
          simp only [w1]
          split_ifs <;> linarith
      rw [hwrap] at g4
      have hm : matchLongitude ((refCasts R.env.disk R.env.name boxes).map (·.long)) long = long := by
        refine (matchLongitude_spec _ _).2 (Or.inl ?_)
        intro x hx
        obtain ⟨c, hc, hcx⟩ := List.mem_map.1 hx
        obtain ⟨x', e1, -, e2⟩ := hs c hc
        rw [e1] at hcx
        rw [← Option.some.inj hcx]
        exact e2
      dsimp only at g4
      rw [hm] at g4
      have hidx : idx ≠ [] := by
        rintro rfl
        rw [region_data_none _ hw _ _ _ _ _ (chosen_nil _)] at g5
        cases g5
      obtain ⟨c, hc, x, y, hx, hy, hell⟩ := besthist_some_inside _ _ _ _ _ g4 hidx
      unfold Verif.Profile.castsOf at hc
      obtain ⟨q, hq, rfl⟩ := List.mem_map.1 hc
      have hq2 := (List.of_mem_zip (List.of_mem_zip hq).2).1
      obtain ⟨rc, hrc, hrx⟩ := List.mem_map.1 hq2
      obtain ⟨x', e1, e2, -⟩ := hs rc hrc
      dsimp only at hx hrx
      rw [← hrx, e1] at hx
      have hxx := Option.some.inj hx
      subst hxx
      have hfar : 1 ≤ ((x' - long) / (3 * R.env.cfg.longLarge)) ^ 2 := by
        have : 1 ≤ (x' - long) / (3 * R.env.cfg.longLarge) := by
          rw [le_div_iff₀ (by linarith)]; linarith
        nlinarith
      have h2 := sq_nonneg ((y - lat) / (3 * R.env.cfg.latLarge))
      have hineq : ((x' - long) / (3 * R.env.cfg.longLarge)) ^ 2 + ((y - lat) / (3 * R.env.cfg.latLarge)) ^ 2 < 1 := by
        split_ifs at hell with hpv
        · obtain ⟨zz, -, -, -, hlt⟩ := hell
          have hpv0 : (0 : ℝ) ≤ (potentialVorticity lat z - potentialVorticity y zz) ^ 2 /
              (potentialVorticity lat z ^ 2 + potentialVorticity y zz ^ 2) / R.env.cfg.phiLarge ^ 2 := by positivity
          change ((x' - long) / (3 * R.env.cfg.longLarge)) ^ 2 + ((y - lat) / (3 * R.env.cfg.latLarge)) ^ 2 +
            (potentialVorticity lat z - potentialVorticity y zz) ^ 2 /
              (potentialVorticity lat z ^ 2 + potentialVorticity y zz ^ 2) / R.env.cfg.phiLarge ^ 2 < 1 at hlt
          linarith
        · exact hell
      linarith
  refine ⟨hne, ?_⟩
  cases h1 : (updateMapping R.args fs).1 with
  | none => exact absurd h1 hne
  | some e' => exact (run_writes_only_at_end R.args fs).1 e' h1

/-! ## Depths -/

/-- C97. With a complete bathymetry file the depth at the float can be looked up for every position in the usual ranges. -/
theorem float_depth_defined (E : Env) (hf : E.topo.length = 2160 * 4320) (lat long : ℝ) (h1 : -90 ≤ lat) (h2 : lat ≤ 90)
    (h3 : -180 ≤ long) (h4 : long ≤ 540) : ∃ z, floatDepth E lat long = .ok z := by
  have ht : -180 ≤ tbase long ∧ tbase long ≤ 180 := by
    unfold tbase; split_ifs <;> constructor <;> linarith
  obtain ⟨topo, lgs, lts, e, -⟩ := topo_grid_window E.topo hf (tbase long - 1) (tbase long + 1) (lat - 1) (lat + 1)
    (by linarith) (by linarith) (by linarith) (by linarith) (Or.inl ⟨by linarith, by linarith⟩)
  unfold floatDepth
  dsimp only
  rw [e]
  exact ⟨_, rfl⟩

theorem mapM_id_some {α : Type} (l : List α) : (l.map some).mapM id = some l := by
  induction l with
  | nil => rfl
  | cons a l ih => rw [List.map_cons, List.mapM_cons, ih]; rfl

/-- C97. The depths at the reference casts can be looked up too, one for each cast, if all positions are known and in the usual ranges (longitudes up to
540, as wrapping produces them). -/
theorem grid_depths_defined (E : Env) (hf : E.topo.length = 2160 * 4320) (lats longs : List ℝ) (hlen : lats.length = longs.length)
    (hne : lats ≠ []) (hla : ∀ y ∈ lats, -90 ≤ y ∧ y ≤ 90) (hlo : ∀ x ∈ longs, -180 ≤ x ∧ x ≤ 540) :
    ∃ gz, gridDepths E (lats.map some) (longs.map some) = .ok gz ∧ gz.length = lats.length := by
  have hne2 : longs ≠ [] := by
    rintro rfl
    exact hne (List.length_eq_zero_iff.1 hlen)
  have ht : ∀ t ∈ longs.map tbase, -180 ≤ t ∧ t ≤ 180 := by
    intro t ht
    obtain ⟨x, hx, rfl⟩ := List.mem_map.1 ht
    have := hlo x hx
    unfold tbase; split_ifs <;> constructor <;> linarith
  have hts : longs.map tbase ≠ [] := by simpa using hne2
  unfold gridDepths
  rw [mapM_id_some, mapM_id_some]
  dsimp only
  obtain ⟨x0, e1⟩ := Option.ne_none_iff_exists'.1 (fun h => hts (List.min?_eq_none_iff.1 h))
  obtain ⟨x1, e2⟩ := Option.ne_none_iff_exists'.1 (fun h => hts (List.max?_eq_none_iff.1 h))
  obtain ⟨y0, e3⟩ := Option.ne_none_iff_exists'.1 (fun h => hne (List.min?_eq_none_iff.1 h))
  obtain ⟨y1, e4⟩ := Option.ne_none_iff_exists'.1 (fun h => hne (List.max?_eq_none_iff.1 h))
  rw [e1, e2, e3, e4]
  dsimp only
  have m1 := List.min?_eq_some_iff.1 e1
  have m2 := List.max?_eq_some_iff.1 e2
  have m3 := List.min?_eq_some_iff.1 e3
  have m4 := List.max?_eq_some_iff.1 e4
  have b1 := ht x0 m1.1
  have b2 := ht x1 m2.1
  have b3 := hla y0 m3.1
  have b4 := hla y1 m4.1
  have o1 := m1.2 x1 m2.1
  have o2 := m3.2 y1 m4.1
  obtain ⟨topo, lgs, lts, e, -⟩ := topo_grid_window E.topo hf (x0 - 1) (x1 + 1) (y0 - 1) (y1 + 1)
    (by linarith) (by linarith) (by linarith) (by linarith) (Or.inl ⟨by linarith, by linarith⟩)
  rw [e]
  refine ⟨_, rfl, ?_⟩
  simp [hlen]

end Verif.Props
