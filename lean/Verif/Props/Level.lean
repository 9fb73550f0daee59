import Verif.Lemmas.Level
import Verif.Props.Helper

/-!
# C50 and C79-C82: the mapping of one level
-/

set_option linter.unusedSectionVars false

namespace Verif.Props

open Verif.Np Verif.Spec Verif.Stats Verif.Mapping Verif.Helper Verif.Level

/-! ## C50: outliers -/

/-- C50. Fewer than one ninth of the casts are outliers. -/
theorem few_outliers (sal : List ℝ) (hne : sal ≠ []) (js : List ℕ) (hd : js.Nodup) (hj : ∀ j ∈ js, IsOutlier sal j) :
    9 * js.length < sal.length := by
  have h1 : js.length ≤ (outliers sal (populationVariance sal)).length := by
    apply List.Subperm.length_le
    exact List.subperm_of_subset hd fun j hj' => (mem_outliers sal j).2 (hj j hj')
  have := outliers_few sal hne
  omega

/-- C50. Among at most ten casts there is no outlier: the test does nothing. -/
theorem no_outlier_among_ten (sal : List ℝ) (h : sal.length ≤ 10) (j : ℕ) : ¬ IsOutlier sal j := by
  rw [← mem_outliers, outliers_none sal h]
  simp

/-- Ten zeros and a one: the one is an outlier. -/
example : IsOutlier (1 :: List.replicate 10 0) 0 := by
  refine ⟨1, rfl, ?_⟩
  rw [lt_abs_iff_sq _ _ (populationVariance_nonneg _)]
  unfold populationVariance meanOf
  norm_num [List.replicate]

/-- The casts used at a level exist, and are exactly the casts that are not outliers. -/
theorem level_casts (c : MapConfig) (f : FloatPos) (n : ℕ) (h : HistData ℝ) (ha : HistAligned n h) (hn : 0 < n) :
    ∃ (h' : HistData ℝ) (m : ℕ), WithoutOutliers h h' ∧ HistAligned m h' ∧ 0 < m ∧ n < m + m ∧
      ∃ (nv : ℝ) (pos : List Pos), noiseVariance (histObs h') = .ok (some nv) ∧ 0 ≤ nv ∧
        columnStack h'.lat h'.long h'.dates h'.z = .ok pos ∧ pos.length = m ∧
        mapCasts c f h = (mapStages c (toPos f) (fun i : Fin pos.length => h'.sal.getD i 0) (fun i => pos[(i : ℕ)])
          (populationVariance h'.sal) nv).map fun r => (h', r) := by
  have hne : h.sal ≠ [] := by intro h0; have := ha.sal; rw [h0] at this; simp at this; omega
  have hout : ∀ i ∈ outliers h.sal (populationVariance h.sal), i < n := fun i hi => by
    have := outliers_lt _ _ _ hi; rwa [ha.sal] at this
  obtain ⟨h', e1, hA⟩ := removeOutliers_at (outliers h.sal (populationVariance h.sal)) n h ha hout
  set js := (List.range n).filter fun i => decide (i ∉ outliers h.sal (populationVariance h.sal)) with hjs
  have hal := histAt_aligned hA
  have hcount : js.length + (outliers h.sal (populationVariance h.sal)).length = n := by
    have hperm : ((List.range n).filter fun i => decide (i ∈ outliers h.sal (populationVariance h.sal))).Perm
        (outliers h.sal (populationVariance h.sal)) := by
      rw [List.perm_ext_iff_of_nodup (List.nodup_range.filter _) (by unfold outliers; exact argwhere_nodup _ _)]
      intro a
      simp only [List.mem_filter, List.mem_range, decide_eq_true_eq]
      exact ⟨fun h => h.2, fun h => ⟨hout a h, h⟩⟩
    have h1 := List.length_eq_length_filter_add (l := List.range n)
      (fun i => decide (i ∈ outliers h.sal (populationVariance h.sal)))
    rw [hperm.length_eq, List.length_range] at h1
    have h2 : ((List.range n).filter fun i => !decide (i ∈ outliers h.sal (populationVariance h.sal))) = js := by
      rw [hjs]; congr 1; funext i; simp
    rw [h2] at h1
    omega
  have hfew := outliers_few h.sal hne
  rw [ha.sal] at hfew
  have hm : 0 < js.length := by omega
  have hne' : h'.sal ≠ [] := by intro h0; have := hal.sal; rw [h0] at this; simp at this; omega
  have hobs : ∀ a ∈ histObs h', a.lat ≠ none ∧ a.long ≠ none ∧ a.sal ≠ none := by
    intro a ha'
    unfold histObs at ha'
    obtain ⟨p, -, rfl⟩ := List.mem_map.1 ha'
    simp
  obtain ⟨nv, hnv⟩ := noise_variance_total (histObs h') hobs
  have hnv0 : 0 ≤ nv := by
    obtain ⟨lo, hlo⟩ : ∃ lo, ∀ s ∈ h'.sal, lo ≤ s := by
      refine ⟨-(h'.sal.map fun s => |s|).sum, fun s hs => ?_⟩
      have h1 : |s| ≤ (h'.sal.map fun s => |s|).sum :=
        List.single_le_sum (by intro x hx; obtain ⟨y, -, rfl⟩ := List.mem_map.1 hx; exact abs_nonneg y) _
          (List.mem_map.2 ⟨s, hs, rfl⟩)
      have := neg_abs_le s
      linarith
    obtain ⟨hi, hhi⟩ : ∃ hi, ∀ s ∈ h'.sal, s ≤ hi := by
      refine ⟨(h'.sal.map fun s => |s|).sum, fun s hs => ?_⟩
      have h1 : |s| ≤ (h'.sal.map fun s => |s|).sum :=
        List.single_le_sum (by intro x hx; obtain ⟨y, -, rfl⟩ := List.mem_map.1 hx; exact abs_nonneg y) _
          (List.mem_map.2 ⟨s, hs, rfl⟩)
      exact (le_abs_self s).trans h1
    obtain ⟨s0, hs0⟩ := List.exists_mem_of_ne_nil _ hne'
    refine (noise_variance_bounds (histObs h') nv lo hi ((hlo s0 hs0).trans (hhi s0 hs0)) hnv ?_).1
    intro a ha' s hs
    unfold histObs at ha'
    obtain ⟨p, hp, rfl⟩ := List.mem_map.1 ha'
    have hmem := (List.of_mem_zip hp).1
    simp only [Option.some.injEq] at hs
    subst hs
    exact ⟨hlo _ hmem, hhi _ hmem⟩
  obtain ⟨pos, hp1, hp2, hp3⟩ := columnStack_ok js.length h'.lat h'.long h'.dates h'.z hal.lat hal.long hal.dates hal.z
  refine ⟨h', js.length, ⟨js, List.pairwise_lt_range.filter _, ?_, hA⟩, hal, hm, by omega, nv, pos, hnv, hnv0, hp1, hp2, ?_⟩
  · intro j
    rw [hjs]
    simp only [List.mem_filter, List.mem_range, decide_eq_true_eq, mem_outliers, ha.sal]
  · unfold mapCasts
    rw [signal_known _ hne]
    simp only [bind, Except.bind]
    rw [e1]
    simp only
    rw [observations_eq, hnv]
    simp only
    rw [signal_known _ hne']
    simp only
    rw [hp1]
    simp only
    rw [if_pos (by rw [hal.sal, hp2])]
    rfl

/-- C50. The casts used at a level are exactly those that are not outliers, with all arrays cut alike. -/
theorem level_drops_outliers (c : MapConfig) (f : FloatPos) (n : ℕ) (h h' : HistData ℝ) (r : LevelResult) (ha : HistAligned n h)
    (hr : mapCasts c f h = .ok (h', r)) (hn : 0 < n) : WithoutOutliers h h' := by
  obtain ⟨h'', m, h1, -, -, -, nv, pos, -, -, -, -, e⟩ := level_casts c f n h ha hn
  rw [e] at hr
  cases hs : mapStages c (toPos f) (fun i : Fin pos.length => h''.sal.getD i 0) (fun i => pos[(i : ℕ)])
      (populationVariance h''.sal) nv with
  | error e' => rw [hs] at hr; simp [Except.map] at hr
  | ok r' =>
    rw [hs] at hr
    simp only [Except.map, Except.ok.injEq, Prod.mk.injEq] at hr
    rw [← hr.1]; exact h1

/-! ## C79, C80: the value stored at a level -/

/-- `level_mapping_spec` with the value returned by `noise_variance`. -/
theorem level_mapping_all (c : MapConfig) (hc : ProperConfig c) (f : FloatPos) (n : ℕ) (h : HistData ℝ) (ha : HistAligned n h)
    (hn : 0 < n) (hz : ProperDepths c f h) :
    ∃ (h' : HistData ℝ) (m : ℕ) (sal : Fin m → ℝ) (data : Fin m → FloatPos) (nv : ℝ),
      WithoutOutliers h h' ∧ 0 < m ∧ h'.sal = List.ofFn sal ∧ h'.lat = List.ofFn (fun i => (data i).lat) ∧
      h'.long = List.ofFn (fun i => (data i).long) ∧ h'.dates = List.ofFn (fun i => (data i).date) ∧
      h'.z = List.ofFn (fun i => (data i).z) ∧
      noiseVariance (histObs h') = .ok (some nv) ∧ 0 ≤ nv ∧
      (nv = 0 → mapCasts c f h = .error .linAlgError) ∧
      (0 < nv → ∃ (w1 : Fin m → ℝ) (W : Fin m → Fin m → ℝ) (res w2 : Fin m → ℝ) (e1 e2 : ℝ),
        BestWeights (fieldCorrelation c.latLarge c.longLarge c.ageLarge c.phiLarge c.usePv) (populationVariance h'.sal) nv data f w1 ∧
        (∀ i, BestWeights (fieldCorrelation c.latLarge c.longLarge c.ageLarge c.phiLarge c.usePv) (populationVariance h'.sal) nv data
          (data i) (W i)) ∧
        (∀ i, res i = sal i - ∑ j, W i j * sal j) ∧
        BestWeights (fieldCorrelation c.latSmall c.longSmall c.ageSmall c.phiSmall c.usePv) (populationVariance (List.ofFn res)) nv data
          f w2 ∧
        0 ≤ e1 ∧ e1 ^ 2 = mseOf (fieldCorrelation c.latLarge c.longLarge c.ageLarge c.phiLarge c.usePv) (populationVariance h'.sal) nv data
          f w1 ∧
        0 ≤ e2 ∧ e2 ^ 2 = mseOf (fieldCorrelation c.latSmall c.longSmall c.ageSmall c.phiSmall c.usePv)
          (populationVariance (List.ofFn res)) nv data f w2 ∧
        mapCasts c f h = .ok (h', ⟨some (∑ j, w1 j * sal j + ∑ j, w2 j * res j), some (Real.sqrt (e1 ^ 2 + e2 ^ 2)), some nv,
          populationVariance h'.sal⟩)) := by
  obtain ⟨h', m, hwo, hal, hm, -, nv, pos, hnv, hnv0, hstack, hlen, e⟩ := level_casts c f n h ha hn
  subst hlen
  obtain ⟨pos', hp1, -, hp3⟩ := columnStack_ok pos.length h'.lat h'.long h'.dates h'.z hal.lat hal.long hal.dates hal.z
  rw [hstack] at hp1
  have hpp := Except.ok.inj hp1
  subst hpp
  have hat : ∀ i : Fin pos.length, h'.lat[(i : ℕ)]? = some (pos[(i : ℕ)]).c0 ∧ h'.long[(i : ℕ)]? = some (pos[(i : ℕ)]).c1 ∧
      h'.dates[(i : ℕ)]? = some (pos[(i : ℕ)]).c2 ∧ h'.z[(i : ℕ)]? = some (pos[(i : ℕ)]).c3 :=
    fun i => hp3 i _ (List.getElem?_eq_getElem i.2)
  have hofFn : ∀ (l : List ℝ) (g : Fin pos.length → ℝ), l.length = pos.length → (∀ i : Fin pos.length, l[(i : ℕ)]? = some (g i)) →
      l = List.ofFn g := by
    intro l g hl hg
    apply List.ext_getElem?
    intro i
    by_cases hi : i < pos.length
    · rw [hg ⟨i, hi⟩]; simp [hi]
    · rw [List.getElem?_eq_none (by omega), List.getElem?_eq_none (by simp; omega)]
  set data : Fin pos.length → FloatPos := fun i => ⟨(pos[(i : ℕ)]).c0, (pos[(i : ℕ)]).c1, (pos[(i : ℕ)]).c2, (pos[(i : ℕ)]).c3⟩
    with hdata
  have hdp : (fun i : Fin pos.length => pos[(i : ℕ)]) = fun i => toPos (data i) := rfl
  have hpv : c.usePv = 1 → (toPos f).c3 ≠ 0 ∧ ∀ i, (toPos (data i)).c3 ≠ 0 := by
    intro hp
    refine ⟨(hz hp).1, fun i => (hz hp).2 _ ?_⟩
    obtain ⟨js, -, -, hA⟩ := hwo
    have h1 := (hat i).2.2.2
    have h2 : (h'.z.map some)[(i : ℕ)]? = some (some (pos[(i : ℕ)]).c3) := by rw [List.getElem?_map, h1]; rfl
    rw [hA.z, List.getElem?_map] at h2
    cases hj : js[(i : ℕ)]? with
    | none => rw [hj] at h2; simp at h2
    | some j =>
      rw [hj] at h2
      simp only [Option.map_some, Option.some.injEq] at h2
      exact List.mem_of_getElem? h2
  refine ⟨h', pos.length, fun i => h'.sal.getD i 0, data, nv, hwo, hm, ?_, ?_, ?_, ?_, ?_, hnv, hnv0, ?_, ?_⟩
  · refine hofFn _ _ hal.sal fun i => ?_
    rw [List.getD_eq_getElem?_getD, List.getElem?_eq_getElem (by rw [hal.sal]; exact i.2)]; rfl
  · exact hofFn _ _ hal.lat fun i => (hat i).1
  · exact hofFn _ _ hal.long fun i => (hat i).2.1
  · exact hofFn _ _ hal.dates fun i => (hat i).2.2.1
  · exact hofFn _ _ hal.z fun i => (hat i).2.2.2
  · rintro rfl
    rw [e, hdp, mapStages_zero c (toPos f) (fun i => toPos (data i)) hpv hm hc _ (populationVariance_nonneg _)]
    rfl
  · intro hpos
    obtain ⟨w1, W, e1, b1, b2, b3, b4, b5⟩ := mapStages_pos c hc (toPos f) (fun i => toPos (data i)) hpv hm
      (populationVariance h'.sal) nv (populationVariance_nonneg _) hpos
    obtain ⟨w2, e2, c1, c2, c3, c4⟩ := b5 (fun i => h'.sal.getD i 0) _ (fun _ => rfl)
    refine ⟨w1, W, _, w2, e1, e2, b1, b2, fun _ => rfl, c1, b3, b4, c2, c3, ?_⟩
    rw [e, hdp, c4]
    rfl

/-- C79, C80. Let `h'` be the casts without the outliers and `nv` their noise variance. If `nv = 0` the level fails with `LinAlgError`. Otherwise
it stores the sum of two best linear unbiased estimates at the float: of the salinities, for the field with the large scales and the signal
variance, and of the residuals of the first estimate at the casts, for the field with the small scales and the variance of the residuals. The
error is the root of the sum of the two mean squared errors. Latitude differences are scaled by the latitude scales. -/
theorem level_mapping_spec (c : MapConfig) (hc : ProperConfig c) (f : FloatPos) (n : ℕ) (h : HistData ℝ) (ha : HistAligned n h)
    (hn : 0 < n) (hz : ProperDepths c f h) :
    ∃ (h' : HistData ℝ) (m : ℕ) (sal : Fin m → ℝ) (data : Fin m → FloatPos) (nv : ℝ),
      WithoutOutliers h h' ∧ 0 < m ∧ h'.sal = List.ofFn sal ∧ h'.lat = List.ofFn (fun i => (data i).lat) ∧
      h'.long = List.ofFn (fun i => (data i).long) ∧ h'.dates = List.ofFn (fun i => (data i).date) ∧
      h'.z = List.ofFn (fun i => (data i).z) ∧
      IsNoiseVariance (histObs h') nv ∧ 0 ≤ nv ∧
      (nv = 0 → mapCasts c f h = .error .linAlgError) ∧
      (0 < nv → ∃ (w1 : Fin m → ℝ) (W : Fin m → Fin m → ℝ) (res w2 : Fin m → ℝ) (e1 e2 : ℝ),
        BestWeights (fieldCorrelation c.latLarge c.longLarge c.ageLarge c.phiLarge c.usePv) (populationVariance h'.sal) nv data f w1 ∧
        (∀ i, BestWeights (fieldCorrelation c.latLarge c.longLarge c.ageLarge c.phiLarge c.usePv) (populationVariance h'.sal) nv data
          (data i) (W i)) ∧
        (∀ i, res i = sal i - ∑ j, W i j * sal j) ∧
        BestWeights (fieldCorrelation c.latSmall c.longSmall c.ageSmall c.phiSmall c.usePv) (populationVariance (List.ofFn res)) nv data
          f w2 ∧
        0 ≤ e1 ∧ e1 ^ 2 = mseOf (fieldCorrelation c.latLarge c.longLarge c.ageLarge c.phiLarge c.usePv) (populationVariance h'.sal) nv data
          f w1 ∧
        0 ≤ e2 ∧ e2 ^ 2 = mseOf (fieldCorrelation c.latSmall c.longSmall c.ageSmall c.phiSmall c.usePv)
          (populationVariance (List.ofFn res)) nv data f w2 ∧
        mapCasts c f h = .ok (h', ⟨some (∑ j, w1 j * sal j + ∑ j, w2 j * res j), some (Real.sqrt (e1 ^ 2 + e2 ^ 2)), some nv,
          populationVariance h'.sal⟩)) := by
  obtain ⟨h', m, sal, data, nv, h1, h2, h3, h4, h5, h6, h7, h8, h9⟩ := level_mapping_all c hc f n h ha hn hz
  exact ⟨h', m, sal, data, nv, h1, h2, h3, h4, h5, h6, h7, noise_variance_is _ _ h8, h9⟩

/-- C80. If all salinities are equal the level fails with `LinAlgError`. -/
theorem level_constant_fails (c : MapConfig) (hc : ProperConfig c) (f : FloatPos) (n : ℕ) (h : HistData ℝ) (ha : HistAligned n h)
    (hn : 0 < n) (hz : ProperDepths c f h) (v : ℝ) (hv : ∀ s ∈ h.sal, s = v) : mapCasts c f h = .error .linAlgError := by
  obtain ⟨h', m, sal, data, nv, ⟨js, -, -, hA⟩, -, -, -, -, -, -, hnv, -, h0, -⟩ := level_mapping_all c hc f n h ha hn hz
  apply h0
  refine noise_variance_constant (histObs h') nv v hnv ?_
  intro a ha' s hs
  unfold histObs at ha'
  obtain ⟨p, hp, rfl⟩ := List.mem_map.1 ha'
  have hmem := (List.of_mem_zip hp).1
  simp only [Option.some.injEq] at hs
  subst hs
  have h1 : some p.1 ∈ h'.sal.map some := List.mem_map.2 ⟨_, hmem, rfl⟩
  rw [hA.sal] at h1
  obtain ⟨j, -, hj⟩ := List.mem_map.1 h1
  exact hv _ (List.mem_of_getElem? hj)

/-- C80. If all casts are at the same position the level fails with `LinAlgError`. -/
theorem level_one_position_fails (c : MapConfig) (hc : ProperConfig c) (f : FloatPos) (n : ℕ) (h : HistData ℝ) (ha : HistAligned n h)
    (hn : 0 < n) (hz : ProperDepths c f h) (x y : ℝ) (hx : ∀ s ∈ h.long, s = x) (hy : ∀ s ∈ h.lat, s = y) :
    mapCasts c f h = .error .linAlgError := by
  obtain ⟨h', m, sal, data, nv, ⟨js, -, -, hA⟩, -, -, -, -, -, -, hnv, -, h0, -⟩ := level_mapping_all c hc f n h ha hn hz
  apply h0
  have hall : ∀ (l l' : List ℝ) (v : ℝ), l'.map some = (js.map fun j => l[j]?) → (∀ s ∈ l, s = v) → ∀ s ∈ l', s = v := by
    intro l l' v e hl s hs
    have h1 : some s ∈ l'.map some := List.mem_map.2 ⟨_, hs, rfl⟩
    rw [e] at h1
    obtain ⟨j, -, hj⟩ := List.mem_map.1 h1
    exact hl _ (List.mem_of_getElem? hj)
  have hco : Coincide (histObs h') := by
    intro a ha' b hb'
    unfold histObs at ha' hb'
    obtain ⟨p, hp, rfl⟩ := List.mem_map.1 ha'
    obtain ⟨q, hq, rfl⟩ := List.mem_map.1 hb'
    have p1 := List.of_mem_zip (List.of_mem_zip hp).2
    have q1 := List.of_mem_zip (List.of_mem_zip hq).2
    refine ⟨_, _, _, _, rfl, rfl, rfl, rfl, ?_⟩
    rw [hall _ _ y hA.lat hy _ p1.1, hall _ _ y hA.lat hy _ q1.1, hall _ _ x hA.long hx _ p1.2, hall _ _ x hA.long hx _ q1.2]
    ring
  rw [noise_variance_coincide _ hco] at hnv
  exact (Option.some.inj (Except.ok.inj hnv)).symm

/-! ## C81: units and offsets -/

/-- The same casts with salinities on another scale. -/
def rescale (a b : ℝ) (h : HistData ℝ) : HistData ℝ := { h with sal := h.sal.map fun s => a * s + b }

theorem populationVariance_affine (a b : ℝ) (l : List ℝ) (hne : l ≠ []) :
    populationVariance (l.map fun s => a * s + b) = a ^ 2 * populationVariance l := by
  have e : (l.map fun s => a * s + b) = (l.map (a * ·)).map (· + b) := by rw [List.map_map]; rfl
  rw [e, populationVariance_shift _ _ (by simpa using hne), populationVariance_scale]

theorem meanOf_affine (a b : ℝ) (l : List ℝ) (hne : l ≠ []) : meanOf (l.map fun s => a * s + b) = a * meanOf l + b := by
  have e : (l.map fun s => a * s + b) = (l.map (a * ·)).map (· + b) := by rw [List.map_map]; rfl
  have hl : (l.length : ℝ) ≠ 0 := by
    have := List.length_pos_of_ne_nil hne
    exact_mod_cast this.ne'
  unfold meanOf
  rw [e, sum_map_add_const, sum_map_mul_const]
  simp only [List.length_map]
  field_simp

theorem isOutlier_affine (a b : ℝ) (ha : a ≠ 0) (l : List ℝ) (j : ℕ) : IsOutlier (l.map fun s => a * s + b) j ↔ IsOutlier l j := by
  by_cases hne : l = []
  · subst hne; simp [IsOutlier]
  unfold IsOutlier
  rw [populationVariance_affine a b l hne, meanOf_affine a b l hne, Real.sqrt_mul (sq_nonneg a), Real.sqrt_sq_eq_abs]
  have hpos : 0 < |a| := abs_pos.2 ha
  simp only [List.getElem?_map]
  constructor
  · rintro ⟨s, hs, hlt⟩
    obtain ⟨t, ht, rfl⟩ := Option.map_eq_some_iff.1 hs
    refine ⟨t, ht, ?_⟩
    have e : a * t + b - (a * meanOf l + b) = a * (t - meanOf l) := by ring
    rw [e, abs_mul] at hlt
    have : |a| * (3 * Real.sqrt (populationVariance l)) < |a| * |t - meanOf l| := by linarith
    exact lt_of_mul_lt_mul_left this hpos.le
  · rintro ⟨t, ht, hlt⟩
    refine ⟨a * t + b, by rw [ht]; rfl, ?_⟩
    have e : a * t + b - (a * meanOf l + b) = a * (t - meanOf l) := by ring
    rw [e, abs_mul]
    have := mul_lt_mul_of_pos_left hlt hpos
    linarith

theorem withoutOutliers_unique {h x y : HistData ℝ} (hx : WithoutOutliers h x) (hy : WithoutOutliers h y) : x = y := by
  obtain ⟨js, s1, m1, A⟩ := hx
  obtain ⟨ks, s2, m2, B⟩ := hy
  have hjk : js = ks := by
    apply List.Perm.eq_of_pairwise (le := (· < ·)) (fun a b _ _ h1 h2 => absurd h1 (by omega)) s1 s2
    rw [List.perm_ext_iff_of_nodup (s1.imp fun h => ne_of_lt h) (s2.imp fun h => ne_of_lt h)]
    intro a; rw [m1, m2]
  subst hjk
  have inj : Function.Injective (List.map (some : ℝ → Option ℝ)) := List.map_injective_iff.2 (Option.some_injective _)
  have e1 := inj (A.sal.trans B.sal.symm)
  have e2 := inj (A.pres.trans B.pres.symm)
  have e3 := inj (A.long.trans B.long.symm)
  have e4 := inj (A.lat.trans B.lat.symm)
  have e5 := inj (A.dates.trans B.dates.symm)
  have e6 := inj (A.z.trans B.z.symm)
  cases x; cases y
  simp_all

theorem withoutOutliers_rescale (a b : ℝ) (ha : a ≠ 0) {h h' : HistData ℝ} (hw : WithoutOutliers h h') :
    WithoutOutliers (rescale a b h) (rescale a b h') := by
  obtain ⟨js, s1, m1, A⟩ := hw
  refine ⟨js, s1, ?_, ⟨?_, A.pres, A.long, A.lat, A.dates, A.z⟩⟩
  · intro j
    rw [m1]
    simp only [rescale, List.length_map, isOutlier_affine a b ha]
  · simp only [rescale, List.getElem?_map, List.map_map]
    have := congrArg (List.map (Option.map fun s => a * s + b)) A.sal
    simpa [List.map_map, Function.comp_def] using this

theorem noise_variance_affine (obs : List (Obs ℝ)) (a c : ℝ) :
    noiseVariance (obs.map fun o => { o with sal := o.sal.map fun s => a * s + c }) = (noiseVariance obs).map (Option.map (a ^ 2 * ·)) := by
  set sh : Obs ℝ → Obs ℝ := fun o => { o with sal := o.sal.map fun s => a * s + c } with hsh
  have hsq : ∀ x y, noiseSq (sh x) (sh y) = (noiseSq x y).map (a ^ 2 * ·) := by
    intro x y
    unfold noiseSq
    simp only [hsh]
    cases x.sal <;> cases y.sal <;> simp
    ring
  have hnear : ∀ x, nearest (obs.map sh) (sh x) = nearest obs x := by
    intro x
    unfold nearest
    rw [List.map_map]
    rfl
  have hall : ((obs.map sh).all fun a => (obs.map sh).all fun b => decide (dist a b = some 0)) =
      (obs.all fun a => obs.all fun b => decide (dist a b = some 0)) := by
    rw [List.all_map]
    congr 1
    funext a
    simp only [Function.comp]
    rw [List.all_map]
    rfl
  have hmap : (obs.map sh).mapM (nearest (obs.map sh)) = obs.mapM (nearest obs) := by
    rw [List.mapM_map]
    congr 1
    funext a
    exact hnear a
  have hgather : ∀ idx : List ℕ, gather (obs.map sh) idx = (gather obs idx).map (List.map sh) := by
    intro idx
    induction idx with
    | nil => rfl
    | cons j idx ih =>
      unfold gather at ih ⊢
      rw [List.mapM_cons, List.mapM_cons, ih, List.getElem?_map]
      cases hj : obs[j]? with
      | none => rfl
      | some b =>
        simp only [Option.map_some, bind, Except.bind]
        generalize (List.mapM _ idx : Except PyErr (List (Obs ℝ))) = x
        cases x <;> rfl
  have hmean : ∀ l : List (Option ℝ), nanmean (l.map (Option.map (a ^ 2 * ·))) = (nanmean l).map (a ^ 2 * ·) := by
    intro l
    unfold nanmean
    have e : (l.map (Option.map (a ^ 2 * ·))).filterMap id = (l.filterMap id).map (a ^ 2 * ·) := by
      rw [List.filterMap_map, List.map_filterMap]; rfl
    simp only [e, List.map_eq_nil_iff, sum_map_mul_const, List.length_map]
    split_ifs
    · rfl
    · simp only [Option.map_some, Option.some.injEq]; ring
  unfold noiseVariance
  rw [hall, hmap]
  split_ifs with h
  · simp [Except.map]
  · cases hi : obs.mapM (nearest obs) with
    | error e => rfl
    | ok idx =>
      simp only [bind, Except.bind]
      rw [hgather idx]
      cases ho : gather obs idx with
      | error e => rfl
      | ok other =>
        simp only [Except.map, pure, Except.pure]
        have e : List.zipWith noiseSq (obs.map sh) (other.map sh) = (List.zipWith noiseSq obs other).map (Option.map (a ^ 2 * ·)) := by
          rw [List.zipWith_map, List.map_zipWith]
          congr 1
          funext x y
          exact hsq x y
        rw [e, hmean]
        cases nanmean (List.zipWith noiseSq obs other) with
        | none => rfl
        | some v => simp; ring

theorem mseOf_scale {n : ℕ} (rho : FloatPos → FloatPos → ℝ) (a s noise : ℝ) (data : Fin n → FloatPos) (g : FloatPos) (l : Fin n → ℝ) :
    mseOf rho (a ^ 2 * s) (a ^ 2 * noise) data g l = a ^ 2 * mseOf rho s noise data g l := by
  unfold mseOf
  rw [mul_add, mul_sub, Finset.mul_sum, Finset.mul_sum, Finset.mul_sum, Finset.mul_sum]
  congr 1
  · congr 1
    exact Finset.sum_congr rfl fun j _ => by ring
  · refine Finset.sum_congr rfl fun i _ => ?_
    rw [Finset.mul_sum]
    refine Finset.sum_congr rfl fun j _ => ?_
    split_ifs <;> ring

theorem bestWeights_scale {n : ℕ} (rho : FloatPos → FloatPos → ℝ) (a s noise : ℝ) (ha : a ≠ 0) (data : Fin n → FloatPos) (g : FloatPos)
    (l : Fin n → ℝ) : BestWeights rho (a ^ 2 * s) (a ^ 2 * noise) data g l ↔ BestWeights rho s noise data g l := by
  unfold BestWeights
  have hp : 0 < a ^ 2 := by positivity
  refine and_congr_right fun _ => forall₂_congr fun l' _ => ?_
  rw [mseOf_scale, mseOf_scale]
  exact mul_le_mul_iff_right₀ hp

theorem best_large_unique (c : MapConfig) {n : ℕ} (hn : 0 < n) (s noise : ℝ) (hs : 0 ≤ s) (hnoise : 0 < noise) (data : Fin n → FloatPos)
    (g : FloatPos) (l l' : Fin n → ℝ)
    (h : BestWeights (fieldCorrelation c.latLarge c.longLarge c.ageLarge c.phiLarge c.usePv) s noise data g l)
    (h' : BestWeights (fieldCorrelation c.latLarge c.longLarge c.ageLarge c.phiLarge c.usePv) s noise data g l') : l = l' := by
  have hC := obsCov_posDef (largeScales c) s noise hs hnoise (fun i => toPos (data i))
  exact (isBestWeights_unique (largeScales c) s noise hn _ (toPos g) hC l h).trans
    (isBestWeights_unique (largeScales c) s noise hn _ (toPos g) hC l' h').symm

theorem best_small_unique (c : MapConfig) {n : ℕ} (hn : 0 < n) (s noise : ℝ) (hs : 0 ≤ s) (hnoise : 0 < noise) (data : Fin n → FloatPos)
    (g : FloatPos) (l l' : Fin n → ℝ)
    (h : BestWeights (fieldCorrelation c.latSmall c.longSmall c.ageSmall c.phiSmall c.usePv) s noise data g l)
    (h' : BestWeights (fieldCorrelation c.latSmall c.longSmall c.ageSmall c.phiSmall c.usePv) s noise data g l') : l = l' := by
  have hC := obsCov_posDef (smallScales c) s noise hs hnoise (fun i => toPos (data i))
  exact (isBestWeights_unique (smallScales c) s noise hn _ (toPos g) hC l h).trans
    (isBestWeights_unique (smallScales c) s noise hn _ (toPos g) hC l' h').symm

/-- C81. Measuring the salinities in another unit or with an offset (`a * s + b`) changes the mapped salinity in the same way, the error by the
factor `|a|` and the variances by `a ^ 2`; the same casts are used, and the level fails for the one exactly if it fails for the other. -/
theorem level_affine (c : MapConfig) (hc : ProperConfig c) (f : FloatPos) (n : ℕ) (h : HistData ℝ) (ha : HistAligned n h)
    (hn : 0 < n) (hz : ProperDepths c f h) (a b : ℝ) (ha0 : a ≠ 0) :
    (mapCasts c f h = .error .linAlgError ∧ mapCasts c f (rescale a b h) = .error .linAlgError) ∨
    ∃ (h' : HistData ℝ) (v e nv s : ℝ), mapCasts c f h = .ok (h', ⟨some v, some e, some nv, s⟩) ∧
      mapCasts c f (rescale a b h) = .ok (rescale a b h', ⟨some (a * v + b), some (|a| * e), some (a ^ 2 * nv), a ^ 2 * s⟩) := by
  have ha2 : HistAligned n (rescale a b h) := ⟨by simp [rescale, ha.sal], ha.pres, ha.long, ha.lat, ha.dates, ha.z⟩
  obtain ⟨h', m, sal, data, nv, hw, hm, e1, e2, e3, e4, e5, hnv, hnv0, hzero, hpos⟩ := level_mapping_all c hc f n h ha hn hz
  obtain ⟨h2, m2, sal2, data2, nv2, hw2, hm2, d1, d2, d3, d4, d5, hnv2, hnv20, hzero2, hpos2⟩ :=
    level_mapping_all c hc f n (rescale a b h) ha2 hn hz
  have hh := withoutOutliers_unique hw2 (withoutOutliers_rescale a b ha0 hw)
  subst hh
  have hmm : m2 = m := by
    have h1 := congrArg List.length d2
    have h2 := congrArg List.length e2
    simp only [List.length_ofFn] at h1 h2
    rw [← h1, ← h2]
    rfl
  subst hmm
  have hdata : data2 = data := by
    have f1 := List.ofFn_injective (d2.symm.trans e2)
    have f2 := List.ofFn_injective (d3.symm.trans e3)
    have f3 := List.ofFn_injective (d4.symm.trans e4)
    have f4 := List.ofFn_injective (d5.symm.trans e5)
    funext i
    have g1 := congrFun f1 i
    have g2 := congrFun f2 i
    have g3 := congrFun f3 i
    have g4 := congrFun f4 i
    cases hA : data2 i
    cases hB : data i
    simp_all
  subst hdata
  have hne : h'.sal ≠ [] := by
    rw [e1]
    intro h0
    have := congrArg List.length h0
    simp at this
    omega
  have hsal2 : sal2 = fun i => a * sal i + b := by
    have h1 : (rescale a b h').sal = List.ofFn fun i => a * sal i + b := by
      simp only [rescale, e1, List.map_ofFn]; rfl
    exact List.ofFn_injective (d1.symm.trans h1)
  subst hsal2
  have hobs : histObs (rescale a b h') = (histObs h').map fun o => { o with sal := o.sal.map fun s => a * s + b } := by
    unfold histObs rescale
    simp only [List.map_map, List.zip_map_left]
    rfl
  have hnv' : nv2 = a ^ 2 * nv := by
    rw [hobs, noise_variance_affine, hnv] at hnv2
    simp only [Except.map, Option.map_some] at hnv2
    exact (Option.some.inj (Except.ok.inj hnv2)).symm
  subst hnv'
  have hpv : populationVariance (rescale a b h').sal = a ^ 2 * populationVariance h'.sal := populationVariance_affine a b _ hne
  rcases hnv0.eq_or_lt with h0 | h0
  · left
    exact ⟨hzero h0.symm, hzero2 (by rw [← h0]; ring)⟩
  · right
    have ha2' : 0 < a ^ 2 := by positivity
    obtain ⟨w1, W, res, w2, ea, eb, p1, p2, p3, p4, p5, p6, p7, p8, p9⟩ := hpos h0
    obtain ⟨w1', W', res', w2', ea', eb', q1, q2, q3, q4, q5, q6, q7, q8, q9⟩ := hpos2 (by positivity)
    rw [hpv] at q1 q2 q6 q9
    have hs0 := populationVariance_nonneg h'.sal
    have hw1 : w1' = w1 := best_large_unique c hm2 _ nv hs0 h0 data2 f _ _ ((bestWeights_scale _ a _ _ ha0 _ _ _).1 q1) p1
    have hW : ∀ i, W' i = W i := fun i =>
      best_large_unique c hm2 _ nv hs0 h0 data2 (data2 i) _ _ ((bestWeights_scale _ a _ _ ha0 _ _ _).1 (q2 i)) (p2 i)
    have hcomb : ∀ l : Fin m2 → ℝ, ∑ j, l j = 1 → ∑ j, l j * (a * sal j + b) = a * (∑ j, l j * sal j) + b := by
      intro l hl
      rw [Finset.mul_sum]
      calc _ = ∑ j, (a * (l j * sal j) + l j * b) := Finset.sum_congr rfl fun j _ => by ring
        _ = _ := by rw [Finset.sum_add_distrib, ← Finset.sum_mul, hl, one_mul]
    have hres : ∀ i, res' i = a * res i := by
      intro i
      rw [q3, p3, hW, hcomb _ (p2 i).1]
      ring
    have hresvar : populationVariance (List.ofFn res') = a ^ 2 * populationVariance (List.ofFn res) := by
      have : List.ofFn res' = (List.ofFn res).map (a * ·) := by
        rw [List.map_ofFn]; congr 1; funext i; exact hres i
      rw [this, populationVariance_scale]
    rw [hresvar] at q4 q8
    have hw2 : w2' = w2 := best_small_unique c hm2 _ nv (populationVariance_nonneg _) h0 data2 f _ _
      ((bestWeights_scale _ a _ _ ha0 _ _ _).1 q4) p4
    subst hw1 hw2
    rw [mseOf_scale, ← p6] at q6
    rw [mseOf_scale, ← p8] at q8
    have herr : Real.sqrt (ea' ^ 2 + eb' ^ 2) = |a| * Real.sqrt (ea ^ 2 + eb ^ 2) := by
      rw [q6, q8, ← mul_add, Real.sqrt_mul (sq_nonneg a), Real.sqrt_sq_eq_abs]
    have hval : ∑ j, w1' j * (a * sal j + b) + ∑ j, w2' j * res' j = a * (∑ j, w1' j * sal j + ∑ j, w2' j * res j) + b := by
      rw [hcomb _ p1.1]
      have : ∑ j, w2' j * res' j = a * ∑ j, w2' j * res j := by
        rw [Finset.mul_sum]; exact Finset.sum_congr rfl fun j _ => by rw [hres]; ring
      rw [this]; ring
    refine ⟨h', _, _, nv, _, p9, ?_⟩
    rw [q9, hval, herr]

end Verif.Props
