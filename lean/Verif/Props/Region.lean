import Verif.Lemmas.RegionLoop

/-!
# C43, C44, C46: the reference data
-/

set_option linter.unusedSectionVars false

namespace Verif.Props

open Verif.Np Verif.Utilities Verif.Helper Verif.Spec Verif.Region

variable {K : Type} [Field K] [LinearOrder K] [IsStrictOrderedRing K]

/-! ## C46 -/

/-- C46. Of an Argo file with at least two casts and two levels, `get_data` hands out exactly the casts whose source
does not contain the name of the float, in their order. -/
theorem argo_own_float_excluded (disk : Disk K) (name : List Char) (b : WmoBox) (n : ℤ) (f : RefFile K)
    (hb : b.number = some n) (hflag : b.argo = 1) (hf : disk 3 n = some f) (h2 : 2 ≤ f.casts.length)
    (hl : 2 ≤ f.levels) :
    ∃ d, getData disk name b 3 = .ok (some d) ∧
      d.casts = f.casts.filter (fun c => decide (¬ name <:+: c.source)) ∧
      (∀ c ∈ d.casts, ¬ name <:+: c.source) ∧
      (∀ c ∈ f.casts, ¬ name <:+: c.source → c ∈ d.casts) := by
  have hdel : npDelete f.casts (argwhere (hasName name) f.casts) =
      .ok (f.casts.filter fun c => !hasName name c) := by
    have := npDelete_argwhere (hasName name) (fun c : RefCast K => c) (fun c => c) f.casts
    simpa using this
  have hfe : (f.casts.filter fun c => !hasName name c) =
      f.casts.filter fun c => decide (¬ name <:+: c.source) := by
    apply List.filter_congr
    intro c _
    unfold hasName
    by_cases h : name <:+: c.source <;> simp [h]
  refine ⟨⟨f.casts.filter fun c => !hasName name c, f.levels, false⟩, ?_, hfe, ?_, ?_⟩
  · unfold getData
    rw [hb]
    dsimp only
    have hfl : b.flag 3 = 1 := by rw [← hflag]; rfl
    rw [if_pos hfl, hf]
    dsimp only
    rw [if_neg (by decide), if_neg (by decide)]
    unfold readArgo
    rw [if_neg (by omega), if_neg (by omega)]
    dsimp only
    rw [hdel]
    rfl
  · dsimp only
    rw [hfe]
    intro c hc
    simpa using (List.mem_filter.1 hc).2
  · dsimp only
    rw [hfe]
    intro c hc hn
    exact List.mem_filter.2 ⟨hc, by simpa using hn⟩

/-- C46. None of the casts that `get_region_hist_locations` and `get_region_data` work on comes from an Argo file and
carries the float's name; stated for the casts of one box. -/
theorem argo_own_float_never_used (disk : Disk K) (name : List Char) (b : WmoBox) (c : RefCast K)
    (hc : c ∈ fileCasts disk name b 3) : ¬ name <:+: c.source := by
  unfold fileCasts at hc
  cases hb : b.number with
  | none => rw [hb] at hc; simp at hc
  | some n =>
    rw [hb] at hc
    have e1 : (3 : ℕ) ≠ 1 := by decide
    have e2 : (3 : ℕ) ≠ 2 := by decide
    simp only [e1, e2, if_false, or_self] at hc
    split at hc
    · cases hd : disk 3 n with
      | none => rw [hd] at hc; simp at hc
      | some f =>
        rw [hd] at hc
        dsimp only at hc
        split at hc
        · simp at hc
        · simpa using (List.mem_filter.1 hc).2
    · simp at hc

/-! ## C43 -/

theorem decimalDate_eq (c : RefCast K) : decimalDate c = dateValue c.date := by
  unfold decimalDate
  rw [changeDates_eq]
  rfl

/-- C43. `get_region_hist_locations` returns position and decimal date of every reference cast of the boxes, in
order, longitudes wrapped; it fails exactly if there is none. -/
theorem hist_locations_spec (disk : Disk K) (hw : WellFormedDisk disk) (name : List Char) (boxes : List WmoBox) :
    (refCasts disk name boxes = [] → histLocations disk name boxes = .error .valueError) ∧
    (refCasts disk name boxes ≠ [] → histLocations disk name boxes =
      .ok ((refCasts disk name boxes).map (·.lat), wrapLongitude ((refCasts disk name boxes).map (·.long)),
        (refCasts disk name boxes).map decimalDate)) := by
  unfold histLocations histFrom
  rw [hist_fold, (loads_casts disk hw name boxes).1]
  simp only [List.nil_append, List.length_map]
  constructor
  · intro h
    rw [if_pos (by rw [h]; rfl)]
  · intro h
    rw [if_neg (fun h' => h (List.length_eq_zero_iff.1 h')), changeDates_eq, List.map_map]
    have : (dateValue ∘ fun c : RefCast K => c.date) = (decimalDate : RefCast K → K) := by
      funext c; rw [decimalDate_eq]; rfl
    rw [this]
    rfl

/-! ## C44 -/

theorem syncNan_eq (l : CastLevel K) : syncNan l.2.2 l.1 l.2.1 =
    ((completeOrBlank l).2.2, (completeOrBlank l).1, (completeOrBlank l).2.1) := by
  rcases l with ⟨_ | p, _ | t, _ | s⟩ <;> rfl

theorem zip_map_map {α β γ : Type} (l : List α) (f : α → β) (g : α → γ) :
    List.zip (l.map f) (l.map g) = l.map fun a => (f a, g a) := by
  induction l with
  | nil => rfl
  | cons a l ih => simp [ih]

theorem zipWith_map_map {α β γ δ : Type} (l : List α) (f : α → β) (g : α → γ) (h : β → γ → δ) :
    List.zipWith h (l.map f) (l.map g) = l.map fun a => h (f a) (g a) := by
  induction l with
  | nil => rfl
  | cons a l ih => simp [ih]

theorem columnOf_eq (limit : Option K) (d : ℕ) (c : RefCast K) :
    columnOf limit d c = (padCol limit d c).map completeOrBlank := by
  unfold columnOf padCol
  rw [List.map_append, List.map_replicate]
  rfl

theorem syncRow_eq (limit : Option K) (d : ℕ) (c : RefCast K) :
    syncRow ((padCol limit d c).map (·.2.2)) ((padCol limit d c).map (·.1)) ((padCol limit d c).map (·.2.1)) =
      (columnOf limit d c).map fun l => (l.2.2, l.1, l.2.1) := by
  unfold syncRow
  rw [zip_map_map, zipWith_map_map, columnOf_eq, List.map_map]
  apply List.map_congr_left
  intro l _
  exact syncNan_eq l

/-- The cast of the result for a chosen cast and its wrapped longitude. -/
noncomputable def outCast (limit : Option K) (d : ℕ) (p : RefCast K × Option K) : OutCast K :=
  ⟨(columnOf limit d p.1).map (·.2.2), (columnOf limit d p.1).map (·.2.1), (columnOf limit d p.1).map (·.1),
    p.1.lat, p.2, decimalDate p.1⟩

theorem columnOf_none (limit : Option K) (d : ℕ) (c : RefCast K) (f : CastLevel K → Option K)
    (hf : ∀ l, f (completeOrBlank l) = none ↔ completeOrBlank l = (none, none, none)) :
    ((columnOf limit d c).map f).all Option.isNone = true ↔ ¬ HasData limit c := by
  rw [columnOf_eq]
  unfold HasData padCol
  simp only [List.map_append, List.map_map, List.all_append, Bool.and_eq_true, List.map_replicate, List.all_replicate]
  have hblank : f (completeOrBlank (none, none, none)) = none := (hf (none, none, none)).2 rfl
  have hrest : (if d - (usableLevels limit c).length = 0 then true else (f (completeOrBlank (none, none, none))).isNone) = true := by
    rw [hblank]; split <;> rfl
  have hc : ∀ l : CastLevel K, completeOrBlank l = (none, none, none) ↔ ¬ ∃ p t s, l = (some p, some t, some s) := by
    rintro ⟨_ | p, _ | t, _ | s⟩ <;> simp [completeOrBlank]
  constructor
  · rintro ⟨h, -⟩ ⟨l, hl, hcomp⟩
    rw [List.all_eq_true] at h
    have := h (f (completeOrBlank l)) (List.mem_map.2 ⟨l, hl, rfl⟩)
    rw [Option.isNone_iff_eq_none, hf, hc] at this
    exact this hcomp
  · intro h
    refine ⟨?_, by simp [hblank]⟩
    rw [List.all_eq_true]
    intro x hx
    obtain ⟨l, hl, rfl⟩ := List.mem_map.1 hx
    simp only [Function.comp]
    rw [Option.isNone_iff_eq_none, hf, hc]
    exact fun hcomp => h ⟨l, hl, hcomp⟩

theorem blank_iff (limit : Option K) (d : ℕ) (p : RefCast K × Option K) :
    blank (outCast limit d p) = true ↔ ¬ HasData limit p.1 := by
  unfold blank outCast
  simp only [Bool.or_eq_true]
  rw [columnOf_none limit d p.1 (fun l => l.2.2), columnOf_none limit d p.1 (fun l => l.1), or_self]
  · rintro ⟨_ | p, _ | t, _ | s⟩ <;> simp [completeOrBlank]
  · rintro ⟨_ | p, _ | t, _ | s⟩ <;> simp [completeOrBlank]

theorem wrapLongitude_len (l : List (Option K)) : (wrapLongitude l).length = l.length := by
  unfold wrapLongitude
  dsimp only
  split <;> simp

/-- What follows the loop, for a state that holds exactly the casts `sel`. -/
theorem region_finish (limit : Option K) (sel : List (RefCast K)) (hs : sel ≠ []) (st : RegionState K)
    (hG : Good limit sel st) :
    (do
      if st.pres.length = 0 then .error .runtimeError
      else
        let long := wrapLongitude st.long
        let rows := List.zipWith (fun (s : List (Option K)) (pt : List (Option K) × List (Option K)) =>
          syncRow s pt.1 pt.2) st.sal (List.zip st.pres st.ptmp)
        let dates ← (match changeDates st.dates with
          | .ok d => .ok d
          | .error _ => .error .runtimeError)
        let out : RegionData K := ⟨rows.map fun r => r.map (·.1), rows.map fun r => r.map (·.2.2),
          rows.map fun r => r.map (·.2.1), st.lat, long, dates⟩
        pure ((List.range out.sal.length).foldl dropStep (out, 0)).1 : Except PyErr (RegionData K)) =
      .ok (toData (((sel.zip (wrapLongitude (sel.map (·.long)))).map (outCast limit (depthOf limit sel))).filter
        fun o => !blank o)) := by
  have hs' : sel.length ≠ 0 := fun h => hs (List.length_eq_zero_iff.1 h)
  rw [hG.pres, List.length_map, if_neg hs', hG.dates, hG.sal, hG.ptmp, hG.lat, hG.long, zip_map_map, zipWith_map_map,
    changeDates_eq]
  dsimp only [bind, Except.bind, pure, Except.pure]
  rw [← drop_all]
  have hz : ∀ {β : Type} (f : RefCast K → β), (sel.zip (wrapLongitude (sel.map (·.long)))).map (fun p => f p.1) = sel.map f := by
    intro β f
    have : (fun p : RefCast K × Option K => f p.1) = f ∘ Prod.fst := rfl
    rw [this, ← List.map_map, List.map_fst_zip (by rw [wrapLongitude_len, List.length_map])]
  have hz2 : (sel.zip (wrapLongitude (sel.map (·.long)))).map (fun p => p.2) = wrapLongitude (sel.map (·.long)) :=
    List.map_snd_zip (by rw [wrapLongitude_len, List.length_map])
  have hd : (RegionData.mk (((sel.map fun c => syncRow ((padCol limit (depthOf limit sel) c).map (·.2.2))
        ((padCol limit (depthOf limit sel) c).map (·.1)) ((padCol limit (depthOf limit sel) c).map (·.2.1))).map
          fun r => r.map (·.1)))
        ((sel.map fun c => syncRow ((padCol limit (depthOf limit sel) c).map (·.2.2))
        ((padCol limit (depthOf limit sel) c).map (·.1)) ((padCol limit (depthOf limit sel) c).map (·.2.1))).map
          fun r => r.map (·.2.2))
        ((sel.map fun c => syncRow ((padCol limit (depthOf limit sel) c).map (·.2.2))
        ((padCol limit (depthOf limit sel) c).map (·.1)) ((padCol limit (depthOf limit sel) c).map (·.2.1))).map
          fun r => r.map (·.2.1)) (sel.map (·.lat)) (wrapLongitude (sel.map (·.long)))
        ((sel.map (·.date)).map dateValue) : RegionData K) =
      toData ((sel.zip (wrapLongitude (sel.map (·.long)))).map (outCast limit (depthOf limit sel))) := by
    unfold toData outCast
    simp only [List.map_map, Function.comp_def]
    rw [hz2, hz (fun c => (columnOf limit (depthOf limit sel) c).map (·.2.2)),
      hz (fun c => (columnOf limit (depthOf limit sel) c).map (·.2.1)),
      hz (fun c => (columnOf limit (depthOf limit sel) c).map (·.1)), hz (fun c => c.lat),
      hz (fun c => (decimalDate c : K))]
    simp only [syncRow_eq, List.map_map, Function.comp_def, decimalDate_eq]
  have hlen := congrArg (fun d => d.sal.length) hd
  dsimp only at hlen
  rw [hd, hlen]

theorem good_empty (limit : Option K) : Good limit [] (⟨[], [], [], [], [], [], 0, 0, 0⟩ : RegionState K) :=
  ⟨rfl, rfl, rfl, rfl, rfl, rfl, rfl, rfl⟩

theorem chosen_eq (index : List ℕ) (casts : List (RefCast K)) : chosen index casts = selFrom index 0 casts := rfl

/-- C43, C44. `get_region_data` returns the casts whose running number (the position in the arrays of
`get_region_hist_locations`, by `hist_locations_spec`) is in `index` and that have data, in ascending order of the
number. Columns, position and date stay together. The hypothesis is that the first chosen cast has a usable level; the next
two theorems treat the other cases. -/
theorem region_data_spec (disk : Disk K) (hw : WellFormedDisk disk) (name : List Char) (boxes : List WmoBox)
    (index : List ℕ) (floatPres : List (Option K)) (delta : K) (c0 : RefCast K) (l0 : List (RefCast K))
    (hsel : chosen index (refCasts disk name boxes) = c0 :: l0)
    (h0 : usableLevels (pressureLimit floatPres delta) c0 ≠ []) :
    regionData disk name boxes index floatPres delta =
      .ok (regionResult (pressureLimit floatPres delta) (chosen index (refCasts disk name boxes))) := by
  obtain ⟨hr, hl⟩ := loads_casts disk hw name boxes
  have hlim : maxPressure floatPres delta = pressureLimit floatPres delta := rfl
  have hg := region_fold_good index (pressureLimit floatPres delta) _ hl [] _ (good_empty _) (by
    rw [hr, List.nil_append]
    intro c l hcl
    rw [← chosen_eq, hsel] at hcl
    rw [← (List.cons.inj hcl).1]
    exact List.length_pos_iff.2 h0)
  rw [hr, List.nil_append] at hg
  have hs : chosen index (refCasts disk name boxes) ≠ [] := by rw [hsel]; simp
  unfold regionData regionFrom
  rw [hlim]
  refine (region_finish _ _ hs _ hg).trans ?_
  congr 1
  unfold regionResult
  classical
  rw [List.filter_map]
  have hf : ((fun o => !blank o) ∘ outCast (pressureLimit floatPres delta)
      (depthOf (pressureLimit floatPres delta) (chosen index (refCasts disk name boxes)))) =
      fun p : RefCast K × Option K => decide (HasData (pressureLimit floatPres delta) p.1) := by
    funext p
    have := blank_iff (pressureLimit floatPres delta)
      (depthOf (pressureLimit floatPres delta) (chosen index (refCasts disk name boxes))) p
    by_cases hp : HasData (pressureLimit floatPres delta) p.1
    · have hb : blank (outCast (pressureLimit floatPres delta)
          (depthOf (pressureLimit floatPres delta) (chosen index (refCasts disk name boxes))) p) = false := by
        rw [← Bool.not_eq_true]; rw [this]; simpa using hp
      simp [Function.comp, hb, hp]
    · have hb := this.2 hp
      simp [Function.comp, hb, hp]
  rw [hf]
  unfold toData
  simp only [List.map_map]
  rfl

/-- C44. Without a chosen cast `get_region_data` fails. -/
theorem region_data_none (disk : Disk K) (hw : WellFormedDisk disk) (name : List Char) (boxes : List WmoBox)
    (index : List ℕ) (floatPres : List (Option K)) (delta : K)
    (hsel : chosen index (refCasts disk name boxes) = []) :
    regionData disk name boxes index floatPres delta = .error .runtimeError := by
  obtain ⟨hr, hl⟩ := loads_casts disk hw name boxes
  have hg := region_fold_good index (maxPressure floatPres delta) _ hl [] _ (good_empty _) (by
    rw [hr, List.nil_append]
    intro c l hcl
    rw [← chosen_eq, hsel] at hcl
    simp at hcl)
  rw [hr, List.nil_append] at hg
  unfold regionData regionFrom
  have : ((((visits boxes).map fun v => getData disk name v.1 v.2).foldl
      (regionStep index (maxPressure floatPres delta)) ⟨[], [], [], [], [], [], 0, 0, 0⟩).pres).length = 0 := by
    rw [hg.pres, ← chosen_eq, hsel]; rfl
  dsimp only
  rw [if_pos this]

/-- C44, a case in which the property fails. If the first chosen cast has no usable level (all its pressures are missing or
too deep), nothing is returned, whatever the other chosen casts hold. -/
theorem region_data_first_cast_empty (disk : Disk K) (hw : WellFormedDisk disk) (name : List Char)
    (boxes : List WmoBox) (index : List ℕ) (floatPres : List (Option K)) (delta : K) (c0 : RefCast K)
    (l0 : List (RefCast K)) (hsel : chosen index (refCasts disk name boxes) = c0 :: l0)
    (h0 : usableLevels (pressureLimit floatPres delta) c0 = []) :
    regionData disk name boxes index floatPres delta = .ok ⟨[], [], [], [], [], []⟩ := by
  obtain ⟨hr, hl⟩ := loads_casts disk hw name boxes
  have hlim : maxPressure floatPres delta = pressureLimit floatPres delta := rfl
  obtain ⟨sel, hs, hg, hd⟩ := region_fold_first_empty index (pressureLimit floatPres delta) _ hl _ (good_empty _) c0 l0
    (by rw [hr]; exact hsel) (by rw [h0]; rfl)
  unfold regionData regionFrom
  rw [hlim]
  refine (region_finish _ _ hs _ hg).trans ?_
  have hnone : ((sel.zip (wrapLongitude (sel.map (·.long)))).map (outCast (pressureLimit floatPres delta)
      (depthOf (pressureLimit floatPres delta) sel))).filter (fun o => !blank o) = [] := by
    rw [List.filter_eq_nil_iff]
    intro o ho
    obtain ⟨p, hp, rfl⟩ := List.mem_map.1 ho
    have hnd : ¬ HasData (pressureLimit floatPres delta) p.1 := by
      rintro ⟨l, hl', _⟩
      have h1 := le_depthOf (pressureLimit floatPres delta) sel p.1 (List.of_mem_zip hp).1
      have h2 := List.length_pos_of_mem hl'
      omega
    rw [(blank_iff _ _ p).2 hnd]
    simp
  rw [hnone]
  rfl

end Verif.Props
