import Verif.Spec.Analysis
import Verif.Props.ProfileExamples
import Verif.Props.Calseries
import Verif.Props.PiecewiseCoef
import Verif.Props.PiecewiseMore

/-!
# Properties of the three steps together (C130, C131)
-/

set_option linter.unusedSectionVars false

namespace Verif.Props

open Verif.Np Verif.Helper Verif.Profile Verif.Update Verif.Spec Verif.Spec.Profile Verif.Calseries Verif.Piecewise Verif.Analysis
open Verif.Lemmas.Profile

section helpers

theorem filter_lt_sorted (l : List ℝ) (h : l.Pairwise (· < ·)) (p : ℕ) (v : ℝ) (hp : l[p]? = some v) :
    (l.filter fun w => decide (w < v)).length = p := by
  induction l generalizing p with
  | nil => simp at hp
  | cons a l ih =>
    rw [List.pairwise_cons] at h
    cases p with
    | zero =>
      simp only [List.getElem?_cons_zero, Option.some.injEq] at hp
      subst hp
      rw [List.length_eq_zero_iff, List.filter_eq_nil_iff]
      intro w hw
      rcases List.mem_cons.1 hw with rfl | hw
      · simp
      · simpa using (h.1 w hw).le
    | succ p =>
      rw [List.getElem?_cons_succ] at hp
      rw [List.filter_cons_of_pos (by simpa using h.1 v (List.mem_of_getElem? hp)), List.length_cons, ih h.2 p hp]

/-- Where the sort takes its elements from. -/
theorem argsort_rank (argsort : List (Option ℝ) → List ℕ) (hs : IsArgsort argsort) (no : List ℝ) (hnd : no.Nodup) (k j : ℕ) (h : HasRank no k j) :
    (argsort (no.map some))[k]? = some j := by
  obtain ⟨v, hv, hk⟩ := h
  have hsorted := argsort_sorted argsort hs no hnd
  obtain ⟨hperm, -⟩ := hs (no.map some)
  rw [List.length_map] at hperm
  have hj : j ∈ argsort (no.map some) := hperm.mem_iff.2 (List.mem_range.2 (List.getElem?_eq_some_iff.1 hv).1)
  obtain ⟨p, hp⟩ := List.getElem?_of_mem hj
  have hpv : ((argsort (no.map some)).map fun (i : ℕ) => no[i]!)[p]? = some v := by
    rw [List.getElem?_map, hp, Option.map_some, List.getElem!_eq_getElem?_getD, hv]; rfl
  have hpn : ((argsort (no.map some)).map fun (i : ℕ) => no[i]!).Perm no := (hperm.map _).trans (by rw [map_getElem!_range])
  have := filter_lt_sorted _ hsorted p v hpv
  rw [(hpn.filter _).length_eq, hk] at this
  rw [this, hp]

theorem argsort_has_rank (argsort : List (Option ℝ) → List ℕ) (hs : IsArgsort argsort) (no : List ℝ) (hnd : no.Nodup) (k j : ℕ)
    (h : (argsort (no.map some))[k]? = some j) : HasRank no k j := by
  have hsorted := argsort_sorted argsort hs no hnd
  obtain ⟨hperm, -⟩ := hs (no.map some)
  rw [List.length_map] at hperm
  have hj : j < no.length := List.mem_range.1 (hperm.mem_iff.1 (List.mem_of_getElem? h))
  have hpv : ((argsort (no.map some)).map fun (i : ℕ) => no[i]!)[k]? = some no[j] := by
    rw [List.getElem?_map, h, Option.map_some, List.getElem!_eq_getElem?_getD, List.getElem?_eq_getElem hj]; rfl
  have hpn : ((argsort (no.map some)).map fun (i : ℕ) => no[i]!).Perm no := (hperm.map _).trans (by rw [map_getElem!_range])
  have := filter_lt_sorted _ hsorted k _ hpv
  rw [(hpn.filter _).length_eq] at this
  exact ⟨_, List.getElem?_eq_getElem hj, this⟩

theorem rank_ascending (no : List ℝ) (h : no.Pairwise (· < ·)) (j : ℕ) (hj : j < no.length) : HasRank no j j :=
  ⟨no[j], List.getElem?_eq_getElem hj, filter_lt_sorted no h j _ (List.getElem?_eq_getElem hj)⟩

theorem rank_descending (no : List ℝ) (h : no.Pairwise (· > ·)) (j : ℕ) (hj : j < no.length) : HasRank no (no.length - 1 - j) j := by
  refine ⟨no[j], List.getElem?_eq_getElem hj, ?_⟩
  have hr : no.reverse.Pairwise (· < ·) := List.pairwise_reverse.2 h
  rw [← filter_lt_sorted no.reverse hr (no.length - 1 - j) no[j] (by
    rw [List.getElem?_reverse (by omega), show no.length - 1 - (no.length - 1 - j) = j by omega, List.getElem?_eq_getElem hj]),
    List.filter_reverse, List.length_reverse]

theorem rank_unique (no : List ℝ) (hnd : no.Nodup) (k j j' : ℕ) (h : HasRank no k j) (h' : HasRank no k j') : j = j' := by
  have e := argsort_rank _ isArgsort_stable no hnd k j h
  have e' := argsort_rank _ isArgsort_stable no hnd k j' h'
  exact Option.some.inj (e.symm.trans e')

theorem mapped_pair (L : Option (LevelOut ℝ)) (s e : ℝ) :
    (do
      let s ← L.bind fun o => plausible .mappedSal (o.values .mappedSal)
      let e ← L.bind fun o => plausible .mapErrors (o.values .mapErrors)
      some (s, e)) = some (s, e) ↔ ∃ o, L = some o ∧ o.values .mappedSal = some s ∧ o.values .mapErrors = some e ∧ 30 ≤ s ∧ s ≤ 40 := by
  cases L with
  | none => simp
  | some o =>
    simp only [Option.bind_some, plausible, if_true, Option.bind_eq_bind, Option.bind_eq_some_iff, Option.filter_eq_some_iff, reduceCtorEq, if_false,
      decide_eq_true_eq, Option.some.injEq, Prod.mk.injEq]
    constructor
    · rintro ⟨a, ⟨h1, h2⟩, b, h3, rfl, rfl⟩
      exact ⟨o, rfl, h1, h3, h2⟩
    · rintro ⟨o', rfl, h1, h3, h2⟩
      exact ⟨s, ⟨h1, h2⟩, e, h3, rfl, rfl⟩

/-- The cells of a profile beside a column of computed values. -/
theorem compared_cells (P : Update.Profile ℝ) (j levels : ℕ) (prof : FloatProfile) (hsal : prof.sal.length = levels) (hptmp : prof.ptmp.length = levels)
    (hpres : prof.pres.length = levels) (v : ℝ) (mapped : Mat → List (Option ℝ)) (hm : ∀ m ∈ [Mat.ptmp, Mat.mappedSal, Mat.mapErrors], mapped m = profileColumn P levels m j) :
    ComparedWith prof (levelOut P j) levels ⟨v, (List.range prof.pres.length).map (cellOf prof mapped)⟩ := by
  refine ⟨by simp [hpres], fun n hn => ?_⟩
  have hget : ∀ m ∈ [Mat.ptmp, Mat.mappedSal, Mat.mapErrors], ((mapped m)[n]?).join = (levelOut P j n).bind fun o => plausible m (o.values m) := by
    intro m hmm
    rw [hm m hmm]
    unfold profileColumn
    rw [List.getElem?_map, List.getElem?_range hn]
    rfl
  have hj : ∀ (l : List (Option ℝ)), l.length = levels → l[n]? = some ((l[n]?).join) := by
    intro l hl
    rw [List.getElem?_eq_getElem (by omega)]
    rfl
  refine ⟨cellOf prof mapped n, by simp [hpres, hn], hj _ hsal, hj _ hptmp, hj _ hpres, ?_, ?_⟩
  · intro t
    change ((mapped .ptmp)[n]?).join = some t ↔ _
    rw [hget _ (by simp)]
    simp [Option.bind_eq_some_iff, plausible]
  · intro s e
    change (do let s ← ((mapped .mappedSal)[n]?).join; let e ← ((mapped .mapErrors)[n]?).join; some (s, e)) = some (s, e) ↔ _
    rw [hget _ (by simp), hget _ (by simp)]
    exact mapped_pair _ s e

end helpers

/-! ## C130: whose mapped values a profile is compared with -/

/-- C130, for any order of the profile numbers. After a first run of `update_salinity_mapping`, `calc_piecewisefit` compares the profile at position `i` of the source
with the mapped values computed for the profile at position `j`, where the profile at `k` has the rank `i` and the profile at `j` the rank `k`. -/
theorem calibration_partner (R : FloatRun) (fs : Fs ℝ) (hsort : IsArgsort R.env.argsort) (hlen : R.no.length = R.source.length) (hnd : R.no.Nodup)
    (hlev : ∀ f ∈ R.source, f.sal.length = R.levels ∧ f.ptmp.length = R.levels ∧ f.pres.length = R.levels)
    (hload : fs R.loadPath = none) (h : (updateMapping R.args fs).1 = none) :
    ∃ file data, finalFs R.args fs R.savePath = some (.whole file) ∧ columnsOf R.no R.source file = .ok data ∧ data.map Column.no = R.no ∧
      ∀ (i : ℕ) (prof : FloatProfile), R.source[i]? = some prof → ∃ k j col, HasRank R.no i k ∧ HasRank R.no k j ∧ data[i]? = some col ∧
        ComparedWith prof (levelOut (profilesOf R.env R.source) j) R.levels col := by
  obtain ⟨file, h1, h2, h3, h4, -⟩ := fresh_run_file R.args fs hload hsort (fresh_computable R fs hload h) (fresh_mapped R fs hsort hload h)
  have hfin := final_of_trace R.args fs _ file h1
  have hmem := argsort_has_rank R.env.argsort hsort R.no hnd
  change ∀ m, file.mats m = (R.env.argsort (R.no.map some)).map (fun (i : ℕ) =>
        profileColumn (profilesOf R.env R.source) R.levels m ((R.env.argsort (R.no.map some)).getD i 0)) at h4
  obtain ⟨hperm, -⟩ := hsort (R.no.map some)
  rw [List.length_map] at hperm
  generalize R.env.argsort (R.no.map some) = σ at *
  have hσl : σ.length = R.no.length := by simpa using hperm.length_eq
  have hσlt : ∀ i ∈ σ, i < R.no.length := fun i hi => List.mem_range.1 (hperm.mem_iff.1 hi)
  have key : ∀ (i : ℕ) (prof : FloatProfile), R.source[i]? = some prof → ∃ k j col, HasRank R.no i k ∧ HasRank R.no k j ∧
      R.no[i]? = some col.no ∧ pairedColumn R.no R.source file i = .ok col ∧
        ComparedWith prof (levelOut (profilesOf R.env R.source) j) R.levels col := by
    intro i prof hi
    have hil : i < R.no.length := by rw [hlen]; exact (List.getElem?_eq_some_iff.1 hi).1
    have hk : σ[i]? = some σ[i] := List.getElem?_eq_getElem (by omega)
    have hkl : σ[i] < σ.length := lt_of_lt_of_eq (hσlt _ (List.getElem_mem _)) hσl.symm
    have hj : σ[σ[i]]? = some σ[σ[i]] := List.getElem?_eq_getElem hkl
    have hcol : ∀ m, (file.mats m)[i]? = some (profileColumn (profilesOf R.env R.source) R.levels m σ[σ[i]]) := by
      intro m
      rw [h4 m, List.getElem?_map, hk, Option.map_some, List.getD_eq_getElem?_getD, hj]
      rfl
    obtain ⟨hl1, hl2, hl3⟩ := hlev prof (List.mem_of_getElem? hi)
    obtain ⟨col, hc, hno, hcells⟩ : ∃ col, pairedColumn R.no R.source file i = .ok col ∧ col.no = R.no[i] ∧ ∃ g : Mat → List (Option ℝ),
        (∀ m ∈ [Mat.ptmp, Mat.mappedSal, Mat.mapErrors], g m = profileColumn (profilesOf R.env R.source) R.levels m σ[σ[i]]) ∧
        col.cells = (List.range prof.pres.length).map (cellOf prof g) := by
      unfold pairedColumn item
      rw [hi, List.getElem?_eq_getElem hil, hcol, hcol, hcol]
      refine ⟨_, rfl, rfl, _, ?_, rfl⟩
      intro m hm
      simp only [List.mem_cons, List.not_mem_nil, or_false] at hm
      rcases hm with rfl | rfl | rfl <;> rfl
    obtain ⟨g, hg, hcells⟩ := hcells
    refine ⟨σ[i], σ[σ[i]], col, hmem i _ hk, hmem _ _ hj, by rw [hno]; exact List.getElem?_eq_getElem hil, hc, ?_⟩
    have := compared_cells (profilesOf R.env R.source) σ[σ[i]] R.levels prof hl1 hl2 hl3 col.no g hg
    rw [← hcells] at this
    exact this
  obtain ⟨data, hdata⟩ : ∃ data, columnsOf R.no R.source file = .ok data := mapM_isOk (by
    intro i hi
    obtain ⟨k, j, col, -, -, -, hc, -⟩ := key i _ (List.getElem?_eq_getElem (List.mem_range.1 hi))
    exact ⟨col, hc⟩)
  obtain ⟨hdl, hdg⟩ := mapM_getElem hdata
  rw [List.length_range] at hdl
  refine ⟨file, data, by rw [hfin]; exact Function.update_self .., hdata, ?_, ?_⟩
  · apply List.ext_getElem?
    intro i
    rw [List.getElem?_map]
    by_cases hi : i < R.source.length
    · obtain ⟨k, j, col, -, -, hn, hc, -⟩ := key i _ (List.getElem?_eq_getElem hi)
      obtain ⟨b, hb, hf⟩ := hdg i i (List.getElem?_range hi)
      obtain rfl : b = col := Except.ok.inj (hf.symm.trans hc)
      rw [hb, hn]
      rfl
    · rw [List.getElem?_eq_none (by omega), List.getElem?_eq_none (by omega)]
      rfl
  · intro i prof hi
    obtain ⟨k, j, col, hr, hr', -, hc, hcmp⟩ := key i prof hi
    obtain ⟨b, hb, hf⟩ := hdg i i (List.getElem?_range (List.getElem?_eq_some_iff.1 hi).1)
    obtain rfl : b = col := Except.ok.inj (hf.symm.trans hc)
    exact ⟨k, j, b, hr, hr', hb, hcmp⟩

/-- C130. If the profile numbers ascend, or descend, through the source, every profile is compared with the mapped values computed for itself. -/
theorem calibration_compares_own (R : FloatRun) (fs : Fs ℝ) (hsort : IsArgsort R.env.argsort) (hlen : R.no.length = R.source.length)
    (hord : R.no.Pairwise (· < ·) ∨ R.no.Pairwise (· > ·))
    (hlev : ∀ f ∈ R.source, f.sal.length = R.levels ∧ f.ptmp.length = R.levels ∧ f.pres.length = R.levels)
    (hload : fs R.loadPath = none) (h : (updateMapping R.args fs).1 = none) :
    ∃ file data, finalFs R.args fs R.savePath = some (.whole file) ∧ columnsOf R.no R.source file = .ok data ∧ data.map Column.no = R.no ∧
      ∀ (i : ℕ) (prof : FloatProfile), R.source[i]? = some prof → ∃ col, data[i]? = some col ∧
        ComparedWith prof (levelOut (profilesOf R.env R.source) i) R.levels col := by
  have hnd : R.no.Nodup := hord.elim (fun h => h.imp ne_of_lt) fun h => h.imp ne_of_gt
  obtain ⟨file, data, h1, h2, h3, h4⟩ := calibration_partner R fs hsort hlen hnd hlev hload h
  refine ⟨file, data, h1, h2, h3, fun i prof hi => ?_⟩
  obtain ⟨k, j, col, hk, hj, hc, hcmp⟩ := h4 i prof hi
  have hil : i < R.no.length := by rw [hlen]; exact (List.getElem?_eq_some_iff.1 hi).1
  obtain rfl : j = i := by
    rcases hord with ho | ho
    · obtain rfl := rank_unique _ hnd _ _ _ hk (rank_ascending _ ho i hil)
      exact rank_unique _ hnd _ _ _ hj (rank_ascending _ ho _ hil)
    · have e : k = R.no.length - 1 - i := by
        have hd := rank_descending _ ho (R.no.length - 1 - i) (by omega)
        rw [show R.no.length - 1 - (R.no.length - 1 - i) = i by omega] at hd
        exact rank_unique _ hnd _ _ _ hk hd
      rw [e] at hj
      exact rank_unique _ hnd _ _ _ hj (rank_descending _ ho i hil)
  exact ⟨col, hc, hcmp⟩

/-- C130: in other orders this fails. With the numbers 2, 3, 1 each profile is compared with the mapped values of another one. -/
theorem calibration_compares_other (R : FloatRun) (fs : Fs ℝ) (hsort : IsArgsort R.env.argsort) (hlen : R.no.length = R.source.length) (hno : R.no = [2, 3, 1])
    (hlev : ∀ f ∈ R.source, f.sal.length = R.levels ∧ f.ptmp.length = R.levels ∧ f.pres.length = R.levels)
    (hload : fs R.loadPath = none) (h : (updateMapping R.args fs).1 = none) :
    ∃ file data, finalFs R.args fs R.savePath = some (.whole file) ∧ columnsOf R.no R.source file = .ok data ∧
      ∀ (i : ℕ) (prof : FloatProfile), R.source[i]? = some prof → ∃ col, data[i]? = some col ∧
        ComparedWith prof (levelOut (profilesOf R.env R.source) ((i + 1) % 3)) R.levels col := by
  have hnd : R.no.Nodup := by rw [hno]; norm_num
  obtain ⟨file, data, h1, h2, -, h4⟩ := calibration_partner R fs hsort hlen hnd hlev hload h
  refine ⟨file, data, h1, h2, fun i prof hi => ?_⟩
  obtain ⟨k, j, col, hk, hj, hc, hcmp⟩ := h4 i prof hi
  have hil : i < 3 := by
    have := (List.getElem?_eq_some_iff.1 hi).1
    rw [← hlen, hno] at this
    exact this
  have r0 : HasRank R.no 0 2 := ⟨1, by rw [hno]; rfl, by rw [hno]; norm_num⟩
  have r1 : HasRank R.no 1 0 := ⟨2, by rw [hno]; rfl, by rw [hno]; norm_num⟩
  have r2 : HasRank R.no 2 1 := ⟨3, by rw [hno]; rfl, by rw [hno]; norm_num⟩
  have : j = (i + 1) % 3 := by
    interval_cases i
    · obtain rfl := rank_unique _ hnd _ _ _ hk r0
      exact rank_unique _ hnd _ _ _ hj r2
    · obtain rfl := rank_unique _ hnd _ _ _ hk r1
      exact rank_unique _ hnd _ _ _ hj r0
    · obtain rfl := rank_unique _ hnd _ _ _ hk r2
      exact rank_unique _ hnd _ _ _ hj r1
  rw [← this]
  exact ⟨col, hc, hcmp⟩

/-- The hypotheses of the three theorems are met by runs over two or three profiles, some of them without position, in these orders. -/
example (source : List FloatProfile) (no : List ℝ) (h : source = [wLost, wFloat 105] ∧ (no = [1, 2] ∨ no = [2, 1]) ∨ source = [wFloat 105, wLost, wFloat 105] ∧ no = [2, 3, 1]) :
    (updateMapping (wRun (wEnv 91 108 170 186) source no).args (fun _ => none)).1 = none ∧ IsArgsort (wEnv 91 108 170 186).argsort ∧
      no.length = source.length ∧ ∀ f ∈ source, f.sal.length = 2 ∧ f.ptmp.length = 2 ∧ f.pres.length = 2 := by
  have hl : no.length = source.length := by rcases h with ⟨rfl, rfl | rfl⟩ | ⟨rfl, rfl⟩ <;> rfl
  have hs : ∀ f ∈ source, f = wFloat 105 ∨ f = wLost := by rcases h with ⟨rfl, -⟩ | ⟨rfl, -⟩ <;> simp
  refine ⟨world_runs 91 108 108 105 170 186 10 world_open _ _ hl hs (by rcases h with ⟨rfl, -⟩ | ⟨rfl, -⟩ <;> simp) _ rfl, isArgsort_stable, hl, ?_⟩
  intro f hf
  rcases hs f hf with rfl | rfl <;> exact ⟨rfl, rfl, rfl⟩

/-! ## C131: what the default settings do -/

theorem pairedColumn_ok {no : List ℝ} {src : List FloatProfile} {file : MapFile ℝ} {i : ℕ} {prof : FloatProfile} {c : Column} (hi : src[i]? = some prof)
    (h : pairedColumn no src file i = .ok c) :
    ∃ v g, no[i]? = some v ∧ c = ⟨v, (List.range prof.pres.length).map (cellOf prof g)⟩ := by
  unfold pairedColumn item at h
  rw [hi] at h
  simp only [bind, Except.bind] at h
  cases hv : no[i]? with
  | none => rw [hv] at h; cases h
  | some v =>
    rw [hv] at h
    dsimp only at h
    cases h1 : (file.mats .ptmp)[i]? with
    | none => rw [h1] at h; cases h
    | some a =>
      rw [h1] at h; dsimp only at h
      cases h2 : (file.mats .mappedSal)[i]? with
      | none => rw [h2] at h; cases h
      | some b =>
        rw [h2] at h; dsimp only at h
        cases h3 : (file.mats .mapErrors)[i]? with
        | none => rw [h3] at h; cases h
        | some d =>
          rw [h3] at h
          exact ⟨v, _, rfl, (Except.ok.inj h).symm⟩

theorem measured_iff (no : List ℝ) (src : List FloatProfile) (i : ℕ) (prof : FloatProfile) (h : src[i]? = some prof) :
    HasGoodData (sourceOf no src) i ↔ Measured prof := by
  unfold HasGoodData sourceOf Measured
  simp only [List.getElem?_map, h, Option.map_some, Option.some.injEq, exists_eq_left']

/-- C131, first half. For a float without calseries file `set_calseries` writes settings that put every profile with good data, in whatever order the profiles are, into
one segment, leave out the others, prescribe no break points and no limits of pressure or temperature. -/
theorem first_settings (argsort : List (Option ℝ) → List ℕ) (hs : IsArgsort argsort) (no : List ℝ) (src : List FloatProfile) (hlen : no.length = src.length) :
    ∃ cf S, setCalseries argsort (sourceOf no src) none = .ok cf ∧ settingsOf cf = some S ∧ S.breaks = [] ∧ S.maxBreaks = [[4]] ∧
      S.bounds = ⟨none, none, none, none⟩ ∧ S.percent = 1 / 2 ∧ S.calseries.length = src.length ∧
      ∀ (i : ℕ) (prof : FloatProfile), src[i]? = some prof → (Measured prof → S.calseries[i]? = some 1) ∧ (¬ Measured prof → S.calseries[i]? = some 0) := by
  obtain ⟨hperm, -⟩ := hs (no.map some)
  rw [List.length_map] at hperm
  have hlt : ∀ i ∈ argsort (no.map some), i < no.length := fun i hi => List.mem_range.1 (hperm.mem_iff.1 hi)
  have hσl : (argsort (no.map some)).length = no.length := by simpa using hperm.length_eq
  have hg := gather_ok no _ hlt
  have hg' : gather (no.map fun _ => (1 : ℝ)) (argsort (no.map some)) = .ok (List.replicate no.length 1) := by
    rw [gather_ok _ _ (fun i hi => by rw [List.length_map]; exact hlt i hi)]
    congr 1
    rw [List.eq_replicate_iff]
    refine ⟨by simp [hσl], fun b hb => ?_⟩
    obtain ⟨i, hi, rfl⟩ := List.mem_map.1 hb
    rw [List.getElem!_eq_getElem?_getD, List.getElem?_map, List.getElem?_eq_getElem (hlt i hi)]
    rfl
  have hw : WellFormedSource (sourceOf no src) := by simp [WellFormedSource, sourceOf, hlen]
  obtain ⟨cal, hcal, hl, hget⟩ := flagLoop_ok (sourceOf no src) hw (List.replicate no.length 1) no.length le_rfl (by simp)
  have hset := setCalseries_intro argsort (sourceOf no src) none _ _ _ _ rfl (fun v hv => hv) hg hg' hcal
  refine ⟨_, ⟨cal, [[4]], [], ⟨none, none, none, none⟩, 1 / 2⟩, hset, ?_, rfl, rfl, rfl, rfl, by simp [hl, hlen], ?_⟩
  · simp [settingsOf, dropMany, limitOf]
  · intro i prof hi
    have hil : i < no.length := by rw [hlen]; exact (List.getElem?_eq_some_iff.1 hi).1
    have hm := measured_iff no src i prof hi
    refine ⟨fun h => ?_, fun h => ?_⟩
    · rw [hget i, if_neg (fun hc => hc.2 (hm.2 h))]
      simp [hil]
    · rw [hget i, if_pos ⟨hil, fun hc => h (hm.1 hc)⟩]

/-- C131, second half. With these settings a completed calibration has, at the place of every profile, only missing results if the profile lacks salinity,
temperature or pressure altogether. Otherwise it has a factor, the values of all levels follow from it, and with ascending profile numbers the factors of all these profiles
are on one straight line. -/
theorem first_calibration (argsort : List (Option ℝ) → List ℕ) (hs : IsArgsort argsort) (E : Piecewise.Env) (topo : List ℤ)
    (interp2 : List ℝ → List ℝ → List (List ℤ) → ℝ → ℝ → ℝ) (no : List ℝ) (src : List FloatProfile) (long lat : List ℝ) (file : MapFile ℝ) (levels : ℕ)
    (hlen : no.length = src.length) (hlev : ∀ f ∈ src, f.sal.length = levels ∧ f.ptmp.length = levels ∧ f.pres.length = levels) :
    ∃ cf S, setCalseries argsort (sourceOf no src) none = .ok cf ∧ settingsOf cf = some S ∧
      ∀ out, calibrateFiles E topo interp2 no src long lat file S = .ok out → out.columns.length = src.length ∧ out.breaks = [] ∧
        (∀ (i : ℕ) (prof : FloatProfile), src[i]? = some prof → ∃ o, out.columns[i]? = some o ∧ o.cells.length = levels ∧
          (¬ Measured prof → o.toFitAt = ⟨none, none, none, none, none, none⟩ ∧ ∀ y ∈ o.cells, y = ⟨none, none, none, none, none, none⟩) ∧
          (Measured prof → ∃ f, o.factor = some f ∧ ∀ n < levels, ∃ y, o.cells[n]? = some y ∧
            (∀ s t, prof.sal[n]? = some (some s) → prof.ptmp[n]? = some (some t) → CellRight E.gsw f o.toFitAt s t y) ∧
            (prof.sal[n]? = some none ∨ prof.ptmp[n]? = some none → y = ⟨none, none, none, none, none, none⟩))) ∧
        (no.Pairwise (· < ·) → ∃ a b : ℝ, ∀ (i : ℕ) (prof : FloatProfile) (v : ℝ), src[i]? = some prof → no[i]? = some v → Measured prof →
          ∃ o, out.columns[i]? = some o ∧ o.factor = some (a + b * v) ∧ o.timeDeriv = some b) := by
  obtain ⟨cf, S, h1, h2, hb, hmb, -, -, hsl, hflag⟩ := first_settings argsort hs no src hlen
  refine ⟨cf, S, h1, h2, fun out hout => ?_⟩
  have hA : Accepted S := ⟨hb, Or.inr (Or.inl (by rw [hmb]; rfl))⟩
  unfold calibrateFiles at hout
  simp only [bind, Except.bind] at hout
  cases hd : columnsOf no src file with
  | error e => rw [hd] at hout; cases hout
  | ok data =>
    rw [hd] at hout
    dsimp only at hout
    cases hc : coordFloat topo interp2 file.selected.length long lat with
    | error e => rw [hc] at hout; cases hout
    | ok coords =>
      rw [hc] at hout
      dsimp only at hout
      obtain ⟨hdl, hdg⟩ := mapM_getElem hd
      rw [List.length_range] at hdl
      have hcol : ∀ (i : ℕ) (prof : FloatProfile), src[i]? = some prof → ∃ c, data[i]? = some c ∧ no[i]? = some c.no ∧ c.cells.length = levels ∧
          ∀ n < levels, ∃ x, c.cells[n]? = some x ∧ prof.sal[n]? = some x.sal ∧ prof.ptmp[n]? = some x.ptmp := by
        intro i prof hi
        obtain ⟨l1, l2, l3⟩ := hlev prof (List.mem_of_getElem? hi)
        obtain ⟨c, hc1, hc2⟩ := hdg i i (List.getElem?_range (List.getElem?_eq_some_iff.1 hi).1)
        obtain ⟨v, g, hv, rfl⟩ := pairedColumn_ok hi hc2
        refine ⟨_, hc1, hv, by simp [l3], fun n hn => ⟨cellOf prof g n, by simp [l3, hn], ?_, ?_⟩⟩
        · change prof.sal[n]? = some ((prof.sal[n]?).join)
          rw [List.getElem?_eq_getElem (by omega)]; rfl
        · change prof.ptmp[n]? = some ((prof.ptmp[n]?).join)
          rw [List.getElem?_eq_getElem (by omega)]; rfl
      obtain ⟨hol, hfill⟩ := calibration_fills_segments E S data coords out hA hout
      refine ⟨by rw [hol, hdl], no_breaks_saved E S data coords out hA hout, ?_, ?_⟩
      · intro i prof hi
        obtain ⟨c, hc1, -, hc3, hc4⟩ := hcol i prof hi
        by_cases hm : Measured prof
        · obtain ⟨o, ho, -, hne⟩ := hfill i c 1 hc1 ((hflag i prof hi).1 hm)
          obtain ⟨hf, hcl⟩ := hne one_ne_zero
          obtain ⟨f, hf⟩ := Option.isSome_iff_exists.1 hf
          refine ⟨o, ho, by rw [hcl, hc3], fun hn => absurd hm hn, fun _ => ⟨f, hf, fun n hn => ?_⟩⟩
          obtain ⟨x, hx, hxs, hxt⟩ := hc4 n hn
          obtain ⟨y, hy, hy1, hy2⟩ := calibrated_cells E S data coords out hout i c o hc1 ho f hf n x hx
          refine ⟨y, hy, fun s t hs' ht' => hy1 s t ?_ ?_, fun hn => hy2 ?_⟩
          · rw [hxs] at hs'; exact Option.some.inj hs'
          · rw [hxt] at ht'; exact Option.some.inj ht'
          · rw [hxs, hxt] at hn
            exact hn.imp Option.some.inj Option.some.inj
        · obtain ⟨o, ho, hz, -⟩ := hfill i c 0 hc1 ((hflag i prof hi).2 hm)
          obtain rfl := hz rfl
          refine ⟨_, ho, by simp [missingColumn, hc3], fun _ => ⟨rfl, fun y hy => ?_⟩, fun h => absurd h hm⟩
          obtain ⟨x, -, rfl⟩ := List.mem_map.1 hy
          rfl
      · intro hno
        have hdno : data.map Column.no = no := by
          apply List.ext_getElem?
          intro i
          rw [List.getElem?_map]
          by_cases hi : i < src.length
          · obtain ⟨c, hc1, hc2, -⟩ := hcol i _ (List.getElem?_eq_getElem hi)
            rw [hc1, hc2]; rfl
          · rw [List.getElem?_eq_none (by omega), List.getElem?_eq_none (by omega)]; rfl
        obtain ⟨-, hlin⟩ := segment_factor_is_linear E S data coords out hA hout (by rw [hdno]; exact hno)
        obtain ⟨a, b, hab⟩ := hlin 1 one_ne_zero
        refine ⟨a, b, fun i prof v hi hv hm => ?_⟩
        obtain ⟨c, hc1, hc2, -⟩ := hcol i prof hi
        obtain rfl : v = c.no := Option.some.inj (hv.symm.trans hc2)
        exact hab i c ((hflag i prof hi).1 hm) hc1

/-- A profile with two levels. -/
def firstFloat (sal : List (Option ℝ)) : FloatProfile := ⟨some 5, some 105, 2010, sal, [some 0, some 10], [some 0, some 10], [some 0, some 10]⟩

/-- A mapped file for three such profiles. -/
def firstMapFile : MapFile ℝ :=
  ⟨[1, 2, 3], 2, fun m => match m with
    | .ptmp => [[some 0, some 10], [some 0, some 10], [none, none]]
    | .mappedSal => [[none, some 36], [none, none], [none, none]]
    | .mapErrors => [[none, some 1], [none, none], [none, none]]
    | _ => [], fun _ => [], [⟨105, 5, 1⟩], 0⟩

/-- C131 for three profiles, the last without salinity: the calibration with the settings of `set_calseries` completes. -/
example : ∃ cf S out, setCalseries (stableArgsort (K := WithTop ℝ)) (sourceOf [1, 2, 3] [firstFloat [some 35, some 35], firstFloat [some 35, some 35], firstFloat [none, none]]) none = .ok cf ∧
    settingsOf cf = some S ∧ calibrateFiles exCalEnv wTopo (fun _ _ _ _ _ => 0) [1, 2, 3] [firstFloat [some 35, some 35], firstFloat [some 35, some 35], firstFloat [none, none]]
      [105, 105, 105] [5, 5, 5] firstMapFile S = .ok out ∧ Measured (firstFloat [some 35, some 35]) ∧ ¬ Measured (firstFloat [none, none]) := by
  have hM : Measured (firstFloat [some 35, some 35]) := ⟨⟨35, by simp [firstFloat]⟩, ⟨0, by simp [firstFloat]⟩, ⟨0, by simp [firstFloat]⟩⟩
  have hN : ¬ Measured (firstFloat [none, none]) := by
    rintro ⟨⟨v, hv⟩, -⟩
    simp [firstFloat] at hv
  obtain ⟨cf, S, h1, h2, h3, h4, h5, h6, h7, h8⟩ := first_settings _ isArgsort_stable [1, 2, 3]
    [firstFloat [some 35, some 35], firstFloat [some 35, some 35], firstFloat [none, none]] rfl
  have hS : S = ⟨[1, 1, 0], [[4]], [], calExBounds, 1 / 2⟩ := by
    obtain ⟨cal, mb, br, bd, pc⟩ := S
    simp only at h3 h4 h5 h6 h7
    subst h3 h4 h5 h6
    have e0 := (h8 0 _ rfl).1 hM
    have e1 := (h8 1 _ rfl).1 hM
    have e2 := (h8 2 _ rfl).2 hN
    have : cal = [1, 1, 0] := by
      apply List.ext_getElem?
      intro i
      match i with
      | 0 => exact e0
      | 1 => exact e1
      | 2 => exact e2
      | i + 3 => rw [List.getElem?_eq_none (by rw [h7]; simp)]; rfl
    rw [this]
    rfl
  have hcols : columnsOf [1, 2, 3] [firstFloat [some 35, some 35], firstFloat [some 35, some 35], firstFloat [none, none]] firstMapFile =
      .ok [fewColumn 1, noneColumn 2, ⟨3, [⟨none, some 0, some 0, none, none⟩, ⟨none, some 10, some 10, none, none⟩]⟩] := rfl
  obtain ⟨cs, -, -, -, -, -, -, -, -, hcs, hcl, -⟩ := float_depth_at_own_position wTopo wTopo_length (fun _ _ _ _ _ => 0) 1 (by norm_num) [105, 105, 105] [5, 5, 5]
    (by simp) rfl (by simp; norm_num) (Or.inl (by simp; norm_num))
  obtain ⟨out, hout⟩ := exFew ⟨3, [⟨none, some 0, some 0, none, none⟩, ⟨none, some 10, some 10, none, none⟩]⟩ ⟨3, by norm_num, rfl⟩ cs hcl
  refine ⟨cf, S, out, h1, h2, ?_, hM, hN⟩
  unfold calibrateFiles
  rw [hcols]
  change (coordFloat wTopo (fun _ _ _ _ _ => 0) 1 [105, 105, 105] [5, 5, 5] >>= fun coords => calibrate exCalEnv S _ coords) = _
  rw [hcs, hS]
  exact hout

end Verif.Props
