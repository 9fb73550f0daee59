import Verif.Lemmas.Piecewise
import Verif.Lemmas.FitStraight
import Verif.Props.Thetas
import Verif.Props.Covar
import Verif.Props.Topo

/-!
# Properties of `calc_piecewisefit` (C56, C57, C100 - C107)
-/

set_option linter.unusedSectionVars false

namespace Verif.Props

open Verif.Np Verif.Stats Verif.FitCond Verif.Thetas Verif.Piecewise Verif.Spec

/-! ## C56: which columns are written -/

theorem segment_of {S : Settings} {j : ℕ} {v : ℝ} (h : S.calseries[j]? = some v) (hv : v ≠ 0) : ∃ i : ℕ, (segments S)[i]? = some v :=
  List.getElem?_of_mem ((segments_mem S v).2 ⟨List.mem_of_getElem? h, hv⟩)

theorem accepted_work {E : Env} {S : Settings} {data : List Column} {coords : Option (List Coord)} {out : CalibFile} (hA : Accepted S)
    (h : calibrate E S data coords = .ok out) :
    ∃ rs, (numbered S).mapM (segmentWork E S (checkMaxBreaks (segments S).length S.maxBreaks).1 data coords) = .ok rs ∧
        out = rs.foldl applySegment ⟨data.map blankColumn, [], []⟩ := by
  rw [calibrate_accepted E S data coords hA] at h
  cases hm : (numbered S).mapM (segmentWork E S (checkMaxBreaks (segments S).length S.maxBreaks).1 data coords) with
  | error e => rw [hm] at h; cases h
  | ok rs => rw [hm] at h; exact ⟨rs, rfl, (Except.ok.inj h).symm⟩

/-- The results of one segment in a completed calibration. -/
theorem accepted_done {E : Env} {S : Settings} {data : List Column} {coords : Option (List Coord)} {out : CalibFile} (hA : Accepted S)
    (h : calibrate E S data coords = .ok out) {i : ℕ} {v : ℝ} (hv : (segments S)[i]? = some v) :
    Nonempty (SegmentDone E S data coords out i v) := by
  obtain ⟨rs, hm, rfl⟩ := accepted_work hA h
  exact (done_of_work hm hv).2

/-- C56. A completed calibration has a result for every profile: none for those with 0 in `calseries`, a factor for all others. -/
theorem calibration_fills_segments (E : Env) (S : Settings) (data : List Column) (coords : Option (List Coord)) (out : CalibFile) (hA : Accepted S)
    (h : calibrate E S data coords = .ok out) : out.columns.length = data.length ∧
      ∀ (j : ℕ) (c : Column) (v : ℝ), data[j]? = some c → S.calseries[j]? = some v → ∃ o, out.columns[j]? = some o ∧
        (v = 0 → o = missingColumn c) ∧ (v ≠ 0 → o.factor.isSome ∧ o.cells.length = c.cells.length) := by
  obtain ⟨rs, hm, hout⟩ := accepted_work hA h
  refine ⟨by rw [hout, applySegment_length]; exact List.length_map _, ?_⟩
  intro j c v hd hs
  by_cases hv : v = 0
  · refine ⟨blankColumn c, ?_, fun _ => rfl, fun hn => absurd hv hn⟩
    rw [hout, zero_of_work hm (j := j) (fun w hw => by rw [hs] at hw; rw [← Option.some.inj hw, hv]), List.getElem?_map, hd]
    rfl
  · obtain ⟨i, hi⟩ := segment_of hs hv
    obtain ⟨D⟩ := accepted_done hA h hi
    obtain ⟨p, hp⟩ := List.getElem?_of_mem ((calIndex_mem S v j).2 hs)
    obtain ⟨c', r, -, hd', hr, ho⟩ := D.hout p j hp
    obtain rfl : c' = c := Option.some.inj (hd'.symm.trans hd)
    refine ⟨_, ho, fun h0 => absurd h0 hv, fun _ => ⟨?_, by simp [columnOut]⟩⟩
    obtain ⟨-, -, -, hall⟩ := spread_ok D.hfac
    obtain ⟨q, rfl⟩ := hall r (List.mem_of_getElem? hr)
    rfl

/-- C56. The results of a segment depend on the profiles of that segment alone: two completed calibrations with the same settings whose profiles
and positions agree in the segment `v` agree in the results there. -/
theorem calibration_segments_independent (E : Env) (S : Settings) (data data' : List Column) (cs cs' : List Coord) (out out' : CalibFile)
    (hA : Accepted S) (h : calibrate E S data (some cs) = .ok out) (h' : calibrate E S data' (some cs') = .ok out') (v : ℝ) (hv : v ≠ 0)
    (hd : ∀ j : ℕ, S.calseries[j]? = some v → data[j]? = data'[j]?) (hc : ∀ j : ℕ, S.calseries[j]? = some v → cs[j]? = cs'[j]?) (j : ℕ)
    (hj : S.calseries[j]? = some v) : out.columns[j]? = out'.columns[j]? := by
  obtain ⟨i, hi⟩ := segment_of hj hv
  obtain ⟨D⟩ := accepted_done hA h hi
  obtain ⟨D'⟩ := accepted_done hA h' hi
  have e1 : D.sub = D'.sub := by
    have h1 := D.hsub
    have h2 := D'.hsub
    rw [← Option.some.inj D.hcs] at h1
    rw [← Option.some.inj D'.hcs, ← gather_congr cs cs' _ fun k hk => hc k ((calIndex_mem S v k).1 hk)] at h2
    exact Except.ok.inj (h1.symm.trans h2)
  have e2 : D.cols = D'.cols := by
    have h1 := D.hcols
    have h2 := D'.hcols
    rw [← gather_congr data data' _ fun k hk => hd k ((calIndex_mem S v k).1 hk)] at h2
    exact Except.ok.inj (h1.symm.trans h2)
  have e3 : D.args = D'.args := Except.ok.inj (D.hargs.symm.trans D'.hargs)
  obtain ⟨sub, cols, args, m, f, fac, cs1, hcs1, hsub, hcols, hargs, hfit, hfac, hout⟩ := D
  obtain ⟨sub', cols', args', m', f', fac', cs1', hcs1', hsub', hcols', hargs', hfit', hfac', hout'⟩ := D'
  simp only at e1 e2 e3
  subst e1 e2 e3
  have e4 := Option.some.inj (Except.ok.inj (hfit.symm.trans hfit'))
  cases e4
  have e5 : fac = fac' := Except.ok.inj (hfac.symm.trans hfac')
  subst e5
  obtain ⟨p, hp⟩ := List.getElem?_of_mem ((calIndex_mem S v j).2 hj)
  obtain ⟨c, r, hcp, -, hr, ho⟩ := hout p j hp
  obtain ⟨c', r', hcp', -, hr', ho'⟩ := hout' p j hp
  obtain rfl := Option.some.inj (hcp.symm.trans hcp')
  obtain rfl := Option.some.inj (hr.symm.trans hr')
  rw [ho, ho']

/-! ## C100: what the calibrated values are -/

theorem column_form {E : Env} {S : Settings} {data : List Column} {coords : Option (List Coord)} {out : CalibFile}
    (h : calibrate E S data coords = .ok out) {j : ℕ} {c : Column} {o : ColOut} (hd : data[j]? = some c) (ho : out.columns[j]? = some o) :
    o = blankColumn c ∨ ∃ r, o = columnOut E.gsw c r := by
  rcases calibrate_inv h with ⟨hb, -, -⟩ | ⟨rs, hm, hout⟩
  · rw [hb, List.getElem?_map, hd] at ho
    exact Or.inl (Option.some.inj ho).symm
  · by_cases hz : ∀ v, S.calseries[j]? = some v → v = 0
    · rw [hout, zero_of_work hm hz, List.getElem?_map, hd] at ho
      exact Or.inl (Option.some.inj ho).symm
    · push Not at hz
      obtain ⟨v, hs, hv⟩ := hz
      obtain ⟨i, hi⟩ := segment_of hs hv
      obtain ⟨-, ⟨D⟩⟩ := done_of_work hm hi
      obtain ⟨p, hp⟩ := List.getElem?_of_mem ((calIndex_mem S v j).2 hs)
      obtain ⟨c', r, -, hd', hr, ho'⟩ := D.hout p j hp
      obtain rfl : c' = c := Option.some.inj (hd'.symm.trans hd)
      rw [hout, ho'] at ho
      exact Or.inr ⟨r, (Option.some.inj ho).symm⟩

/-- C100. In every saved profile with the factor `f`, every level (within the user's limits or not) has the conductivity of its own salinity and
temperature times `f`, the salinity of that conductivity, and as error the change of the salinity when the error of the factor is added. A level is missing exactly
if its salinity or its temperature is missing. -/
theorem calibrated_cells (E : Env) (S : Settings) (data : List Column) (coords : Option (List Coord)) (out : CalibFile)
    (h : calibrate E S data coords = .ok out) (j : ℕ) (c : Column) (o : ColOut) (hd : data[j]? = some c) (ho : out.columns[j]? = some o)
    (f : ℝ) (hf : o.factor = some f) (k : ℕ) (x : Cell) (hx : c.cells[k]? = some x) : ∃ y, o.cells[k]? = some y ∧
      (∀ s t, x.sal = some s → x.ptmp = some t → CellRight E.gsw f o.toFitAt s t y) ∧
      (x.sal = none ∨ x.ptmp = none → y = ⟨none, none, none, none, none, none⟩) := by
  rcases column_form h hd ho with rfl | ⟨r, rfl⟩
  · cases hf
  · have hr : r.factor = some f := hf
    refine ⟨calCell E.gsw r x, by simp [columnOut, hx], ?_, ?_⟩
    · intro s t hs ht
      unfold calCell
      rw [hs, ht, hr]
      refine ⟨rfl, rfl, rfl, fun v => ?_, fun v => ?_, fun v => ?_⟩
      · simp only [Option.map_some, Option.bind_some, columnOut, bind, Option.bind_eq_some_iff, Option.some.injEq, Option.map_eq_some_iff]
        constructor
        · rintro ⟨a, ha, b, ⟨-, ⟨e, he, rfl⟩, hb⟩, hv⟩
          exact ⟨e, a, b, he, ha, hb, hv.symm⟩
        · rintro ⟨e, a, b, he, ha, hb, hv⟩
          exact ⟨a, ha, b, ⟨_, ⟨e, he, rfl⟩, hb⟩, hv.symm⟩
      · simp only [columnOut, Option.bind_eq_some_iff]
      · simp only [columnOut, bind, Option.bind_eq_some_iff, Option.some.injEq]
        constructor
        · rintro ⟨a, ha, b, ⟨g, hg, e, he, hb⟩, hv⟩
          exact ⟨g, e, a, b, hg, he, ha, hb, hv.symm⟩
        · rintro ⟨g, e, a, b, hg, he, ha, hb, hv⟩
          exact ⟨a, ha, b, ⟨g, hg, e, he, hb⟩, hv.symm⟩
    · intro hn
      unfold calCell
      rcases hn with hn | hn <;> rw [hn]
      · rfl
      · cases x.sal <;> rfl

/-- C101. If converting to conductivity and back gives the salinity again, the factor 1 leaves every measured salinity as it is. -/
theorem factor_one_changes_nothing (E : Env) (S : Settings) (data : List Column) (coords : Option (List Coord)) (out : CalibFile)
    (h : calibrate E S data coords = .ok out) (j : ℕ) (c : Column) (o : ColOut) (hd : data[j]? = some c) (ho : out.columns[j]? = some o)
    (hf : o.factor = some 1) (hG : ∀ s t, E.gsw.spFromC (E.gsw.cFromSP s t) t = some s) (k : ℕ) (x : Cell) (s t : ℝ)
    (hx : c.cells[k]? = some x) (hs : x.sal = some s) (ht : x.ptmp = some t) : ∃ y, o.cells[k]? = some y ∧ y.calSal = some s := by
  obtain ⟨y, hy, hr, -⟩ := calibrated_cells E S data coords out h j c o hd ho 1 hf k x hx
  obtain ⟨-, -, h2, -⟩ := hr s t hs ht
  exact ⟨y, hy, by rw [h2, one_mul, hG]⟩

/-- C101. If moreover conductivities are positive and salinity increases with conductivity, a factor above 1 raises every salinity of the profile, and a factor
below 1 lowers every one. -/
theorem correction_has_one_sign (E : Env) (S : Settings) (data : List Column) (coords : Option (List Coord)) (out : CalibFile)
    (h : calibrate E S data coords = .ok out) (j : ℕ) (c : Column) (o : ColOut) (hd : data[j]? = some c) (ho : out.columns[j]? = some o)
    (f : ℝ) (hf : o.factor = some f) (hG : ∀ s t, E.gsw.spFromC (E.gsw.cFromSP s t) t = some s) (hpos : ∀ s t, 0 < E.gsw.cFromSP s t)
    (hmono : ∀ a b t u w, a < b → E.gsw.spFromC a t = some u → E.gsw.spFromC b t = some w → u < w) (k : ℕ) (x : Cell) (y : CellOut) (s t s' : ℝ)
    (hx : c.cells[k]? = some x) (hs : x.sal = some s) (ht : x.ptmp = some t) (hy : o.cells[k]? = some y) (hy' : y.calSal = some s') :
    (1 < f → s < s') ∧ (f < 1 → s' < s) := by
  obtain ⟨y', hy2, hr, -⟩ := calibrated_cells E S data coords out h j c o hd ho f hf k x hx
  obtain rfl := Option.some.inj (hy2.symm.trans hy)
  obtain ⟨-, -, h2, -⟩ := hr s t hs ht
  rw [hy'] at h2
  have hp := hpos s t
  constructor
  · intro h1
    exact hmono _ _ t _ _ (by nlinarith) (hG s t) h2.symm
  · intro h1
    exact hmono _ _ t _ _ (by nlinarith) h2.symm (hG s t)

/-! ## C102: the factor is a straight line -/

theorem uniqueReal_congr (l l' : List ℝ) (h : ∀ v, v ∈ l ↔ v ∈ l') : uniqueReal l = uniqueReal l' := by
  have hp : l.dedup.Perm l'.dedup := (List.perm_ext_iff_of_nodup (List.nodup_dedup _) (List.nodup_dedup _)).2 fun v => by
    rw [List.mem_dedup, List.mem_dedup]; exact h v
  unfold uniqueReal
  apply List.Perm.eq_of_pairwise (fun a b _ _ hab hba => le_antisymm hab hba) (List.pairwise_insertionSort _ _) (List.pairwise_insertionSort _ _)
  exact (List.perm_insertionSort _ _).trans (hp.trans (List.perm_insertionSort _ _).symm)

theorem observations_x (G : Gsw) (cols : List Column) (index : List (List (Option ℕ))) (v : ℝ) :
    v ∈ (observations G cols (tenOf index cols)).map Obs.x ↔ v ∈ cols.map Column.no := by
  have hx : ∀ no o, (observation G no o).x = no := by
    intro no o
    unfold observation
    split <;> rfl
  have hlen : (tenOf index cols).length = cols.length := by simp [tenOf]
  have hne : ∀ l ∈ tenOf index cols, l ≠ [] := by
    intro l hl
    unfold tenOf at hl
    obtain ⟨⟨c, p⟩, -, rfl⟩ := List.mem_map.1 hl
    intro hc
    have := congrArg List.length hc
    simp only [tenCells, List.length_append, List.length_map, List.length_replicate, List.length_nil] at this
    omega
  unfold observations
  rw [List.map_flatten, List.mem_flatten]
  constructor
  · rintro ⟨l, hl, hv⟩
    obtain ⟨l', hl', rfl⟩ := List.mem_map.1 hl
    obtain ⟨k, hk⟩ := List.getElem?_of_mem hl'
    rw [List.getElem?_zipWith_eq_some] at hk
    obtain ⟨c, t, hc, -, rfl⟩ := hk
    rw [List.map_map, List.mem_map] at hv
    obtain ⟨o, -, rfl⟩ := hv
    exact List.mem_map.2 ⟨c, List.mem_of_getElem? hc, (hx _ _).symm⟩
  · intro hv
    obtain ⟨c, hc, rfl⟩ := List.mem_map.1 hv
    obtain ⟨k, hk⟩ := List.getElem?_of_mem hc
    have hklt : k < cols.length := (List.getElem?_eq_some_iff.1 hk).1
    have ht : (tenOf index cols)[k]? = some ((tenOf index cols)[k]'(by omega)) := List.getElem?_eq_getElem (by omega)
    have hne' := hne _ (List.mem_of_getElem? ht)
    refine ⟨((tenOf index cols)[k]'(by omega)).map fun o => (observation G c.no o).x, ?_, ?_⟩
    · refine List.mem_map.2 ⟨((tenOf index cols)[k]'(by omega)).map (observation G c.no), ?_, by rw [List.map_map]; rfl⟩
      apply List.mem_of_getElem? (i := k)
      rw [List.getElem?_zipWith, hk, ht]
    · obtain ⟨o, ho⟩ := List.exists_mem_of_ne_nil _ hne'
      exact List.mem_map.2 ⟨o, ho, hx _ _⟩

theorem uniqueReal_of_sorted (l : List ℝ) (h : l.Pairwise (· < ·)) : uniqueReal l = l := by
  unfold uniqueReal
  have hn : l.Nodup := h.imp fun hab => ne_of_lt hab
  rw [hn.dedup]
  exact List.Pairwise.insertionSort_eq (h.imp le_of_lt)

theorem fitSegment_ok {E : Env} {S : Settings} {i : ℕ} {cols : List Column} {sub : List Coord} {args : List Arg}
    {r : Option ((m : ℕ) × Fit m)} (h : fitSegment E S i cols sub args = .ok r) :
    ∃ th cov, find10thetas S.bounds S.percent (cols.map fun c => c.cells.map toLevel) = .ok th ∧
      buildCov (n := cols.length) (m := 10) (fun p j => (((tenOf th.index cols).getD p []).getD j none).bind Cell.ptmp)
        (fun p => sub.getD p ⟨0, 0, 0⟩) E.cov.long E.cov.lat E.cov.phi E.cov.usePv = .ok cov ∧
      fitCond (observations E.gsw cols (tenOf th.index cols)) (flatCov cov) args (E.opt i) = .ok r := by
  unfold fitSegment at h
  cases h1 : find10thetas S.bounds S.percent (cols.map fun c => c.cells.map toLevel) with
  | error e => rw [h1] at h; cases h
  | ok th =>
    rw [h1] at h
    simp only [bind, Except.bind] at h
    split at h
    · cases h
    · next cov hc => exact ⟨th, cov, rfl, hc, h⟩

theorem fitArgs_free {mb : List (List ℤ)} {i : ℕ} {args : List Arg} (h : fitArgs mb [] i = .ok args) :
    ∃ k, args = [.str "max_no_breaks", .int k] := by
  unfold fitArgs at h
  rw [if_pos (by rfl)] at h
  split at h
  · next k hk => exact ⟨k, (Except.ok.inj h).symm⟩
  · cases h

/-- The fit of a completed segment. -/
theorem done_straight {E : Env} {S : Settings} {data : List Column} {coords : Option (List Coord)} {out : CalibFile} {i : ℕ} {v : ℝ}
    (D : SegmentDone E S data coords out i v) :
    (uniqueReal (D.cols.map Column.no)).length = D.m + 1 ∧ D.f.breaks = [] ∧ ∃ a b, ∀ p : Fin (D.m + 1),
      D.f.condslope p = a + b * (uniqueReal (D.cols.map Column.no)).getD p.val 0 ∧ D.f.timeDeriv p = some b := by
  obtain ⟨th, cov, -, -, hf⟩ := fitSegment_ok D.hfit
  obtain ⟨k, hk⟩ := fitArgs_free D.hargs
  rw [hk] at hf
  have := fitCond_straight _ _ _ _ _ _ hf
  rwa [uniqueReal_congr _ _ (observations_x E.gsw D.cols th.index)] at this

/-- The columns of a segment are in the order of the file. -/
theorem done_cols_no {E : Env} {S : Settings} {data : List Column} {coords : Option (List Coord)} {out : CalibFile} {i : ℕ} {v : ℝ}
    (D : SegmentDone E S data coords out i v) (hno : (data.map Column.no).Pairwise (· < ·)) : (D.cols.map Column.no).Pairwise (· < ·) := by
  obtain ⟨hl, hg⟩ := gather_inv D.hcols
  have hs : (calIndex S v).Pairwise (· < ·) := argwhere_sorted _ _
  rw [List.pairwise_iff_getElem] at hno hs ⊢
  intro a b ha hb hab
  rw [List.length_map, hl] at ha hb
  obtain ⟨ca, h1, h2⟩ := hg a _ (List.getElem?_eq_getElem ha)
  obtain ⟨cb, h3, h4⟩ := hg b _ (List.getElem?_eq_getElem hb)
  obtain ⟨h1l, h1⟩ := List.getElem?_eq_some_iff.1 h1
  obtain ⟨h3l, h3⟩ := List.getElem?_eq_some_iff.1 h3
  obtain ⟨h2l, h2⟩ := List.getElem?_eq_some_iff.1 h2
  obtain ⟨h4l, h4⟩ := List.getElem?_eq_some_iff.1 h4
  have := hno _ _ (by rw [List.length_map]; exact h2l) (by rw [List.length_map]; exact h4l) (hs a b ha hb hab)
  simp only [List.getElem_map] at this ⊢
  rw [h1, h3, ← h2, ← h4]
  exact this

/-- C102. A completed calibration saves no break points, whatever the limit `max_breaks` allows. -/
theorem no_breaks_saved (E : Env) (S : Settings) (data : List Column) (coords : Option (List Coord)) (out : CalibFile) (hA : Accepted S)
    (h : calibrate E S data coords = .ok out) : out.breaks = [] := by
  obtain ⟨rs, hm, hout⟩ := accepted_work hA h
  have key : ∀ r ∈ rs, r.breaks = [] := by
    intro r hr
    obtain ⟨k, hk⟩ := List.getElem?_of_mem hr
    obtain ⟨hlen, hget⟩ := mapM_getElem hm
    have hklt : k < (numbered S).length := by rw [← hlen]; exact (List.getElem?_eq_some_iff.1 hk).1
    obtain ⟨r2, hr2, hw2⟩ := hget k _ (List.getElem?_eq_getElem hklt)
    obtain rfl : r = r2 := Option.some.inj (hk.symm.trans hr2)
    obtain ⟨hb, cs, sub, cols, args, m, f, res, -, -, -, hargs, hfit, -, rfl⟩ := segmentWork_ok hw2
    obtain ⟨th, cov, -, -, hf⟩ := fitSegment_ok hfit
    rw [hb] at hargs
    obtain ⟨q, hq⟩ := fitArgs_free hargs
    rw [hq] at hf
    exact (fitCond_straight _ _ _ _ _ _ hf).2.1
  have gen : ∀ (rs : List SegmentOut) (init : CalibFile), init.breaks = [] → (∀ r ∈ rs, r.breaks = []) → (rs.foldl applySegment init).breaks = [] := by
    intro rs
    induction rs with
    | nil => intro init hi _; exact hi
    | cons r rs ih =>
      intro init hi hr
      rw [List.foldl_cons]
      apply ih _ _ fun r' hr' => hr r' (by simp [hr'])
      simp [applySegment, hi, hr r (by simp)]
  rw [hout]
  exact gen rs _ rfl key

/-- C102. If the profile numbers of the file ascend, the factors of a segment lie on one straight line in the profile number and its slope is
the saved time derivative: free break points never appear in a completed calibration, whatever the limit `max_breaks` allows. -/
theorem segment_factor_is_linear (E : Env) (S : Settings) (data : List Column) (coords : Option (List Coord)) (out : CalibFile) (hA : Accepted S)
    (h : calibrate E S data coords = .ok out) (hno : (data.map Column.no).Pairwise (· < ·)) : out.breaks = [] ∧
      ∀ v : ℝ, v ≠ 0 → ∃ a b : ℝ, ∀ (j : ℕ) (c : Column), S.calseries[j]? = some v → data[j]? = some c →
        ∃ o, out.columns[j]? = some o ∧ o.factor = some (a + b * c.no) ∧ o.timeDeriv = some b := by
  refine ⟨no_breaks_saved E S data coords out hA h, ?_⟩
  · intro v hv
    by_cases hex : ∃ j : ℕ, S.calseries[j]? = some v
    · obtain ⟨j0, hj0⟩ := hex
      obtain ⟨i, hi⟩ := segment_of hj0 hv
      obtain ⟨D⟩ := accepted_done hA h hi
      obtain ⟨hlen, -, a, b, hab⟩ := done_straight D
      have hsort := done_cols_no D hno
      rw [uniqueReal_of_sorted _ hsort] at hlen hab
      rw [List.length_map] at hlen
      obtain ⟨hfl, hfp, -, -⟩ := spread_ok D.hfac
      refine ⟨a, b, fun j c hs hd => ?_⟩
      obtain ⟨p, hp⟩ := List.getElem?_of_mem ((calIndex_mem S v j).2 hs)
      obtain ⟨c', r, hcp, hd', hr, ho⟩ := D.hout p j hp
      obtain rfl : c' = c := Option.some.inj (hd'.symm.trans hd)
      have hplt : p < D.cols.length := (List.getElem?_eq_some_iff.1 hcp).1
      have := hfp hlen.symm ⟨p, by omega⟩
      rw [hr] at this
      obtain rfl := Option.some.inj this
      obtain ⟨h1, h2⟩ := hab ⟨p, by omega⟩
      refine ⟨_, ho, ?_, h2⟩
      show some (D.f.condslope ⟨p, _⟩) = _
      rw [h1, List.getD_eq_getElem?_getD, List.getElem?_map, hcp]
      rfl
    · exact ⟨0, 0, fun j c hs _ => absurd ⟨j, hs⟩ hex⟩

/-- C103, part. If the profile numbers of the file ascend, the change of the factor between two profiles of a segment is the saved time derivative times the
difference of their numbers. Missing: other orders, for which the claim is false (`descending_numbers_reverse_trend`). -/
theorem factor_follows_derivative_partial (E : Env) (S : Settings) (data : List Column) (coords : Option (List Coord)) (out : CalibFile)
    (hA : Accepted S) (h : calibrate E S data coords = .ok out) (hno : (data.map Column.no).Pairwise (· < ·)) (v : ℝ) (hv : v ≠ 0) (j1 j2 : ℕ) (c1 c2 : Column)
    (hs1 : S.calseries[j1]? = some v) (hs2 : S.calseries[j2]? = some v) (h1 : data[j1]? = some c1) (h2 : data[j2]? = some c2) :
    ∃ o1 o2 f1 f2 b, out.columns[j1]? = some o1 ∧ out.columns[j2]? = some o2 ∧ o1.factor = some f1 ∧ o2.factor = some f2 ∧
      o1.timeDeriv = some b ∧ o2.timeDeriv = some b ∧ f1 - f2 = b * (c1.no - c2.no) := by
  obtain ⟨a, b, hab⟩ := (segment_factor_is_linear E S data coords out hA h hno).2 v hv
  obtain ⟨o1, e1, f1, d1⟩ := hab j1 c1 hs1 h1
  obtain ⟨o2, e2, f2, d2⟩ := hab j2 c2 hs2 h2
  exact ⟨o1, o2, _, _, b, e1, e2, f1, f2, d1, d2, by ring⟩

/-- C103, finding. Two profiles of a segment whose numbers descend in the file: the factors change in the sense opposite to the saved time derivative. -/
theorem descending_numbers_reverse_trend (E : Env) (S : Settings) (data : List Column) (coords : Option (List Coord)) (out : CalibFile)
    (hA : Accepted S) (h : calibrate E S data coords = .ok out) (v : ℝ) (hv : v ≠ 0) (j1 j2 : ℕ) (c1 c2 : Column) (hlt : j1 < j2)
    (hs : ∀ j : ℕ, S.calseries[j]? = some v ↔ j = j1 ∨ j = j2) (h1 : data[j1]? = some c1) (h2 : data[j2]? = some c2) (hno : c2.no < c1.no) :
    ∃ o1 o2 f1 f2 b, out.columns[j1]? = some o1 ∧ out.columns[j2]? = some o2 ∧ o1.factor = some f1 ∧ o2.factor = some f2 ∧
      o1.timeDeriv = some b ∧ o2.timeDeriv = some b ∧ f1 - f2 = -b * (c1.no - c2.no) := by
  have hcal : calIndex S v = [j1, j2] := by
    have hsorted : [j1, j2].Pairwise (· < ·) := by simpa using hlt
    refine List.Perm.eq_of_pairwise (le := (· < ·)) (fun a b _ _ hab hba => absurd hab (not_lt.2 hba.le)) (argwhere_sorted _ _) hsorted ?_
    refine (List.perm_ext_iff_of_nodup (calIndex_nodup S v) (by simp; omega)).2 fun j => ?_
    rw [calIndex_mem, hs]; simp
  obtain ⟨i, hi⟩ := segment_of ((hs j1).2 (Or.inl rfl)) hv
  obtain ⟨D⟩ := accepted_done hA h hi
  obtain ⟨hlen, -, a, b, hab⟩ := done_straight D
  obtain ⟨d1, r1, hc1, hd1, hr1, ho1⟩ := D.hout 0 j1 (by rw [hcal]; rfl)
  obtain ⟨d2, r2, hc2, hd2, hr2, ho2⟩ := D.hout 1 j2 (by rw [hcal]; rfl)
  obtain rfl : d1 = c1 := Option.some.inj (hd1.symm.trans h1)
  obtain rfl : d2 = c2 := Option.some.inj (hd2.symm.trans h2)
  have hcl : D.cols.length = 2 := by rw [(gather_inv D.hcols).1, hcal]; rfl
  have hcols : D.cols = [d1, d2] := by
    obtain ⟨x, y, hxy⟩ := List.length_eq_two.1 hcl
    rw [hxy] at hc1 hc2 ⊢
    rw [Option.some.inj hc1, Option.some.inj hc2]
  have hu : uniqueReal (D.cols.map Column.no) = [d2.no, d1.no] := by
    rw [hcols]
    rw [uniqueReal_congr _ [d2.no, d1.no] fun v => by simp [or_comm]]
    exact uniqueReal_of_sorted _ (by simpa using hno)
  rw [hu] at hlen hab
  have hm : D.m + 1 = 2 := by simpa using hlen.symm
  obtain ⟨-, hfp, -, -⟩ := spread_ok D.hfac
  have e1 := hfp (by omega) ⟨0, by omega⟩
  have e2 := hfp (by omega) ⟨1, by omega⟩
  rw [hr1] at e1
  rw [hr2] at e2
  obtain rfl := Option.some.inj e1
  obtain rfl := Option.some.inj e2
  obtain ⟨x1, y1⟩ := hab ⟨0, by omega⟩
  obtain ⟨x2, y2⟩ := hab ⟨1, by omega⟩
  refine ⟨_, _, D.f.condslope ⟨0, by omega⟩, D.f.condslope ⟨1, by omega⟩, b, ho1, ho2, rfl, rfl, y1, y2, ?_⟩
  rw [x1, x2]
  simp
  ring

/-! ## C104: what a segment needs -/

theorem find10_two {B : Bounds ℝ} {percent : ℝ} {data : List (List (Level ℝ))} {th : Thetas ℝ} (h : find10thetas B percent data = .ok th)
    (hne : th.index ≠ []) : 2 ≤ data.length := by
  obtain ⟨pl, rows, -, h2, -, -, -, -, h7⟩ := find10thetas_ok h
  have hsel : select 10 (filteredVar percent rows) ≠ [] := by
    intro hc; rw [hc] at h7; exact hne h7
  obtain ⟨i, hi⟩ := List.exists_mem_of_ne_nil _ hsel
  obtain ⟨x, hx⟩ := (select_spec 10 (filteredVar percent rows)).2.2.1 i hi
  unfold filteredVar at hx
  rw [List.getElem?_map, Option.map_eq_some_iff] at hx
  obtain ⟨q, hq, hx⟩ := hx
  split_ifs at hx with hc
  have hmem : q.1.1 ∈ rows := by
    have h1 := List.mem_of_getElem? hq
    rw [List.mem_zipIdx_iff_getElem?] at h1
    have h3 := List.mem_of_getElem? h1
    exact (List.of_mem_zip (a := q.1.1) (b := q.1.2) h3).1
  obtain ⟨k, hk⟩ := List.getElem?_of_mem hmem
  obtain ⟨hl, hg⟩ := mapM_getElem h2
  have hklt : k < (pl.map (thetaLevel (data.map fun prof => prof.map (mask B)))).length := by
    rw [← hl]; exact (List.getElem?_eq_some_iff.1 hk).1
  obtain ⟨r, hr, hsr⟩ := hg k _ (List.getElem?_eq_getElem hklt)
  obtain rfl : q.1.1 = r := Option.some.inj (hk.symm.trans hr)
  have hrl := (mapM_getElem hsr).1
  rw [List.length_map] at hrl
  unfold nanvar1 at hx
  simp only at hx
  split_ifs at hx with hlt
  have := List.length_filterMap_le id q.1.1
  omega

/-- C104. A segment can only be calibrated if it has at least two profiles and a level within the user's limits with salinity, temperature, a mapped
salinity, and a temperature between -2 and 30. Otherwise the call ends with an exception and nothing is saved, for the other segments neither. -/
theorem segment_needs_data (E : Env) (S : Settings) (data : List Column) (coords : Option (List Coord)) (out : CalibFile) (hA : Accepted S)
    (h : calibrate E S data coords = .ok out) (v : ℝ) (hv : v ≠ 0) (j0 : ℕ) (hj0 : S.calseries[j0]? = some v) :
    (∃ j, j ≠ j0 ∧ S.calseries[j]? = some v) ∧
      ∃ (j : ℕ) (c : Column) (x : Cell), S.calseries[j]? = some v ∧ data[j]? = some c ∧ x ∈ c.cells ∧ Comparable x ∧ Usable S.bounds (takenLevel x) ∧
        ∀ t, x.ptmp = some t → -2 ≤ t ∧ t ≤ 30 := by
  obtain ⟨i, hi⟩ := segment_of hj0 hv
  obtain ⟨D⟩ := accepted_done hA h hi
  obtain ⟨th, cov, hth, hcov, hf⟩ := fitSegment_ok D.hfit
  obtain ⟨hcl, hcg⟩ := gather_inv D.hcols
  -- a good observation
  have hgood : ∃ o ∈ observations E.gsw D.cols (tenOf th.index D.cols), o.y ≠ none := by
    by_contra hc
    push Not at hc
    rw [fitCond_no_good _ _ _ _ hc] at hf
    cases hf
  obtain ⟨o, ho, hy⟩ := hgood
  unfold observations at ho
  obtain ⟨l, hl, hol⟩ := List.mem_flatten.1 ho
  obtain ⟨p, hp⟩ := List.getElem?_of_mem hl
  rw [List.getElem?_zipWith_eq_some] at hp
  obtain ⟨c, ten, hc, hten, rfl⟩ := hp
  obtain ⟨oc, hoc, rfl⟩ := List.mem_map.1 hol
  have hten0 := hten
  unfold tenOf at hten
  rw [List.getElem?_map, List.getElem?_zipIdx, hc] at hten
  simp only [Option.map_some, Option.some.injEq, Nat.zero_add] at hten
  -- its cell
  obtain ⟨x, rfl⟩ : ∃ x, oc = some x := by
    cases oc with
    | none => exact absurd rfl hy
    | some x => exact ⟨x, rfl⟩
  have hcmp : Comparable x := by
    obtain ⟨s, t, pr, mp, m⟩ := x
    unfold observation at hy
    cases s <;> cases t <;> cases m <;> simp [Comparable] at hy ⊢
  obtain ⟨q, hq⟩ := List.getElem?_of_mem hoc
  have hxin : ∃ row ∈ th.index, ∃ lev : ℕ, row[p]? = some (some lev) ∧ c.cells[lev]? = some x := by
    rw [← hten] at hoc
    unfold tenCells at hoc
    rcases List.mem_append.1 hoc with hoc | hoc
    · obtain ⟨lev, hlev, hx⟩ := List.mem_map.1 hoc
      obtain ⟨row, hrow, hj⟩ := List.mem_filterMap.1 hlev
      exact ⟨row, hrow, lev, Option.join_eq_some_iff.1 hj, hx⟩
    · exact absurd (List.mem_replicate.1 hoc).2 (by simp)
  obtain ⟨row, hrow, lev, hlev, hx⟩ := hxin
  obtain ⟨prof, lv, hprof, hlv, husable, -⟩ := thetas_index_usable S.bounds S.percent _ th hth row hrow p lev hlev
  rw [List.getElem?_map, hc] at hprof
  obtain rfl := Option.some.inj hprof
  rw [List.getElem?_map, hx] at hlv
  obtain rfl := Option.some.inj hlv
  have htwo := find10_two hth (by rintro hn; rw [hn] at hrow; cases hrow)
  rw [List.length_map, hcl] at htwo
  refine ⟨?_, ?_⟩
  · by_contra hno
    push Not at hno
    have : ∀ j ∈ calIndex S v, j = j0 := fun j hj => by
      by_contra hne
      exact hno j hne ((calIndex_mem S v j).1 hj)
    have hnd := calIndex_nodup S v
    match hL : calIndex S v with
    | [] => rw [hL] at htwo; simp at htwo
    | [_] => rw [hL] at htwo; simp at htwo
    | a :: b :: rest =>
      rw [hL] at this hnd
      have e1 := this a (by simp)
      have e2 := this b (by simp)
      rw [e1, e2] at hnd
      simp at hnd
  · have hplt : p < (calIndex S v).length := by rw [← hcl]; exact (List.getElem?_eq_some_iff.1 hc).1
    obtain ⟨c', hc', hd⟩ := hcg p _ (List.getElem?_eq_getElem hplt)
    obtain rfl : c' = c := Option.some.inj (hc'.symm.trans hc)
    refine ⟨(calIndex S v)[p], c', x, (calIndex_mem S v _).1 (List.getElem_mem hplt), hd, List.mem_of_getElem? hx, hcmp, husable, fun t ht => ?_⟩
    by_contra hcon
    have hfail := (build_cov_fails_iff (n := D.cols.length) (m := 10)
      (fun p j => (((tenOf th.index D.cols).getD p []).getD j none).bind Cell.ptmp) (fun p => D.sub.getD p ⟨0, 0, 0⟩) E.cov.long E.cov.lat E.cov.phi
      E.cov.usePv).2 ⟨by norm_num, ⟨p, by rw [hcl]; exact hplt⟩, ⟨q, ?_⟩, t, ?_, ?_⟩
    · rw [hcov] at hfail; cases hfail
    · have hql : q < ten.length := (List.getElem?_eq_some_iff.1 hq).1
      rw [← hten] at hql
      unfold tenCells at hql
      have hsl : th.index.length ≤ 10 := by
        obtain ⟨pl, rows, -, -, -, -, -, -, h7⟩ := find10thetas_ok hth
        rw [h7, List.length_map]
        exact (select_spec 10 _).2.1
      have := List.length_filterMap_le (fun row : List (Option ℕ) => (row[p]?).join) th.index
      simp only [List.length_append, List.length_map, List.length_replicate] at hql
      omega
    · simp only [List.getD_eq_getElem?_getD, hten0, Option.getD_some, hq]
      exact ht
    · by_contra hc2
      push Not at hc2
      exact hcon hc2

/-- C104. Repeated profile numbers: if two profiles of a calibrated segment have the same number, all of them have. -/
theorem repeated_numbers_all_equal (E : Env) (S : Settings) (data : List Column) (coords : Option (List Coord)) (out : CalibFile) (hA : Accepted S)
    (h : calibrate E S data coords = .ok out) (v : ℝ) (hv : v ≠ 0) (j1 j2 j3 : ℕ) (c1 c2 c3 : Column) (hne : j1 ≠ j2)
    (hs1 : S.calseries[j1]? = some v) (hs2 : S.calseries[j2]? = some v) (hs3 : S.calseries[j3]? = some v) (h1 : data[j1]? = some c1)
    (h2 : data[j2]? = some c2) (h3 : data[j3]? = some c3) (hno : c1.no = c2.no) : c3.no = c1.no := by
  obtain ⟨i, hi⟩ := segment_of hs1 hv
  obtain ⟨D⟩ := accepted_done hA h hi
  obtain ⟨hlen, -, -⟩ := done_straight D
  obtain ⟨p1, hp1⟩ := List.getElem?_of_mem ((calIndex_mem S v j1).2 hs1)
  obtain ⟨p2, hp2⟩ := List.getElem?_of_mem ((calIndex_mem S v j2).2 hs2)
  obtain ⟨p3, hp3⟩ := List.getElem?_of_mem ((calIndex_mem S v j3).2 hs3)
  obtain ⟨d1, -, hc1, hd1, -⟩ := D.hout p1 j1 hp1
  obtain ⟨d2, -, hc2, hd2, -⟩ := D.hout p2 j2 hp2
  obtain ⟨d3, -, hc3, hd3, -⟩ := D.hout p3 j3 hp3
  obtain rfl : d1 = c1 := Option.some.inj (hd1.symm.trans h1)
  obtain rfl : d2 = c2 := Option.some.inj (hd2.symm.trans h2)
  obtain rfl : d3 = c3 := Option.some.inj (hd3.symm.trans h3)
  have hpne : p1 ≠ p2 := by
    rintro rfl
    exact hne (Option.some.inj (hp1.symm.trans hp2))
  obtain ⟨-, -, hor, -⟩ := spread_ok D.hfac
  have hul : (uniqueReal (D.cols.map Column.no)).length = (D.cols.map Column.no).dedup.length := by
    unfold uniqueReal; rw [List.length_insertionSort]
  rcases hor with hor | hor
  · exfalso
    have hnd : (D.cols.map Column.no).Nodup := by
      rw [← List.dedup_eq_self]
      apply (List.dedup_sublist _).eq_of_length
      rw [← hul, hlen, hor, List.length_map]
    obtain ⟨l1, e1⟩ := List.getElem?_eq_some_iff.1 hc1
    obtain ⟨l2, e2⟩ := List.getElem?_eq_some_iff.1 hc2
    have := (hnd.getElem_inj_iff (i := p1) (hi := by rw [List.length_map]; exact l1) (j := p2) (hj := by rw [List.length_map]; exact l2)).1 (by
      simp only [List.getElem_map]; rw [e1, e2, hno])
    exact hpne this
  · have hone : (D.cols.map Column.no).dedup.length = 1 := by rw [← hul, hlen, hor]
    obtain ⟨w, hw⟩ := List.length_eq_one_iff.1 hone
    have hm : ∀ c ∈ D.cols, c.no = w := by
      intro c hc
      have : c.no ∈ (D.cols.map Column.no).dedup := List.mem_dedup.2 (List.mem_map_of_mem hc)
      rw [hw] at this
      simpa using this
    rw [hm d3 (List.mem_of_getElem? hc3), hm d1 (List.mem_of_getElem? hc1)]

/-! ## C105: settings -/

/-- C105, part. With one limit for each segment, a segment depends on no limit but its own: two completed runs whose settings differ only in limits, but not in that of
the segment `v` (the `i`-th in ascending order), agree in the results of that segment. Missing: prescribed break points and limits stored as a row, for which the
claim is false. -/
theorem limit_of_own_segment_partial (E : Env) (S : Settings) (mb' : List (List ℤ)) (data : List Column) (coords : Option (List Coord)) (out out' : CalibFile)
    (hb : S.breaks = []) (hl : S.maxBreaks.length = (segmentValues S).card) (hl' : mb'.length = (segmentValues S).card)
    (h : calibrate E S data coords = .ok out) (h' : calibrate E { S with maxBreaks := mb' } data coords = .ok out') (v : ℝ) (hv : v ≠ 0)
    (hlim : S.maxBreaks[((segmentValues S).filter (· < v)).card]? = mb'[((segmentValues S).filter (· < v)).card]?) (j : ℕ)
    (hj : S.calseries[j]? = some v) : out.columns[j]? = out'.columns[j]? := by
  have hA : Accepted S := ⟨hb, Or.inr (Or.inr hl)⟩
  have hA' : Accepted { S with maxBreaks := mb' } := ⟨hb, Or.inr (Or.inr hl')⟩
  obtain ⟨i, hi⟩ := segment_of hj hv
  have hseg : segments { S with maxBreaks := mb' } = segments S := rfl
  have hcal : calIndex { S with maxBreaks := mb' } v = calIndex S v := rfl
  have hi0 := hi
  obtain ⟨D⟩ := accepted_done hA h hi
  obtain ⟨D'⟩ := accepted_done (S := { S with maxBreaks := mb' }) hA' h' (by rw [hseg]; exact hi)
  -- the position of the segment
  have hpos : ((segmentValues S).filter (· < v)).card = i := by
    have hsorted : (segments S).Pairwise (· < ·) := by
      unfold segments
      exact (uniqueReal_strict _).filter _
    obtain ⟨hilt, hiv⟩ := List.getElem?_eq_some_iff.1 hi0
    have hset : (segmentValues S).filter (· < v) = ((segments S).take i).toFinset := by
      ext w
      rw [Finset.mem_filter, List.mem_toFinset]
      have hw : w ∈ segmentValues S ↔ w ∈ segments S := by
        unfold segmentValues
        rw [Finset.mem_erase, List.mem_toFinset, segments_mem]; tauto
      rw [hw]
      constructor
      · rintro ⟨hm, hlt⟩
        obtain ⟨q, hq, rfl⟩ := List.getElem_of_mem hm
        have hqi : q < i := by
          by_contra hc
          rcases (not_lt.1 hc).lt_or_eq with h1 | h1
          · have := List.pairwise_iff_getElem.1 hsorted i q hilt hq h1
            rw [hiv] at this; exact absurd hlt (not_lt.2 this.le)
          · subst h1; rw [hiv] at hlt; exact lt_irrefl _ hlt
        exact List.mem_take_iff_getElem.2 ⟨q, by omega, rfl⟩
      · intro hm
        obtain ⟨q, hq, rfl⟩ := List.mem_take_iff_getElem.1 hm
        refine ⟨List.getElem_mem _, ?_⟩
        have := List.pairwise_iff_getElem.1 hsorted q i (by omega) hilt (by omega)
        rwa [hiv] at this
    rw [hset, List.toFinset_card_of_nodup ((segments_nodup S).sublist (List.take_sublist _ _)), List.length_take]
    omega
  rw [hpos] at hlim
  rw [← segments_card] at hl hl'
  have hchk : ∀ mb : List (List ℤ), mb.length = (segments S).length → (checkMaxBreaks (segments S).length mb).1 = mb := by
    intro mb hmb
    unfold checkMaxBreaks
    split_ifs with hgt
    · match mb, hmb with
      | [row], hmb => simp at hmb; omega
      | [], _ => rfl
      | a :: b :: l, _ => rfl
    · rfl
  have e1 : D.sub = D'.sub := by
    have h1 := D.hsub
    have h2 := D'.hsub
    rw [hcal] at h2
    rw [Option.some.inj (D.hcs.symm.trans D'.hcs)] at h1
    exact Except.ok.inj (h1.symm.trans h2)
  have e2 : D.cols = D'.cols := Except.ok.inj (D.hcols.symm.trans (by have := D'.hcols; rwa [hcal] at this))
  have e3 : D.args = D'.args := by
    have h1 := D.hargs
    have h2 := D'.hargs
    rw [hseg] at h2
    rw [hchk _ hl] at h1
    rw [hchk _ hl'] at h2
    unfold fitArgs at h1 h2
    rw [if_pos (show ([] : List (List (Option ℝ))).length = 0 from rfl)] at h1 h2
    rw [hlim] at h1
    exact Except.ok.inj (h1.symm.trans h2)
  have e0 : ∀ cols sub args, fitSegment E { S with maxBreaks := mb' } i cols sub args = fitSegment E S i cols sub args := fun _ _ _ => rfl
  obtain ⟨sub, cols, args, m, f, fac, cs1, hcs1, hsub, hcols, hargs, hfit, hfac, hout⟩ := D
  obtain ⟨sub', cols', args', m', f', fac', cs1', hcs1', hsub', hcols', hargs', hfit', hfac', hout'⟩ := D'
  simp only at e1 e2 e3
  subst e1 e2 e3
  rw [e0] at hfit'
  have e4 := Option.some.inj (Except.ok.inj (hfit.symm.trans hfit'))
  cases e4
  have e5 : fac = fac' := Except.ok.inj (hfac.symm.trans hfac')
  subst e5
  obtain ⟨p, hp⟩ := List.getElem?_of_mem ((calIndex_mem S v j).2 hj)
  obtain ⟨c, r, hcp, -, hr, ho⟩ := hout p j hp
  obtain ⟨c', r', hcp', -, hr', ho'⟩ := hout' p j (by rw [hcal]; exact hp)
  obtain rfl := Option.some.inj (hcp.symm.trans hcp')
  obtain rfl := Option.some.inj (hr.symm.trans hr')
  rw [ho, ho']

/-- C105. With several segments and a number of limits that is neither one nor the number of segments, a file without any result is saved. -/
theorem rejected_settings_save_nothing (E : Env) (S : Settings) (data : List Column) (coords : Option (List Coord)) (hb : S.breaks = [])
    (hr : ¬ Accepted S) : ∃ out, calibrate E S data coords = .ok out ∧ AllMissing data out := by
  refine ⟨⟨data.map blankColumn, [], []⟩, ?_, rfl, rfl, rfl⟩
  rw [calibrate_eq, not_accepted_checks S hb hr]
  have : checkBreaks (segments S).length (checkMaxBreaks (segments S).length S.maxBreaks).1 S.breaks = .ok true := by
    unfold checkBreaks; rw [hb]; rfl
  rw [this]
  rfl

/-- C105, finding. With break points prescribed by the user a saved file never has a result: the call fails or saves a file without any. -/
theorem prescribed_breaks_give_nothing (E : Env) (S : Settings) (data : List Column) (coords : Option (List Coord)) (out : CalibFile)
    (hb : S.breaks ≠ []) (h : calibrate E S data coords = .ok out) : AllMissing data out := by
  rcases calibrate_inv h with hm | ⟨rs, hm, rfl⟩
  · exact hm
  · cases hs : segments S with
    | nil =>
      have : numbered S = [] := by unfold numbered; rw [hs]; rfl
      rw [this] at hm
      obtain rfl := Except.ok.inj hm
      exact ⟨rfl, rfl, rfl⟩
    | cons v l =>
      exact absurd (done_of_work hm (i := 0) (v := v) (by rw [hs]; rfl)).1 hb

/-- C105, finding. Limits stored as one row: the first number is the limit of every segment, the others have no effect. -/
theorem only_first_limit_counts (E : Env) (S : Settings) (data : List Column) (coords : Option (List Coord)) (k : ℤ) (rest : List ℤ)
    (hb : S.breaks = []) (hm : S.maxBreaks = [k :: rest]) :
    calibrate E S data coords = calibrate E { S with maxBreaks := [[k]] } data coords := by
  rw [calibrate_eq, calibrate_eq]
  have hseg : segments { S with maxBreaks := [[k]] } = segments S := rfl
  have hnum : numbered { S with maxBreaks := [[k]] } = numbered S := rfl
  rw [hseg, hnum, hm]
  have hc : ∀ (mb : List (List ℤ)), checkBreaks (segments S).length mb S.breaks = .ok true := fun mb => by rw [hb]; rfl
  rw [hc, hc]
  have h2 : ∀ row, (checkMaxBreaks (segments S).length [row]).2 = true := by
    intro row; unfold checkMaxBreaks; split_ifs <;> rfl
  rw [h2, h2]
  have hw : ∀ iv, segmentWork E S (checkMaxBreaks (segments S).length [k :: rest]).1 data coords iv =
      segmentWork E { S with maxBreaks := [[k]] } (checkMaxBreaks (segments S).length [[k]]).1 data coords iv := by
    intro iv
    have ha : fitArgs (checkMaxBreaks (segments S).length [k :: rest]).1 S.breaks iv.1 =
        fitArgs (checkMaxBreaks (segments S).length [[k]]).1 S.breaks iv.1 := by
      rw [hb]
      unfold fitArgs checkMaxBreaks
      rw [if_pos (show ([] : List (List (Option ℝ))).length = 0 from rfl), if_pos (show ([] : List (List (Option ℝ))).length = 0 from rfl)]
      split_ifs with hgt
      · simp only [List.getElem?_replicate]
        split_ifs <;> rfl
      · cases iv.1 <;> rfl
    unfold segmentWork
    rw [ha]
    rfl
  have hw' : segmentWork E S (checkMaxBreaks (segments S).length [k :: rest]).1 data coords =
      segmentWork E { S with maxBreaks := [[k]] } (checkMaxBreaks (segments S).length [[k]]).1 data coords := funext hw
  rw [hw']

/-- C105. Without selected historical points the call fails as soon as there is a segment. -/
theorem no_history_no_calibration (E : Env) (S : Settings) (data : List Column) (hA : Accepted S) (j : ℕ) (v : ℝ)
    (hj : S.calseries[j]? = some v) (hv : v ≠ 0) : calibrate E S data none = .error .nameError := by
  rw [calibrate_accepted E S data none hA]
  have hw : ∀ iv, segmentWork E S (checkMaxBreaks (segments S).length S.maxBreaks).1 data none iv = .error .nameError := fun iv => rfl
  obtain ⟨i, hi⟩ := segment_of hj hv
  cases hs : numbered S with
  | nil =>
    exfalso
    have : (numbered S).length = 0 := by rw [hs]; rfl
    unfold numbered at this
    rw [List.length_map, List.length_zipIdx] at this
    rw [List.length_eq_zero_iff.1 this] at hi
    simp at hi
  | cons iv l =>
    rw [List.mapM_cons, hw]
    rfl

/-! ## C57: depth at the positions of the float -/

theorem min_max_of (l : List ℝ) (h : l ≠ []) : ∃ a b, l.min? = some a ∧ l.max? = some b ∧ a ∈ l ∧ b ∈ l ∧ ∀ x ∈ l, a ≤ x ∧ x ≤ b := by
  cases h1 : l.min? with
  | none => exact absurd (List.min?_eq_none_iff.1 h1) h
  | some a =>
    cases h2 : l.max? with
    | none => exact absurd (List.max?_eq_none_iff.1 h2) h
    | some b =>
      obtain ⟨ha, ha'⟩ := List.min?_eq_some_iff.1 h1
      obtain ⟨hb, hb'⟩ := List.max?_eq_some_iff.1 h2
      exact ⟨a, b, rfl, rfl, ha, hb, fun x hx => ⟨ha' x hx, hb' x hx⟩⟩

theorem zip_coords (a b c : List ℝ) (k : ℕ) (x y z : ℝ) (ha : a[k]? = some x) (hb : b[k]? = some y) (hc : c[k]? = some z) :
    ((a.zip (b.zip c)).map fun p => (⟨p.1, p.2.1, p.2.2⟩ : Coord))[k]? = some ⟨x, y, z⟩ := by
  have h : (a.zip (b.zip c))[k]? = some (x, y, z) := List.getElem?_zip_eq_some.2 ⟨ha, List.getElem?_zip_eq_some.2 ⟨hb, hc⟩⟩
  rw [List.getElem?_map, h]
  rfl

/-- C57. The depth of every profile is interpolated at its own position, all longitudes shifted by 0 or all by -360, in a window of the elevation file that
reaches at least one degree beyond every position (to the poles at most). The position itself is kept as given. -/
theorem float_depth_at_own_position (topo : List ℤ) (hf : topo.length = 2160 * 4320) (interp2 : List ℝ → List ℝ → List (List ℤ) → ℝ → ℝ → ℝ)
    (hist : ℕ) (hh : 0 < hist) (long lat : List ℝ) (hne : long ≠ []) (hlen : long.length = lat.length) (hlat : ∀ y ∈ lat, -90 ≤ y ∧ y ≤ 90)
    (hlong : (∀ x ∈ long, -180 ≤ x ∧ x ≤ 180) ∨ ((∃ x ∈ long, 180 < x) ∧ ∀ x ∈ long, 1 ≤ x ∧ x ≤ 360)) :
    ∃ (cs : List Coord) (grid : List (List ℤ)) (lgs lts : List ℝ) (d w e n s : ℝ), coordFloat topo interp2 hist long lat = .ok (some cs) ∧
      cs.length = long.length ∧ (d = 0 ∨ d = 360) ∧
      (∀ (i j : ℕ) (row : List ℤ) (z : ℤ) (y x : ℝ), grid[i]? = some row → row[j]? = some z → lts[i]? = some y → lgs[j]? = some x → Verif.Topo.ElevationAt topo y x z) ∧
      lgs.head? = some w ∧ lgs.getLast? = some e ∧ lts.head? = some n ∧ lts.getLast? = some s ∧
      ∀ (i : ℕ) (x y : ℝ), long[i]? = some x → lat[i]? = some y →
        cs[i]? = some ⟨x, y, -(interp2 lgs lts grid (x - d) y)⟩ ∧ w ≤ (x - d) - 1 ∧ (x - d) + 1 ≤ e ∧ min (y + 1) 90 ≤ n ∧ s ≤ max (y - 1) (-1079 / 12) := by
  set d : ℝ := if long.any (fun x => decide (x > 180)) then 360 else 0 with hd
  have hlong1 : (if long.any (fun x => decide (x > 180)) then long.map fun x => x - 360 else long) = long.map fun x => x - d := by
    rw [hd]
    split_ifs with h
    · rfl
    · simp
  have hd' : d = 0 ∨ d = 360 := by rw [hd]; split_ifs <;> simp
  have hbound : ∀ x ∈ long, -359 ≤ x - d ∧ x - d ≤ 180 := by
    rcases hlong with hl | ⟨⟨x0, hx0, hgt⟩, hl⟩
    · have : long.any (fun x => decide (x > 180)) = false := by
        rw [List.any_eq_false]
        intro x hx
        have := (hl x hx).2
        simp; exact this
      rw [hd, this]
      intro x hx
      have := hl x hx
      simp only [Bool.false_eq_true, if_false]
      constructor <;> linarith
    · have : long.any (fun x => decide (x > 180)) = true := by
        rw [List.any_eq_true]
        exact ⟨x0, hx0, by simpa using hgt⟩
      rw [hd, this]
      intro x hx
      have := hl x hx
      simp only [if_true]
      constructor <;> linarith
  have hlatne : lat ≠ [] := by
    intro h; rw [h] at hlen
    exact hne (List.length_eq_zero_iff.1 hlen)
  obtain ⟨x0, x1, hx0, hx1, mx0, mx1, hx⟩ := min_max_of (long.map fun x => x - d) (by simpa using hne)
  obtain ⟨y0, y1, hy0, hy1, my0, my1, hy⟩ := min_max_of lat hlatne
  obtain ⟨u0, hu0, rfl⟩ := List.mem_map.1 mx0
  obtain ⟨u1, hu1, rfl⟩ := List.mem_map.1 mx1
  have b0 := hbound u0 hu0
  have b1 := hbound u1 hu1
  have b2 := hlat y0 my0
  have b3 := hlat y1 my1
  have hxx := (hx _ mx1).1
  have hyy := (hy _ my1).1
  obtain ⟨grid, lgs, lts, hg, -, -, hel, ⟨w, e, hw, he, hw1, -, he1, -⟩, -, ⟨n, s, hn, hs, hn1, -, hs1, -⟩, -⟩ :=
    topo_grid_window topo hf (u0 - d - 1) (u1 - d + 1) (y0 - 1) (y1 + 1) (by linarith) (by linarith) (by linarith) (by linarith)
      (Or.inl ⟨by linarith, by linarith⟩)
  refine ⟨(long.zip (lat.zip (((long.map fun x => x - d).zip lat).map fun p => -(interp2 lgs lts grid p.1 p.2)))).map fun p => ⟨p.1, p.2.1, p.2.2⟩,
    grid, lgs, lts, d, w, e, n, s, ?_, ?_, hd', hel, hw, he, hn, hs, ?_⟩
  · unfold coordFloat
    rw [if_pos hh]
    simp only [hlong1]
    rw [hx0, hx1, hy0, hy1]
    simp only [hg]
    rfl
  · simp [hlen]
  · intro i x y hi hi'
    have hxm := hx (x - d) (List.mem_map.2 ⟨x, List.mem_of_getElem? hi, rfl⟩)
    have hym := hy y (List.mem_of_getElem? hi')
    refine ⟨?_, by linarith [hxm.1], by linarith [hxm.2], ?_, ?_⟩
    · apply zip_coords _ _ _ _ _ _ _ hi hi'
      have hz : ((long.map fun x => x - d).zip lat)[i]? = some (x - d, y) :=
        List.getElem?_zip_eq_some.2 ⟨by rw [List.getElem?_map, hi]; rfl, hi'⟩
      rw [List.getElem?_map, hz]
      rfl
    · exact le_trans (min_le_min_right _ (by linarith [hym.2])) hn1
    · exact le_trans hs1 (max_le_max_right _ (by linarith [hym.1]))

/-- C106, finding. In the covariance of the calibration a difference of longitude is divided by the scale configured for latitude and a difference of latitude by
the scale configured for longitude (without potential vorticity, for two profiles on one and the same level). -/
theorem calibration_scales_swapped (topo : List ℤ) (interp2 : List ℝ → List ℝ → List (List ℤ) → ℝ → ℝ → ℝ) (hist : ℕ) (long lat : List ℝ)
    (cs : List Coord) (hc : coordFloat topo interp2 hist long lat = .ok (some cs)) (C : CovConfig) (hC : C.long ≠ 0 ∧ C.lat ≠ 0 ∧ C.usePv = false) {n m : ℕ}
    (ptmp : Fin n → Fin m → Option ℝ) (M : Fin n × Fin m → Fin n × Fin m → ℝ) (hM : buildCov ptmp (fun p => cs.getD p ⟨0, 0, 0⟩) C.long C.lat C.phi C.usePv = .ok M)
    (p q : Fin n) (i : Fin m) (x1 y1 x2 y2 : ℝ) (h1 : long[p.val]? = some x1) (h2 : lat[p.val]? = some y1) (h3 : long[q.val]? = some x2) (h4 : lat[q.val]? = some y2) :
    M (p, i) (q, i) = Real.exp (-((x1 - x2) ^ 2 / C.lat ^ 2 + (y1 - y2) ^ 2 / C.long ^ 2)) := by
  have hcs : ∀ (k : ℕ) (x y : ℝ), long[k]? = some x → lat[k]? = some y → ∃ z, cs[k]? = some ⟨x, y, z⟩ := by
    intro k x y hx hy
    unfold coordFloat at hc
    by_cases hh : hist > 0
    · rw [if_pos hh] at hc
      simp only at hc
      split at hc
      · next x0 x1 y0 y1 _ _ _ _ =>
        cases hg : Verif.Topo.topoGrid topo (x0 - 1) (x1 + 1) (y0 - 1) (y1 + 1) with
        | error e => rw [hg] at hc; cases hc
        | ok g =>
          rw [hg] at hc
          have := Option.some.inj (Except.ok.inj hc)
          subst this
          have hl : (if long.any (fun x => decide (x > 180)) then long.map fun x => x - 360 else long)[k]? =
              some (if long.any (fun x => decide (x > 180)) then x - 360 else x) := by
            by_cases hany : long.any (fun x => decide (x > 180)) = true
            · rw [if_pos hany, if_pos hany, List.getElem?_map, hx]; rfl
            · rw [if_neg hany, if_neg hany, hx]
          have hz := List.getElem?_zip_eq_some (z := (_, _)).2 ⟨hl, hy⟩
          exact ⟨_, zip_coords _ _ _ _ _ _ _ hx hy (by rw [List.getElem?_map, hz]; rfl)⟩
      · cases hc
    · rw [if_neg hh] at hc; cases hc
  obtain ⟨z1, e1⟩ := hcs p x1 y1 h1 h2
  obtain ⟨z2, e2⟩ := hcs q x2 y2 h3 h4
  obtain ⟨⟨v, ⟨hv, -⟩, he⟩, -⟩ := build_cov_entry ptmp _ C.long C.lat C.phi C.usePv M ⟨hC.1, hC.2.1, by rw [hC.2.2]; simp⟩ hM p q i i
  rw [he, hv rfl, mul_one]
  unfold horizontalCorrelation horizontalSq
  simp only [List.getD_eq_getElem?_getD, e1, e2, Option.getD_some, hC.2.2]
  simp

/-- C106, part. With equal scales the covariance is the one intended (up to the reduction of longitudes modulo 360). Missing: unequal scales, for which it is not. -/
theorem calibration_scales_partial (topo : List ℤ) (interp2 : List ℝ → List ℝ → List (List ℤ) → ℝ → ℝ → ℝ) (hist : ℕ) (long lat : List ℝ)
    (cs : List Coord) (hc : coordFloat topo interp2 hist long lat = .ok (some cs)) (C : CovConfig) (hC : C.long ≠ 0 ∧ C.lat = C.long ∧ C.usePv = false) {n m : ℕ}
    (ptmp : Fin n → Fin m → Option ℝ) (M : Fin n × Fin m → Fin n × Fin m → ℝ) (hM : buildCov ptmp (fun p => cs.getD p ⟨0, 0, 0⟩) C.long C.lat C.phi C.usePv = .ok M)
    (p q : Fin n) (i : Fin m) (x1 y1 x2 y2 : ℝ) (h1 : long[p.val]? = some x1) (h2 : lat[p.val]? = some y1) (h3 : long[q.val]? = some x2) (h4 : lat[q.val]? = some y2) :
    M (p, i) (q, i) = Real.exp (-((x1 - x2) ^ 2 / C.long ^ 2 + (y1 - y2) ^ 2 / C.lat ^ 2)) := by
  rw [calibration_scales_swapped topo interp2 hist long lat cs hc C ⟨hC.1, by rw [hC.2.1]; exact hC.1, hC.2.2⟩ ptmp M hM p q i x1 y1 x2 y2 h1 h2 h3 h4, hC.2.1]

end Verif.Props
