import Verif.Props.PiecewiseMore

/-! # The saved coefficients, and prescribed break points (C105, C129) -/

set_option linter.unusedSectionVars false

namespace Verif.Props

open Verif.Np Verif.Spec Verif.FitCond Verif.Piecewise
open Verif.Stats (Coord)

theorem segments_sorted (S : Settings) : (segments S).Pairwise (· < ·) := (uniqueReal_strict _).filter _

/-- The segments are the non-zero values of `calseries`, ascending. -/
theorem segments_unique (S : Settings) (segs : List ℝ) (hs : segs.Pairwise (· < ·)) (hm : ∀ v, v ∈ segs ↔ v ∈ S.calseries ∧ v ≠ 0) :
    segs = segments S := by
  have hp : segs.Perm (segments S) := (List.perm_ext_iff_of_nodup (hs.imp fun h => ne_of_lt h) (segments_nodup S)).2 fun v => by
    rw [hm, segments_mem]
  exact hp.eq_of_pairwise (fun a b _ _ h1 h2 => absurd h1 (lt_asymm h2)) hs (segments_sorted S)

/-- C129. If the profile numbers of the file ascend, the saved `fcoef` lists the coefficients of the segments, in ascending order of their values in
`calseries`. A segment contributes one number, the factor of all its profiles, if its time derivative is 0, or two: the factor of its first profile and the
time derivative. -/
theorem coefficients_by_segment (E : Env) (S : Settings) (data : List Column) (coords : Option (List Coord)) (out : CalibFile) (hA : Accepted S)
    (h : calibrate E S data coords = .ok out) (hno : (data.map Column.no).Pairwise (· < ·))
    (segs : List ℝ) (hs : segs.Pairwise (· < ·)) (hm : ∀ v, v ∈ segs ↔ v ∈ S.calseries ∧ v ≠ 0) :
    ∃ parts : List (List ℝ), out.coef = parts.flatten ∧ parts.length = segs.length ∧
      ∀ (i : ℕ) (v : ℝ), segs[i]? = some v → ∃ (a b : ℝ) (j0 : ℕ) (c0 : Column),
        (parts[i]? = some [a] ∧ b = 0 ∨ parts[i]? = some [a, b]) ∧
        S.calseries[j0]? = some v ∧ (∀ j < j0, S.calseries[j]? ≠ some v) ∧ data[j0]? = some c0 ∧
        ∀ (j : ℕ) (c : Column), S.calseries[j]? = some v → data[j]? = some c →
          ∃ o, out.columns[j]? = some o ∧ o.factor = some (a + b * (c.no - c0.no)) ∧ o.timeDeriv = some b := by
  obtain rfl := segments_unique S segs hs hm
  obtain ⟨rs, hw, rfl⟩ := accepted_work hA h
  refine ⟨rs.map SegmentOut.coef, by rw [fold_coef]; rfl, ?_, ?_⟩
  · rw [List.length_map, (mapM_getElem hw).1, ← numbered_snd, List.length_map]
  · intro i v hv
    obtain ⟨-, D, hD⟩ := done_with_coef hw hv
    obtain ⟨th, cov, -, -, hf⟩ := fitSegment_ok D.hfit
    obtain ⟨k, hk⟩ := fitArgs_free D.hargs
    rw [hk] at hf
    obtain ⟨hlen, -, a, b, hab, hlin⟩ := fitCond_coef _ _ _ _ _ _ hf
    rw [uniqueReal_congr _ _ (observations_x E.gsw D.cols th.index)] at hlen hlin
    have hsort := done_cols_no D hno
    rw [uniqueReal_of_sorted _ hsort] at hlen hlin
    rw [List.length_map] at hlen
    obtain ⟨hcl, -⟩ := gather_inv D.hcols
    obtain ⟨j0, hj0⟩ : ∃ j0, (calIndex S v)[0]? = some j0 := ⟨_, List.getElem?_eq_getElem (by omega)⟩
    obtain ⟨c0, r0, hc0, hd0, -, -⟩ := D.hout 0 j0 hj0
    refine ⟨a, b, j0, c0, ?_, (calIndex_mem S v j0).1 (List.mem_of_getElem? hj0), ?_, hd0, ?_⟩
    · rcases hab with ⟨h1, h2⟩ | h1
      · exact Or.inl ⟨by rw [hD, h1], h2⟩
      · exact Or.inr (by rw [hD, h1])
    · intro j hj hjv
      obtain ⟨p, hp⟩ := List.getElem?_of_mem ((calIndex_mem S v j).2 hjv)
      have hsrt : (calIndex S v).Pairwise (· < ·) := argwhere_sorted _ _
      rw [List.pairwise_iff_getElem] at hsrt
      obtain ⟨h0, h0'⟩ := List.getElem?_eq_some_iff.1 hj0
      obtain ⟨h1, h1'⟩ := List.getElem?_eq_some_iff.1 hp
      rcases Nat.eq_zero_or_pos p with rfl | hpos
      · rw [hj0] at hp; cases hp; omega
      · have := hsrt 0 p h0 h1 hpos
        omega
    · obtain ⟨hfl, hfp, -, -⟩ := spread_ok D.hfac
      intro j c hs' hd
      obtain ⟨p, hp⟩ := List.getElem?_of_mem ((calIndex_mem S v j).2 hs')
      obtain ⟨c', r, hcp, hd', hr, ho⟩ := D.hout p j hp
      obtain rfl : c' = c := Option.some.inj (hd'.symm.trans hd)
      have hplt : p < D.cols.length := (List.getElem?_eq_some_iff.1 hcp).1
      have := hfp hlen.symm ⟨p, by omega⟩
      rw [hr] at this
      obtain rfl := Option.some.inj this
      obtain ⟨h1, h2⟩ := hlin ⟨p, by omega⟩
      refine ⟨_, ho, ?_, h2⟩
      show some (D.f.condslope ⟨p, _⟩) = _
      rw [h1, List.getD_eq_getElem?_getD, List.getD_eq_getElem?_getD, List.getElem?_map, List.getElem?_map, hcp, hc0]
      rfl

/-- The example with ascending numbers meets the hypotheses, with the segments 1 and 2. -/
example : ∃ out, calibrate exCalEnv calSettings exDataSorted (some calExCoords) = .ok out ∧ Accepted calSettings ∧
    (exDataSorted.map Column.no).Pairwise (· < ·) ∧ ∀ v : ℝ, v ∈ [(1 : ℝ), 2] ↔ v ∈ calSettings.calseries ∧ v ≠ 0 := by
  obtain ⟨out, h⟩ := calRun 1 2 (by norm_num)
  refine ⟨out, h, exAccepted, ?_, fun v => ?_⟩
  · simp [exDataSorted, exColumn]; norm_num
  · simp [calSettings]
    constructor
    · rintro (rfl | rfl) <;> norm_num
    · tauto

theorem checkBreaksOf_ok (mb : List (List ℤ)) (breaks : List (List (Option ℝ))) (i : ℕ) (row : List (Option ℝ)) (k : ℤ) (hr : breaks[i]? = some row)
    (hk : mb[i]? = some [k]) : checkBreaksOf mb breaks i = .ok (decide (((row.filter Option.isSome).length : ℤ) ≤ k)) := by
  unfold checkBreaksOf
  rw [hr]
  dsimp only
  rw [hk]
  simp only [gt_iff_lt, not_lt]

/-- C105. Break points prescribed for the segments `0, 1, …`, with the limits `k`: a file, without any result, is saved if and only if there are more rows of
break points than segments, or a segment has more break points than its limit and no row is missing; otherwise the call fails. -/
theorem prescribed_breaks_outcome (E : Env) (S : Settings) (data : List Column) (coords : Option (List Coord)) (hb : S.breaks ≠ []) (k : ℕ → ℤ)
    (hk : (∃ c, S.maxBreaks = [[c]] ∧ ∀ i, k i = c) ∨ S.maxBreaks = (List.range (segmentValues S).card).map fun i => [k i]) :
    (∃ out, calibrate E S data coords = .ok out ∧ AllMissing data out) ↔
      (segmentValues S).card < S.breaks.length ∨ S.breaks.length = (segmentValues S).card ∧
        ∃ (i : ℕ) (row : List (Option ℝ)), S.breaks[i]? = some row ∧ k i < ((row.filter Option.isSome).length : ℤ) := by
  rw [← segments_card] at hk ⊢
  have hpos : 0 < S.breaks.length := List.length_pos_iff.2 hb
  have hmb : (checkMaxBreaks (segments S).length S.maxBreaks).2 = true ∧
      ∀ i < (segments S).length, (checkMaxBreaks (segments S).length S.maxBreaks).1[i]? = some [k i] := by
    rcases hk with ⟨c, hc, hkc⟩ | hc
    · rw [hc]
      unfold checkMaxBreaks
      split_ifs with h1
      · refine ⟨rfl, fun i hi => ?_⟩
        show (List.replicate _ _)[i]? = _
        rw [List.getElem?_replicate, if_pos hi, hkc]
      · refine ⟨rfl, fun i hi => ?_⟩
        rw [show i = 0 by omega, hkc]; rfl
    · rw [hc]
      unfold checkMaxBreaks
      split_ifs with h1
      · split
        · next row hr =>
          have := congrArg List.length hr
          simp at this
          omega
        · refine ⟨by simp, fun i hi => ?_⟩
          simp [List.getElem?_range hi]
      · refine ⟨rfl, fun i hi => ?_⟩
        simp [List.getElem?_range hi]
  rw [calibrate_eq, hmb.1]
  rcases lt_or_ge S.breaks.length (segments S).length with hlt | hge
  · -- a row is missing
    have herr : ∃ e, checkBreaks (segments S).length (checkMaxBreaks (segments S).length S.maxBreaks).1 S.breaks = .error e := by
      cases hc : checkBreaks (segments S).length (checkMaxBreaks (segments S).length S.maxBreaks).1 S.breaks with
      | error e => exact ⟨e, rfl⟩
      | ok v =>
        exfalso
        unfold checkBreaks at hc
        rw [if_pos hpos] at hc
        cases hl : (List.range (segments S).length).mapM (checkBreaksOf (checkMaxBreaks (segments S).length S.maxBreaks).1 S.breaks) with
        | error e => rw [hl] at hc; cases hc
        | ok l =>
          obtain ⟨-, hget⟩ := mapM_getElem hl
          obtain ⟨r, -, hr⟩ := hget S.breaks.length S.breaks.length (List.getElem?_range hlt)
          unfold checkBreaksOf at hr
          rw [List.getElem?_eq_none (le_refl _)] at hr
          cases hr
    obtain ⟨e, he⟩ := herr
    rw [he]
    constructor
    · rintro ⟨out, ho, -⟩; cases ho
    · rintro (h1 | ⟨h1, -⟩) <;> omega
  · -- all rows are there
    have hrow : ∀ i < (segments S).length, checkBreaksOf (checkMaxBreaks (segments S).length S.maxBreaks).1 S.breaks i =
        .ok (decide ((((S.breaks.getD i []).filter Option.isSome).length : ℤ) ≤ k i)) := by
      intro i hi
      refine checkBreaksOf_ok _ _ _ _ _ ?_ (hmb.2 i hi)
      rw [List.getD_eq_getElem?_getD, List.getElem?_eq_getElem (by omega)]
      rfl
    have hall : (List.range (segments S).length).mapM (checkBreaksOf (checkMaxBreaks (segments S).length S.maxBreaks).1 S.breaks) =
        .ok ((List.range (segments S).length).map fun i => decide ((((S.breaks.getD i []).filter Option.isSome).length : ℤ) ≤ k i)) := by
      have : ∀ l : List ℕ, (∀ i ∈ l, i < (segments S).length) →
          l.mapM (checkBreaksOf (checkMaxBreaks (segments S).length S.maxBreaks).1 S.breaks) =
            .ok (l.map fun i => decide ((((S.breaks.getD i []).filter Option.isSome).length : ℤ) ≤ k i)) := by
        intro l
        induction l with
        | nil => intro _; rfl
        | cons a l ih =>
          intro hl
          rw [List.mapM_cons, hrow a (hl a (by simp)), ih fun i hi => hl i (by simp [hi])]
          rfl
      exact this _ fun i hi => List.mem_range.1 hi
    have hcheck : checkBreaks (segments S).length (checkMaxBreaks (segments S).length S.maxBreaks).1 S.breaks =
        .ok (decide (S.breaks.length = (segments S).length) &&
          ((List.range (segments S).length).map fun i => decide ((((S.breaks.getD i []).filter Option.isSome).length : ℤ) ≤ k i)).all id) := by
      unfold checkBreaks
      rw [if_pos hpos, hall]
      rfl
    rw [hcheck]
    set g := (decide (S.breaks.length = (segments S).length) &&
          ((List.range (segments S).length).map fun i => decide ((((S.breaks.getD i []).filter Option.isSome).length : ℤ) ≤ k i)).all id) with hg
    have hgood : g = true ↔ S.breaks.length = (segments S).length ∧
        ∀ i < (segments S).length, (((S.breaks.getD i []).filter Option.isSome).length : ℤ) ≤ k i := by
      rw [hg, Bool.and_eq_true, decide_eq_true_iff, List.all_eq_true]
      simp
    have hget : ∀ (i : ℕ) (row : List (Option ℝ)), S.breaks[i]? = some row → S.breaks.getD i [] = row := fun i row h => by
      rw [List.getD_eq_getElem?_getD, h]; rfl
    by_cases hgt : g = true
    · -- accepted: the first segment fails
      obtain ⟨hlen, hle⟩ := hgood.1 hgt
      rw [hgt]
      constructor
      · rintro ⟨out, ho, -⟩
        exfalso
        cases hm : (numbered S).mapM (segmentWork E S (checkMaxBreaks (segments S).length S.maxBreaks).1 data coords) with
        | error e => 
          simp only [bind, Except.bind, Bool.and_self, if_true, hm] at ho
          cases ho
        | ok rs =>
          exact hb (done_of_work hm (i := 0) (List.getElem?_eq_getElem (by omega))).1
      · rintro (h1 | ⟨-, i, row, hr, hgt'⟩)
        · omega
        · have hi : i < (segments S).length := by rw [← hlen]; exact (List.getElem?_eq_some_iff.1 hr).1
          have := hle i hi
          rw [hget i row hr] at this
          omega
    · rw [Bool.not_eq_true] at hgt
      rw [hgt]
      constructor
      · intro _
        rcases hge.lt_or_eq with h1 | h1
        · exact Or.inl h1
        · right
          refine ⟨h1.symm, ?_⟩
          by_contra hno
          push Not at hno
          have : g = true := hgood.2 ⟨h1.symm, fun i hi => hno i _ (by
            rw [List.getD_eq_getElem?_getD, List.getElem?_eq_getElem (by omega)]; rfl)⟩
          rw [hgt] at this
          cases this
      · intro _
        exact ⟨⟨data.map blankColumn, [], []⟩, rfl, rfl, rfl, rfl⟩

/-- Two segments with the limit 1: one break point each is too few for a file, two in the second segment save a file without results. -/
example (E : Env) (data : List Column) (coords : Option (List Coord)) (t : ℝ) :
    ((∃ e, calibrate E { calSettings with breaks := [[some t, none], [some t, none]], maxBreaks := [[1]] } data coords = .error e) ∧
    ∃ out, calibrate E { calSettings with breaks := [[some t, none], [some t, some t]], maxBreaks := [[1]] } data coords = .ok out ∧ AllMissing data out) := by
  have hc : ∀ (b : List (List (Option ℝ))), (segmentValues { calSettings with breaks := b, maxBreaks := [[1]] }).card = 2 := by
    intro b
    have : segmentValues { calSettings with breaks := b, maxBreaks := [[1]] } = {1, 2} := by
      ext v
      simp [segmentValues, calSettings]
      constructor
      · tauto
      · rintro (rfl | rfl) <;> norm_num
    rw [this]
    norm_num
  have key := fun b hb => prescribed_breaks_outcome E { calSettings with breaks := b, maxBreaks := [[1]] } data coords hb (fun _ => 1)
    (Or.inl ⟨1, rfl, fun _ => rfl⟩)
  simp only [hc] at key
  constructor
  · have h1 := key [[some t, none], [some t, none]] (by simp)
    cases hr : calibrate E { calSettings with breaks := [[some t, none], [some t, none]], maxBreaks := [[1]] } data coords with
    | error e => exact ⟨e, rfl⟩
    | ok out =>
      exfalso
      have hm := prescribed_breaks_give_nothing E _ data coords out (by simp) hr
      rcases h1.1 ⟨out, hr, hm⟩ with h2 | ⟨-, i, row, h2, h3⟩
      · simp at h2
      · match i, h2 with
        | 0, h2 => simp at h2; subst h2; simp at h3
        | 1, h2 => simp at h2; subst h2; simp at h3
  · exact (key _ (by simp)).2 (Or.inr ⟨rfl, 1, _, rfl, by simp⟩)

end Verif.Props
