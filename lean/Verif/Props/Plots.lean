import Verif.Lemmas.Plots
import Mathlib.Data.Rat.Floor
import Mathlib.Algebra.Order.Ring.Rat

/-!
# Properties of the plots (C110-C113)
-/

set_option linter.unusedSectionVars false

namespace Verif.Props

open Verif.Np Verif.Spec Verif.Plots

variable {K : Type} [Field K] [LinearOrder K] [IsStrictOrderedRing K] [FloorRing K]

/-- C110, values. In a profile without repeated temperatures the salinity that `sal_anom_plot` takes at the temperature `theta` is missing if the profile has
fewer than three measured points or `theta` is outside of their range; else it is on the straight line between the two measured points around `theta`. -/
theorem anom_value (argsort : List (Option K) → List ℕ) (hs : IsArgsort argsort) (prof : List (TS K)) (hd : DistinctTemps prof) (theta : K) :
    ∃ v, anomValue argsort prof theta = .ok v ∧
      ((tsPoints prof).length < 3 ∨ ¬ InRange (tsPoints prof) theta → v = none) ∧
      (3 ≤ (tsPoints prof).length → InRange (tsPoints prof) theta → ∃ s, v = some s ∧ BetweenPoints (tsPoints prof) theta s) := by
  obtain ⟨pts, hp, hsort, -, hperm⟩ := anomPoints_spec argsort hs prof
  have hperm := hperm hd
  have hin : InRange pts theta ↔ InRange (tsPoints prof) theta := by
    unfold InRange
    simp only [hperm.mem_iff]
  have hbet : ∀ s, BetweenPoints pts theta s ↔ BetweenPoints (tsPoints prof) theta s := by
    intro s
    unfold BetweenPoints
    simp only [hperm.mem_iff]
  unfold anomValue
  rw [hp]
  refine ⟨_, rfl, ?_, ?_⟩
  · intro h
    rw [← hperm.length_eq] at h
    split_ifs with h3
    · refine (interpFill_spec pts theta hsort (by omega)).1 ?_
      rw [hin]
      rcases h with h | h
      · omega
      · exact h
    · rfl
  · intro h3 h
    rw [← hperm.length_eq] at h3
    rw [if_pos h3]
    obtain ⟨s, h1, h2⟩ := (interpFill_spec pts theta hsort (by omega)).2 (hin.2 h)
    exact ⟨s, h1, (hbet s).1 h2⟩

/-- C110, order. It depends neither on the order of the levels nor on the sort. -/
theorem anom_order_free (argsort argsort' : List (Option K) → List ℕ) (hs : IsArgsort argsort) (hs' : IsArgsort argsort') (prof prof' : List (TS K))
    (hp : prof.Perm prof') (hd : DistinctTemps prof) (theta : K) : anomValue argsort prof theta = anomValue argsort' prof' theta := by
  have hd' : DistinctTemps prof' := ((hp.filterMap Prod.fst).nodup_iff).1 hd
  obtain ⟨v, e, h1, h2⟩ := anom_value argsort hs prof hd theta
  obtain ⟨v', e', h1', h2'⟩ := anom_value argsort' hs' prof' hd' theta
  have hpt : (tsPoints prof).Perm (tsPoints prof') := hp.filterMap _
  have hin : InRange (tsPoints prof) theta ↔ InRange (tsPoints prof') theta := by
    unfold InRange
    simp only [hpt.mem_iff]
  rw [e, e']
  by_cases hc : (tsPoints prof).length < 3 ∨ ¬ InRange (tsPoints prof) theta
  · rw [h1 hc, h1' (by rw [← hpt.length_eq, ← hin]; exact hc)]
  · push Not at hc
    obtain ⟨s, rfl, hb⟩ := h2 hc.1 hc.2
    obtain ⟨s', rfl, hb'⟩ := h2' (by rw [← hpt.length_eq]; exact hc.1) (hin.1 hc.2)
    obtain ⟨pts, -, hsort, -, hperm⟩ := anomPoints_spec argsort hs prof
    have hperm := hperm hd
    rw [between_unique (fun q => hpt.mem_iff) ?_ hb hb']
    intro q hq q' hq' heq
    rw [← hperm.mem_iff] at hq hq'
    obtain ⟨i, hi, rfl⟩ := List.getElem_of_mem hq
    obtain ⟨j, hj, rfl⟩ := List.getElem_of_mem hq'
    rcases lt_trichotomy i j with h | rfl | h
    · exact absurd heq (List.pairwise_iff_getElem.1 hsort i j hi hj h).ne
    · rfl
    · exact absurd heq (List.pairwise_iff_getElem.1 hsort j i hj hi h).ne'

theorem anomValue_returns (argsort : List (Option K) → List ℕ) (hs : IsArgsort argsort) (prof : List (TS K)) (theta : K) :
    ∃ v, anomValue argsort prof theta = .ok v := by
  obtain ⟨pts, hp, -⟩ := anomPoints_spec argsort hs prof
  unfold anomValue
  rw [hp]
  exact ⟨_, rfl⟩

/-- C110, balance. At every temperature at least half of the anomalies drawn are not above zero and at least half not below; and an anomaly is drawn for exactly
those profiles that have a salinity at this temperature, which is the anomaly plus a number that is the same for all profiles. -/
theorem anom_balanced (argsort : List (Option K) → List ℕ) (data : List (List (TS K))) (grid : List K) (m : List (List (Option K)))
    (h : salAnom argsort grid data = .ok m) (k : ℕ) (theta : K) (hk : grid[k]? = some theta) :
    ∃ r, m[k]? = some r ∧ r.length = data.length ∧ Balanced (r.filterMap id) 0 ∧
      ∃ c, ∀ (j : ℕ) (prof : List (TS K)), data[j]? = some prof → ∃ v, anomValue argsort prof theta = .ok v ∧ r[j]? = some (v.map fun x => x - c) := by
  unfold salAnom at h
  split_ifs at h
  obtain ⟨-, hget⟩ := mapM_getElem h
  obtain ⟨r, hr, hrow⟩ := hget k theta hk
  obtain ⟨row, hrow', hcase⟩ := anomRow_ok argsort data theta r hrow
  obtain ⟨hlen, hget'⟩ := mapM_getElem hrow'
  refine ⟨r, hr, ?_, ?_, ?_⟩
  · rcases hcase with ⟨-, rfl⟩ | ⟨mm, -, rfl⟩
    · exact hlen
    · rw [List.length_map]; exact hlen
  · rcases hcase with ⟨hall, rfl⟩ | ⟨mm, hmm, rfl⟩
    · have : r.filterMap id = [] := by
        rw [List.filterMap_eq_nil_iff]
        intro a ha
        rw [hall a ha]; rfl
      rw [this]
      exact ⟨le_rfl, le_rfl⟩
    · have hb := median_balanced _ _ hmm
      have he : (row.map fun v => v.map fun x => x - mm).filterMap id = (row.filterMap id).map fun x => x - mm := by
        rw [List.filterMap_map, List.map_filterMap]
        rfl
      rw [he]
      unfold Balanced at hb ⊢
      rw [List.length_map, List.filter_map, List.filter_map, List.length_map, List.length_map]
      have f1 : ((fun v => decide (v ≤ (0 : K))) ∘ fun x => x - mm) = fun v => decide (v ≤ mm) := by
        funext x; simp [sub_nonpos]
      have f2 : ((fun v => decide ((0 : K) ≤ v)) ∘ fun x => x - mm) = fun v => decide (mm ≤ v) := by
        funext x; simp [sub_nonneg]
      rw [f1, f2]
      exact hb
  · rcases hcase with ⟨hall, rfl⟩ | ⟨mm, hmm, rfl⟩
    · refine ⟨0, fun j prof hj => ?_⟩
      obtain ⟨v, hv, hvo⟩ := hget' j prof hj
      refine ⟨v, hvo, ?_⟩
      have := hall v (List.mem_of_getElem? hv)
      subst this
      exact hv
    · refine ⟨mm, fun j prof hj => ?_⟩
      obtain ⟨v, hv, hvo⟩ := hget' j prof hj
      exact ⟨v, hvo, by rw [List.getElem?_map, hv]; rfl⟩

/-- C110. The matrix drawn: a missing value for a profile with fewer than three measured points or whose temperatures do not reach `theta`; else the salinity on the straight
line between the two measured points around `theta`, minus a number that is the same for all profiles and leaves at least half of the anomalies on either side of zero. -/
theorem anom_matrix (argsort : List (Option K) → List ℕ) (hs : IsArgsort argsort) (data : List (List (TS K))) (hd : ∀ prof ∈ data, DistinctTemps prof) (grid : List K)
    (m : List (List (Option K))) (h : salAnom argsort grid data = .ok m) (k : ℕ) (theta : K) (hk : grid[k]? = some theta) :
    ∃ r c, m[k]? = some r ∧ r.length = data.length ∧ Balanced (r.filterMap id) 0 ∧ ∀ (j : ℕ) (prof : List (TS K)), data[j]? = some prof →
      ((tsPoints prof).length < 3 ∨ ¬ InRange (tsPoints prof) theta → r[j]? = some none) ∧
      (3 ≤ (tsPoints prof).length → InRange (tsPoints prof) theta → ∃ s, BetweenPoints (tsPoints prof) theta s ∧ r[j]? = some (some (s - c))) := by
  obtain ⟨r, h1, h2, h3, c, h4⟩ := anom_balanced argsort data grid m h k theta hk
  refine ⟨r, c, h1, h2, h3, fun j prof hj => ?_⟩
  obtain ⟨v, hv, hr⟩ := h4 j prof hj
  obtain ⟨v', hv', g1, g2⟩ := anom_value argsort hs prof (hd prof (List.mem_of_getElem? hj)) theta
  obtain rfl := Except.ok.inj (hv.symm.trans hv')
  refine ⟨fun hn => by rw [hr, g1 hn]; rfl, fun hl hin => ?_⟩
  obtain ⟨s, rfl, hb⟩ := g2 hl hin
  exact ⟨s, hb, hr⟩

/-- C110. The matrix depends neither on the order of the levels within the profiles nor on the sort. -/
theorem anom_matrix_order (argsort argsort' : List (Option K) → List ℕ) (hs : IsArgsort argsort) (hs' : IsArgsort argsort') (data data' : List (List (TS K)))
    (hp : List.Forall₂ List.Perm data data') (hd : ∀ prof ∈ data, DistinctTemps prof) (grid : List K) : salAnom argsort grid data = salAnom argsort' grid data' := by
  have hall : (data.flatten.all fun p => p.1.isNone) = data'.flatten.all fun p => p.1.isNone := by
    clear hd
    induction hp with
    | nil => rfl
    | cons h _ ih => rw [List.flatten_cons, List.flatten_cons, List.all_append, List.all_append, ih, h.all_eq]
  have hrow : ∀ theta, anomRow argsort data theta = anomRow argsort' data' theta := by
    intro theta
    have : data.mapM (fun prof => anomValue argsort prof theta) = data'.mapM fun prof => anomValue argsort' prof theta := by
      clear hall
      induction hp with
      | nil => rfl
      | cons h _ ih =>
        rw [List.mapM_cons, List.mapM_cons, ih fun prof hm => hd prof (List.mem_cons_of_mem _ hm),
          anom_order_free argsort argsort' hs hs' _ _ h (hd _ List.mem_cons_self) theta]
    unfold anomRow
    rw [this]
  unfold salAnom
  rw [hall, funext hrow]

/-- C110, reference. A change of all salinities by the same amount changes no anomaly. -/
theorem anom_shift (argsort : List (Option K) → List ℕ) (data : List (List (TS K))) (grid : List K) (c : K) :
    salAnom argsort grid (data.map (shiftSal c)) = salAnom argsort grid data := by
  have hflat : (data.map (shiftSal c)).flatten.all (fun p => p.1.isNone) = data.flatten.all fun p => p.1.isNone := by
    unfold shiftSal
    rw [← List.map_flatten, List.all_map]
    rfl
  unfold salAnom
  rw [hflat]
  congr 1
  congr 1
  funext theta
  unfold anomRow
  have h1 : (data.map (shiftSal c)).mapM (fun prof => anomValue argsort prof theta) =
      (data.mapM fun prof => anomValue argsort prof theta).map (List.map (Option.map (· + c))) := by
    induction data with
    | nil => rfl
    | cons p data ih =>
      have ih := ih (by unfold shiftSal; rw [← List.map_flatten, List.all_map]; rfl)
      rw [List.map_cons, List.mapM_cons, List.mapM_cons, ih, anomValue_shift]
      cases anomValue argsort p theta with
      | error e => rfl
      | ok v =>
        simp only [Except.map, bind, Except.bind, pure, Except.pure]
        cases data.mapM (fun prof => anomValue argsort prof theta) with
        | error e => rfl
        | ok r => rfl
  rw [h1]
  cases data.mapM (fun prof => anomValue argsort prof theta) with
  | error e => rfl
  | ok row =>
    simp only [Except.map, bind, Except.bind]
    have h2 : (row.map (Option.map (· + c))).filterMap id = (row.filterMap id).map (· + c) := by
      rw [List.filterMap_map, List.map_filterMap]
      rfl
    rw [h2, median_shift]
    cases median (row.filterMap id) with
    | none =>
      rw [List.map_map]
      rfl
    | some m =>
      simp only [Option.map_some, List.map_map, pure, Except.pure, Except.ok.injEq]
      refine List.map_congr_left fun v _ => ?_
      cases v with
      | none => rfl
      | some x => simp

/-- C110. `sal_anom_plot` computes its matrix exactly if there is a temperature at all. -/
theorem anom_fails_iff (argsort : List (Option K) → List ℕ) (hs : IsArgsort argsort) (data : List (List (TS K))) (grid : List K) (e : PyErr) :
    salAnom argsort grid data = .error e ↔ e = .valueError ∧ ∀ prof ∈ data, ∀ p ∈ prof, p.1 = none := by
  unfold salAnom
  have hall : (data.flatten.all fun p => p.1.isNone) = true ↔ ∀ prof ∈ data, ∀ p ∈ prof, p.1 = none := by
    simp only [List.all_eq_true, List.mem_flatten, Option.isNone_iff_eq_none, forall_exists_index, and_imp]
    exact ⟨fun h prof hp p hpp => h p prof hp hpp, fun h p prof hp hpp => h prof hp p hpp⟩
  rw [← hall]
  split_ifs with h
  · rw [Except.error.injEq, eq_comm]
    exact ⟨fun h' => ⟨h', h⟩, fun h' => h'.1⟩
  · simp only [h, and_false, iff_false, Bool.false_eq_true]
    intro hc
    obtain ⟨theta, -, ht⟩ := mapM_error hc
    unfold anomRow at ht
    cases hr : data.mapM (fun prof => anomValue argsort prof theta) with
    | error e' =>
      obtain ⟨prof, -, hp⟩ := mapM_error hr
      obtain ⟨v, hv⟩ := anomValue_returns argsort hs prof theta
      rw [hv] at hp; simp at hp
    | ok row =>
      rw [hr] at ht
      simp only [bind, Except.bind] at ht
      split at ht <;> simp [pure, Except.pure] at ht

/-! ## C111 the offset curve -/

/-- C111. The vertically averaged offset drawn by `cal_sal_curve_plot` is the mean of the offsets at the levels with both salinities, missing if there are none; so
it lies between any two bounds of the offsets, has their sign if they all have the same one, and is the common offset if they are all equal. -/
theorem avg_offset (prof : List (Option K × Option K)) :
    (salOffsets prof = [] → avgOffset prof = none) ∧
    (salOffsets prof ≠ [] → ∃ v, avgOffset prof = some v ∧ v * ((salOffsets prof).length : K) = (salOffsets prof).sum ∧
      ∀ a b, (∀ d ∈ salOffsets prof, a ≤ d ∧ d ≤ b) → a ≤ v ∧ v ≤ b) := by
  have hf : (prof.map offsetOf).filterMap id = salOffsets prof := by
    unfold salOffsets tsPoints
    rw [List.filterMap_map, List.map_filterMap]
    congr 1
    funext p
    obtain ⟨a, b⟩ := p
    cases a <;> cases b <;> rfl
  unfold avgOffset nanmean
  simp only [hf]
  constructor
  · intro h
    rw [if_pos h]
  · intro h
    rw [if_neg h]
    have hl : (0 : K) < ((salOffsets prof).length : K) := by
      exact_mod_cast List.length_pos_iff.2 h
    refine ⟨_, rfl, div_mul_cancel₀ _ hl.ne', fun a b hab => ?_⟩
    have hlo : ∀ l : List K, (∀ d ∈ l, a ≤ d ∧ d ≤ b) → a * (l.length : K) ≤ l.sum ∧ l.sum ≤ b * (l.length : K) := by
      intro l hl
      induction l with
      | nil => simp
      | cons x l ih =>
        obtain ⟨i1, i2⟩ := ih fun d hd => hl d (by simp [hd])
        obtain ⟨x1, x2⟩ := hl x (by simp)
        rw [List.sum_cons, List.length_cons, Nat.cast_add, Nat.cast_one]
        constructor <;> linarith
    obtain ⟨h1, h2⟩ := hlo _ hab
    rw [le_div_iff₀ hl, div_le_iff₀ hl]
    exact ⟨h1, h2⟩

/-! ## C112 the legend -/

/-- C112. At most 30 of the `n` profiles are named in the legend, and the first one is if the last profile number is positive. -/
theorem legend_at_most_30 (n : ℕ) (last : K) :
    ((List.range n).filter (inLegend n last)).length ≤ 30 ∧ (0 < n → 0 < last → inLegend n last 0 = true) := by
  rcases Nat.eq_zero_or_pos n with rfl | hn
  · simp
  have hstep : ∃ s : ℕ, 0 < s ∧ n ≤ 30 * s ∧ (⌈(n : K) / 30⌉ : ℤ) = (s : ℤ) := by
    have hpos : (0 : K) < (n : K) / 30 := div_pos (by exact_mod_cast hn) (by norm_num)
    have h0 : 0 < ⌈(n : K) / 30⌉ := Int.ceil_pos.2 hpos
    obtain ⟨s, hs⟩ := Int.eq_ofNat_of_zero_le h0.le
    refine ⟨s, by omega, ?_, hs⟩
    have h1 : (n : K) / 30 ≤ ((⌈(n : K) / 30⌉ : ℤ) : K) := Int.le_ceil _
    rw [hs, div_le_iff₀ (by norm_num)] at h1
    have h2 : (n : K) ≤ ((s * 30 : ℕ) : K) := by push_cast; exact_mod_cast h1
    have := Nat.cast_le.1 h2
    omega
  obtain ⟨s, hs0, hns, hceil⟩ := hstep
  have hmem : ∀ i, inLegend n last i = true → s ∣ i := by
    intro i hi
    unfold inLegend at hi
    rw [decide_eq_true_eq, hceil] at hi
    unfold arange at hi
    obtain ⟨k, -, hk⟩ := List.mem_map.1 hi
    refine ⟨k, ?_⟩
    have : ((k * s : ℕ) : K) = ((i : ℕ) : K) := by push_cast; rw [← hk]; push_cast; ring
    have := Nat.cast_injective this
    rw [← this, Nat.mul_comm]
  constructor
  · have hsub : ((List.range n).filter (inLegend n last)).length ≤ ((List.range 30).map fun k => k * s).length := by
      have hnd : ((List.range n).filter (inLegend n last)).Nodup := List.nodup_range.filter _
      refine List.Subperm.length_le (hnd.subperm fun i hi => ?_)
      rw [List.mem_filter, List.mem_range] at hi
      obtain ⟨k, rfl⟩ := hmem i hi.2
      refine List.mem_map.2 ⟨k, List.mem_range.2 ?_, Nat.mul_comm _ _⟩
      have h1 : s * k < s * 30 := by omega
      exact Nat.lt_of_mul_lt_mul_left h1
    simpa using hsub
  · intro _ hl
    unfold inLegend
    rw [decide_eq_true_eq, hceil]
    unfold arange
    refine List.mem_map.2 ⟨0, List.mem_range.2 ?_, by simp⟩
    have : 0 < (last - 0) / ((s : ℤ) : K) := by
      rw [sub_zero]
      exact div_pos hl (by exact_mod_cast hs0)
    have := Int.ceil_pos.2 this
    omega

/-- C112, which. The profiles named are those at every `s`-th position before the number of the last profile, with the smallest step `s` for which thirty names suffice. -/
theorem legend_every (n : ℕ) (hn : 0 < n) (last : K) :
    ∃ s : ℕ, 0 < s ∧ (∀ t : ℕ, s ≤ t ↔ n ≤ 30 * t) ∧ ∀ i : ℕ, inLegend n last i = true ↔ s ∣ i ∧ (i : K) < last := by
  have hpos : (0 : K) < (n : K) / 30 := div_pos (by exact_mod_cast hn) (by norm_num)
  have h0 : 0 < ⌈(n : K) / 30⌉ := Int.ceil_pos.2 hpos
  obtain ⟨s, hs⟩ := Int.eq_ofNat_of_zero_le h0.le
  have hs0 : 0 < s := by omega
  have hsK : (0 : K) < ((s : ℤ) : K) := by exact_mod_cast hs0
  refine ⟨s, hs0, fun t => ?_, fun i => ?_⟩
  · have h1 : ⌈(n : K) / 30⌉ ≤ (t : ℤ) ↔ (n : K) / 30 ≤ ((t : ℤ) : K) := Int.ceil_le
    rw [hs] at h1
    rw [div_le_iff₀ (by norm_num)] at h1
    have h2 : (n : K) ≤ ((t : ℤ) : K) * 30 ↔ n ≤ 30 * t := by
      have : ((t : ℤ) : K) * 30 = ((30 * t : ℕ) : K) := by push_cast; ring
      rw [this, Nat.cast_le]
    rw [← h2, ← h1]
    exact Int.ofNat_le.symm
  · unfold inLegend
    rw [decide_eq_true_eq, hs]
    unfold arange
    rw [List.mem_map]
    constructor
    · rintro ⟨k, hk, hki⟩
      rw [List.mem_range] at hk
      have hik : i = k * s := by
        have : ((k * s : ℕ) : K) = ((i : ℕ) : K) := by push_cast; rw [← hki]; push_cast; ring
        exact (Nat.cast_injective this).symm
      refine ⟨⟨k, by rw [hik, Nat.mul_comm]⟩, ?_⟩
      have h1 : (k : ℤ) < ⌈(last - 0) / ((s : ℤ) : K)⌉ := by omega
      rw [Int.lt_ceil, lt_div_iff₀ hsK, sub_zero] at h1
      rw [← hki, zero_add]
      simpa using h1
    · rintro ⟨⟨k, rfl⟩, hlt⟩
      refine ⟨k, List.mem_range.2 ?_, by push_cast; ring⟩
      have h1 : (k : ℤ) < ⌈(last - 0) / ((s : ℤ) : K)⌉ := by
        rw [Int.lt_ceil, lt_div_iff₀ hsK, sub_zero]
        refine lt_of_eq_of_lt ?_ hlt
        push_cast; ring
      omega

/-! ## C113 longitudes -/

/-- C113. Longitudes from 0 to 360 (or from -180 on) are drawn between -180 and 180, on the same meridian; already drawn ones are not changed again. -/
theorem drawn_longitude (x : K) (h : -180 < x ∧ x ≤ 540) :
    -180 < wrap180 x ∧ wrap180 x ≤ 180 ∧ SameMeridian (wrap180 x) x ∧ wrap180 (wrap180 x) = wrap180 x := by
  unfold wrap180 SameMeridian
  obtain ⟨h1, h2⟩ := h
  by_cases hx : x > 180
  · rw [if_pos hx]
    refine ⟨by linarith, by linarith, ⟨-1, by push_cast; ring⟩, ?_⟩
    rw [if_neg (by linarith)]
  · rw [if_neg hx]
    exact ⟨h1, not_lt.1 hx, ⟨0, by simp⟩, by rw [if_neg hx]⟩

/-! ## Concrete cases -/

/-- Three profiles of a float. -/
def anData : List (List (TS ℚ)) :=
  [[(some 10, some 34), (some 5, some 35), (some 1, some 36)], [(some 10, some 35), (some 5, some 36), (some 1, some 37)],
   [(some 10, some 36), (some 5, some 38), (some 1, some 39)]]

example : DistinctTemps [((some 10 : Option ℚ), (some 34 : Option ℚ)), (some 5, some 35), (some 1, some 36)] := by
  unfold DistinctTemps
  simp

/-- A sort for the examples. -/
def anSort (l : List (Option ℚ)) : List ℕ := stableArgsort (K := WithTop ℚ) l

example : IsArgsort anSort := isArgsort_stable

example : (match salAnom anSort [5, 15 / 2] anData with
    | .ok m => decide (m = [[some (-1), some 0, some 2], [some (-1), some 0, some (3 / 2)]])
    | .error _ => false) = true := by decide +kernel

/-- With a repeated temperature the sort matters: the two orders of the levels at 5 degrees give different values. -/
theorem anom_repeated_temperature :
    ∃ (a b : List (Option ℚ) → List ℕ), IsArgsort a ∧ IsArgsort b ∧ ∃ prof theta, anomValue a prof theta ≠ anomValue b prof theta := by
  classical
  let l0 : List (Option ℚ) := [some 10, some 5, some 5, some 1]
  let b : List (Option ℚ) → List ℕ := fun l => if l = l0 then [3, 2, 1, 0] else anSort l
  have hst : IsArgsort anSort := isArgsort_stable
  refine ⟨anSort, b, hst, ?_, [(some 10, some 34), (some 5, some 35), (some 5, some 36), (some 1, some 37)], 5, ?_⟩
  · intro l
    by_cases hl : l = l0
    · have : b l = [3, 2, 1, 0] := if_pos hl
      rw [this, hl]
      refine ⟨by decide, ?_⟩
      simp only [List.pairwise_cons, List.mem_cons, List.not_mem_nil, or_false, forall_eq_or_imp, forall_eq, l0]
      simp [NpLe]
      norm_num
    · have : b l = anSort l := if_neg hl
      rw [this]
      exact hst l
  · have h1 : (match anomValue anSort [(some 10, some 34), (some 5, some 35), (some 5, some 36), (some 1, some 37)] (5 : ℚ) with
        | .ok v => decide (v = some 35)
        | .error _ => false) = true := by decide +kernel
    have h2 : (match anomValue (fun _ => [3, 2, 1, 0]) [(some 10, some 34), (some 5, some 35), (some 5, some 36), (some 1, some 37)] (5 : ℚ) with
        | .ok v => decide (v = some 36)
        | .error _ => false) = true := by decide +kernel
    have h3 : anomValue b [(some 10, some 34), (some 5, some 35), (some 5, some 36), (some 1, some 37)] (5 : ℚ) =
        anomValue (fun _ => [3, 2, 1, 0]) [(some 10, some 34), (some 5, some 35), (some 5, some 36), (some 1, some 37)] (5 : ℚ) := by
      unfold anomValue anomPoints
      have : b (List.map Prod.fst [((some 10 : Option ℚ), (some 34 : Option ℚ)), (some 5, some 35), (some 5, some 36), (some 1, some 37)]) = [3, 2, 1, 0] :=
        if_pos rfl
      rw [this]
    rw [h3]
    intro heq
    rw [heq] at h1
    split at h1
    · rename_i v hv
      rw [hv] at h2
      simp only [decide_eq_true_eq] at h1 h2
      rw [h1] at h2
      norm_num at h2
    · simp at h1

example : avgOffset [((some 35 : Option ℚ), (some 34 : Option ℚ)), (some 36, some 34), (none, some 34)] = some (3 / 2) := by decide +kernel

/-- 61 profiles: the names of every third, 21 in all. -/
example : ((List.range 61).filter (inLegend 61 (61 : ℚ))).length = 21 := by decide +kernel

example : wrap180 (350 : ℚ) = -10 := by norm_num [wrap180]

end Verif.Props
