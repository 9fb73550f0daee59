import Verif.Lemmas.Thetas
import Mathlib.Data.Rat.Floor

/-!
# Properties of `find_10thetas` (C18 - C20, C62, C63)
-/

set_option linter.unusedSectionVars false

namespace Verif.Props

open Verif.Np Verif.Thetas Verif.Spec

variable {K : Type} [Field K] [LinearOrder K] [IsStrictOrderedRing K] [FloorRing K]

/-! ## C18 limits -/

/-- C62. After `find_10thetas` the caller's arrays have the same shape. A usable cell keeps its values, any other loses pressure, salinity and
temperature. -/
theorem thetas_mask (B : Bounds K) (data : List (List (Level K))) :
    (arraysAfter B data).length = data.length ∧
    ∀ (d : ℕ) (prof : List (Level K)), data[d]? = some prof → ∃ prof', (arraysAfter B data)[d]? = some prof' ∧ prof'.length = prof.length ∧
      ∀ (i : ℕ) (l : Level K), prof[i]? = some l →
        (Usable B l → prof'[i]? = some l) ∧ (¬ Usable B l → prof'[i]? = some ⟨none, none, none, l.mapped⟩) := by
  refine ⟨by simp [arraysAfter], fun d prof hd => ⟨prof.map (mask B), by simp [arraysAfter, hd], by simp, fun i l hl => ?_⟩⟩
  refine ⟨fun h => ?_, fun h => ?_⟩
  · rw [List.getElem?_map, hl, Option.map_some, mask_usable B l h]
  · rw [List.getElem?_map, hl, Option.map_some, mask_not_usable B l h]; rfl

theorem thetaIndex_some {theta : Option K} {prof : List (Level K)} {i : ℕ} (h : thetaIndex theta prof = some i) :
    ∃ th lo hi t l, theta = some th ∧ nanmin (prof.map Level.ptmp) = some lo ∧ nanmax (prof.map Level.ptmp) = some hi ∧
      lo < th ∧ th < hi ∧ prof[i]? = some l ∧ l.ptmp = some t ∧
      (∀ (j : ℕ) (lj : Level K) (u : K), prof[j]? = some lj → lj.ptmp = some u → |t - th| ≤ |u - th|) ∧
      (∀ (j : ℕ) (lj : Level K) (u : K), j < i → prof[j]? = some lj → lj.ptmp = some u → |t - th| < |u - th|) := by
  unfold thetaIndex at h
  cases theta with
  | none => simp at h
  | some th =>
    cases h1 : nanmin (prof.map Level.ptmp) with
    | none => rw [h1] at h; simp at h
    | some lo =>
      cases h2 : nanmax (prof.map Level.ptmp) with
      | none => rw [h1, h2] at h; simp at h
      | some hi =>
        rw [h1, h2] at h
        simp only at h
        split_ifs at h with hc
        obtain ⟨v, hv, hmin, hfirst⟩ := nanArgmin_some h
        rw [List.getElem?_map, Option.map_eq_some_iff] at hv
        obtain ⟨l, hl, hlv⟩ := hv
        rw [Option.map_eq_some_iff] at hlv
        obtain ⟨t, ht, rfl⟩ := hlv
        refine ⟨th, lo, hi, t, l, rfl, rfl, rfl, hc.2, hc.1, hl, ht, ?_, ?_⟩
        · intro j lj u hj hu
          exact hmin j _ (by rw [List.getElem?_map, hj]; simp [hu])
        · intro j lj u hji hj hu
          exact hfirst j _ hji (by rw [List.getElem?_map, hj]; simp [hu])

/-- C18, level numbers. Every level number reported for profile `d` refers to a measured cell that the limits allow. -/
theorem thetas_index_usable (B : Bounds K) (percent : K) (data : List (List (Level K))) (r : Thetas K)
    (h : find10thetas B percent data = .ok r) (row : List (Option ℕ)) (hrow : row ∈ r.index) (d i : ℕ)
    (hi : row[d]? = some (some i)) :
    ∃ prof l, data[d]? = some prof ∧ prof[i]? = some l ∧ Usable B l ∧ l.ptmp ≠ none := by
  obtain ⟨pl, rows, h1, h2, h3, h4, h5, h6, h7⟩ := find10thetas_ok h
  rw [h7, List.mem_map] at hrow
  obtain ⟨c, _, rfl⟩ := hrow
  rw [List.getElem?_map, Option.map_eq_some_iff] at hi
  obtain ⟨mprof, hm, hi⟩ := hi
  rw [List.getElem?_map, Option.map_eq_some_iff] at hm
  obtain ⟨prof, hp, rfl⟩ := hm
  obtain ⟨th, lo, hi', t, l, _, _, _, _, _, hl, ht, _⟩ := thetaIndex_some hi
  rw [List.getElem?_map, Option.map_eq_some_iff] at hl
  obtain ⟨l0, hl0, rfl⟩ := hl
  obtain ⟨hu, ht0⟩ := (mask_ptmp B l0 t).1 ht
  exact ⟨prof, l0, hp, hl0, hu, by rw [ht0]; simp⟩

/-- C18, general form: every theta level lies between any bounds of the usable temperatures, and every pressure level between
any bounds of the usable pressures. -/
theorem thetas_levels_between (B : Bounds K) (percent : K) (data : List (List (Level K))) (r : Thetas K)
    (h : find10thetas B percent data = .ok r) (a b : K) :
    ((∀ prof ∈ data, ∀ l ∈ prof, Usable B l → ∀ t, l.ptmp = some t → a ≤ t ∧ t ≤ b) →
      ∀ th, some th ∈ r.thetaLevels → a ≤ th ∧ th ≤ b) ∧
    ((∀ prof ∈ data, ∀ l ∈ prof, Usable B l → ∀ p, l.pres = some p → a ≤ p ∧ p ≤ b) →
      ∀ p, some p ∈ r.pLevels → a ≤ p ∧ p ≤ b) := by
  obtain ⟨pl, rows, h1, h2, h3, h4, h5, h6, h7⟩ := find10thetas_ok h
  constructor
  · intro hab th hth
    rw [h3, List.mem_map] at hth
    obtain ⟨p, _, hp⟩ := hth
    refine thetaLevel_mem hp ?_
    intro mprof hm l hl t ht
    obtain ⟨prof, hp, rfl⟩ := List.mem_map.1 hm
    obtain ⟨l0, hl0, rfl⟩ := List.mem_map.1 hl
    obtain ⟨hu, ht0⟩ := (mask_ptmp B l0 t).1 ht
    exact hab prof hp l0 hl0 hu t ht0
  · intro hab p hp
    obtain ⟨lo, hi, ⟨l1, hl1, e1⟩, hbound, ⟨l2, hl2, e2⟩, hpl, _⟩ := presLevels_ok h1
    rw [h6, List.mem_map] at hp
    obtain ⟨i, _, hi'⟩ := hp
    have hmem := List.mem_of_getElem? hi'
    have key : ∀ l ∈ (data.map fun prof => prof.map (mask B)).flatten, ∀ q, l.pres = some q → a ≤ q ∧ q ≤ b := by
      intro l hl q hq
      obtain ⟨mprof, hm, hl⟩ := List.mem_flatten.1 hl
      obtain ⟨prof, hp, rfl⟩ := List.mem_map.1 hm
      obtain ⟨l0, hl0, rfl⟩ := List.mem_map.1 hl
      obtain ⟨hu, hq0⟩ := (mask_pres B l0 q).1 hq
      exact hab prof hp l0 hl0 hu q hq0
    have := hpl p hmem
    have := key l1 hl1 lo e1
    have := key l2 hl2 hi e2
    constructor <;> linarith

/-- C18, user limits: with an upper and a lower temperature limit `gt ≤ lt` every theta level respects both. -/
theorem thetas_levels_within_limits (B : Bounds K) (percent : K) (data : List (List (Level K))) (r : Thetas K)
    (h : find10thetas B percent data = .ok r) (lt gt : K) (hlt : B.thetaLt = some lt) (hgt : B.thetaGt = some gt)
    (hle : gt ≤ lt) (th : K) (hth : some th ∈ r.tLevels) : gt ≤ th ∧ th ≤ lt := by
  refine (thetas_levels_between B percent data r h gt lt).1 ?_ th ?_
  · intro prof _ l _ hu t ht
    have := hu.2.1 t ht
    unfold Allowed at this
    rw [hlt, hgt] at this
    simpa [not_lt.2 hle] using this
  · obtain ⟨pl, rows, h1, h2, h3, h4, h5, h6, h7⟩ := find10thetas_ok h
    rw [h5, List.mem_map] at hth
    obtain ⟨i, _, hi⟩ := hth
    exact List.mem_of_getElem? (Option.join_eq_some_iff.1 hi)

/-- C18, pressure limits: with limits `gt ≤ lt` every pressure level respects both. -/
theorem thetas_pressures_within_limits (B : Bounds K) (percent : K) (data : List (List (Level K))) (r : Thetas K)
    (h : find10thetas B percent data = .ok r) (lt gt : K) (hlt : B.presLt = some lt) (hgt : B.presGt = some gt)
    (hle : gt ≤ lt) (p : K) (hp : some p ∈ r.pLevels) : gt ≤ p ∧ p ≤ lt := by
  refine (thetas_levels_between B percent data r h gt lt).2 ?_ p hp
  intro prof _ l _ hu t ht
  have := hu.2.2 t ht
  unfold Allowed at this
  rw [hlt, hgt] at this
  simpa [not_lt.2 hle] using this

/-! ## C64 pressure levels belong to theta levels -/

/-- C64: the `k`-th theta level returned is the mean, over the profiles whose usable pressures enclose the `k`-th pressure level
returned, of the temperature interpolated linearly at that pressure. -/
theorem thetas_level_is_mean (B : Bounds K) (percent : K) (data : List (List (Level K))) (r : Thetas K)
    (h : find10thetas B percent data = .ok r) (k : ℕ) (th : K) (hk : r.tLevels[k]? = some (some th)) :
    ∃ p, r.pLevels[k]? = some (some p) ∧
      ∃ vals : List (Option K), vals.length = data.length ∧
        (∀ (d : ℕ) (prof : List (Level K)) (v : Option K), data[d]? = some prof → vals[d]? = some v →
          (¬ StrictlyInside B prof p ∧ v = none) ∨ (StrictlyInside B prof p ∧ ∃ t, v = some t ∧ LinearAt B prof p t)) ∧
        vals.filterMap id ≠ [] ∧ th = (vals.filterMap id).sum / ((vals.filterMap id).length : K) := by
  obtain ⟨pl, rows, h1, h2, h3, h4, h5, h6, h7⟩ := find10thetas_ok h
  rw [h5, List.getElem?_map, Option.map_eq_some_iff] at hk
  obtain ⟨i, hi, hk⟩ := hk
  rw [Option.join_eq_some_iff, h3, List.getElem?_map, Option.map_eq_some_iff] at hk
  obtain ⟨p, hp, hth⟩ := hk
  refine ⟨p, ?_, (data.map fun prof => prof.map (mask B)).map (interpT p), by simp, ?_, ?_⟩
  · rw [h6, List.getElem?_map, hi]
    simp only [Option.map_some, hp]
  · intro d prof v hd hv
    rw [List.getElem?_map, List.getElem?_map, hd] at hv
    simp only [Option.map_some, Option.some.injEq] at hv
    subst hv
    by_cases hin : StrictlyInside B prof p
    · obtain ⟨t, ht, hlin⟩ := interpT_inside B prof p hin
      exact Or.inr ⟨hin, t, ht, hlin⟩
    · exact Or.inl ⟨hin, interpT_outside B prof p hin⟩
  · unfold thetaLevel nanmean at hth
    simp only at hth
    split_ifs at hth with he
    exact ⟨he, (Option.some.inj hth).symm⟩

/-! ## C19 least variance -/

theorem select_spec (n : ℕ) (v : List (Option K)) :
    (select n v).Nodup ∧ (select n v).length ≤ n ∧
    (∀ i ∈ select n v, ∃ x, v[i]? = some (some x)) ∧
    ((select n v).Pairwise fun i j => ∀ x y, v[i]? = some (some x) → v[j]? = some (some y) → x ≤ y) ∧
    (∀ i ∈ select n v, ∀ j ∉ select n v, ∀ x y, v[i]? = some (some x) → v[j]? = some (some y) → x ≤ y) ∧
    ((select n v).length < n → ∀ (j : ℕ) (x : K), v[j]? = some (some x) → j ∈ select n v) := by
  induction n generalizing v with
  | zero => simp [select]
  | succ n ih =>
    unfold select
    cases hr : nanArgmin v with
    | none =>
      refine ⟨by simp, by simp, by simp, by simp, by simp, ?_⟩
      intro _ j x hj
      have := nanArgmin_none hr _ (List.mem_of_getElem? hj)
      simp at this
    | some i =>
      obtain ⟨x, hx, hmin, -⟩ := nanArgmin_some hr
      have hilt : i < v.length := (List.getElem?_eq_some_iff.1 hx).1
      have hset : ∀ (j : ℕ) (y : K), (v.set i none)[j]? = some (some y) ↔ j ≠ i ∧ v[j]? = some (some y) := by
        intro j y
        rw [List.getElem?_set]
        by_cases hij : i = j
        · subst hij; simp [hilt]
        · simp [hij, Ne.symm hij]
      obtain ⟨h1, h2, h3, h4, h5, h6⟩ := ih (v.set i none)
      have hni : ∀ j ∈ select n (v.set i none), j ≠ i ∧ ∃ y, v[j]? = some (some y) := by
        intro j hj
        obtain ⟨y, hy⟩ := h3 j hj
        exact ⟨((hset j y).1 hy).1, y, ((hset j y).1 hy).2⟩
      simp only
      refine ⟨?_, by simpa using h2, ?_, ?_, ?_, ?_⟩
      · rw [List.nodup_cons]
        exact ⟨fun hi => (hni i hi).1 rfl, h1⟩
      · intro j hj
        rcases List.mem_cons.1 hj with rfl | hj
        · exact ⟨x, hx⟩
        · exact (hni j hj).2
      · rw [List.pairwise_cons]
        constructor
        · intro j hj a b ha hb
          rw [hx] at ha
          have := Option.some.inj (Option.some.inj ha)
          rw [← this]; exact hmin j b hb
        · refine h4.imp_of_mem ?_
          intro a b ha hb hab xa xb hxa hxb
          exact hab xa xb ((hset a xa).2 ⟨(hni a ha).1, hxa⟩) ((hset b xb).2 ⟨(hni b hb).1, hxb⟩)
      · intro a ha b hb xa xb hxa hxb
        rw [List.mem_cons, not_or] at hb
        rcases List.mem_cons.1 ha with rfl | ha
        · rw [hx] at hxa
          have := Option.some.inj (Option.some.inj hxa)
          rw [← this]; exact hmin b xb hxb
        · exact h5 a ha b hb.2 xa xb ((hset a xa).2 ⟨(hni a ha).1, hxa⟩) ((hset b xb).2 ⟨hb.1, hxb⟩)
      · intro hlen j y hj
        rw [List.mem_cons]
        by_cases hji : j = i
        · exact Or.inl hji
        · right
          refine h6 (by simpa using hlen) j y ((hset j y).2 ⟨hji, hj⟩)

/-- C19, selection. The levels chosen are positions in the list of levels, all different, at most ten, in order of increasing
variance; their variance is known; every level not chosen has a missing or at least as large variance; and fewer than ten are
chosen only if no other level has a variance. -/
theorem thetas_least_variance (B : Bounds K) (percent : K) (data : List (List (Level K))) (r : Thetas K)
    (h : find10thetas B percent data = .ok r) :
    ∃ chosen : List ℕ, r.tLevels = chosen.map (fun (i : ℕ) => (r.thetaLevels[i]?).join) ∧
      r.index.length = chosen.length ∧ r.pLevels.length = chosen.length ∧
      chosen.Nodup ∧ chosen.length ≤ 10 ∧
      (∀ i ∈ chosen, ∃ x, r.varSalTheta[i]? = some (some x)) ∧
      (chosen.Pairwise fun i j => ∀ x y, r.varSalTheta[i]? = some (some x) → r.varSalTheta[j]? = some (some y) → x ≤ y) ∧
      (∀ i ∈ chosen, ∀ j ∉ chosen, ∀ x y, r.varSalTheta[i]? = some (some x) → r.varSalTheta[j]? = some (some y) → x ≤ y) ∧
      (chosen.length < 10 → ∀ (j : ℕ) (x : K), r.varSalTheta[j]? = some (some x) → j ∈ chosen) := by
  obtain ⟨pl, rows, h1, h2, h3, h4, h5, h6, h7⟩ := find10thetas_ok h
  rw [h4]
  refine ⟨select 10 (filteredVar percent rows), h5, by rw [h7]; simp, by rw [h6]; simp, select_spec 10 _⟩

theorem foldr_max_ge (l : List ℕ) (n : ℕ) (h : n ∈ l) : n ≤ l.foldr max 0 := by
  induction l with
  | nil => simp at h
  | cons a l ih =>
    simp only [List.foldr_cons]
    rcases List.mem_cons.1 h with rfl | h
    · exact le_max_left _ _
    · exact (ih h).trans (le_max_right _ _)

/-- The variances, with the table in terms of the model. -/
theorem thetas_variance_rows (B : Bounds K) (percent : K) (data : List (List (Level K))) (r : Thetas K)
    (h : find10thetas B percent data = .ok r) :
    ∃ rows : List (List (Option K)), rows.length = r.thetaLevels.length ∧
      (∀ (i : ℕ) (row : List (Option K)), rows[i]? = some row → row.length = data.length ∧
        ∀ (d : ℕ) (prof : List (Level K)), data[d]? = some prof →
          ∃ s, row[d]? = some s ∧ salOn (r.thetaLevels[i]?).join (prof.map (mask B)) = .ok s) ∧
      ∃ best : ℕ, (∀ row ∈ rows, (row.filterMap id).length ≤ best) ∧
        ((∃ row ∈ rows, (row.filterMap id).length = best) ∨ best = 0) ∧
        ∀ (i : ℕ) (row : List (Option K)), rows[i]? = some row →
          ((row.filterMap id).length < 2 ∨ ((row.filterMap id).length : K) < percent * best →
            r.varSalTheta[i]? = some none) ∧
          (¬ ((row.filterMap id).length < 2 ∨ ((row.filterMap id).length : K) < percent * best) →
            r.varSalTheta[i]? = some (some (sampleVariance (row.filterMap id)))) := by
  obtain ⟨pl, rows, h1, h2, h3, h4, h5, h6, h7⟩ := find10thetas_ok h
  obtain ⟨hlen, hget⟩ := mapM_getElem h2
  have hrow : ∀ (i : ℕ) (row : List (Option K)), rows[i]? = some row →
      ∃ p, pl[i]? = some p ∧ salRow (data.map fun prof => prof.map (mask B)) (thetaLevel (data.map fun prof => prof.map (mask B)) p)
        = .ok row := by
    intro i row hr
    have hi : i < pl.length := by
      have := (List.getElem?_eq_some_iff.1 hr).1
      simpa [hlen] using this
    obtain ⟨b, hb1, hb2⟩ := hget i _ (by rw [List.getElem?_map, List.getElem?_eq_getElem hi]; rfl)
    rw [hr] at hb1
    have := Option.some.inj hb1
    subst this
    exact ⟨pl[i], by simp [hi], hb2⟩
  refine ⟨rows, by rw [h3, hlen], ?_, (rows.map fun r => (r.filterMap id).length).foldr max 0, ?_, ?_, ?_⟩
  · intro i row hr
    obtain ⟨p, hp, hs⟩ := hrow i row hr
    obtain ⟨hl2, hg2⟩ := mapM_getElem hs
    refine ⟨by simpa using hl2, ?_⟩
    intro d prof hd
    obtain ⟨s, hs1, hs2⟩ := hg2 d (prof.map (mask B)) (by simp [hd])
    refine ⟨s, hs1, ?_⟩
    rw [h3, List.getElem?_map, hp]
    exact hs2
  · intro row hr
    exact foldr_max_ge _ _ (List.mem_map.2 ⟨row, hr, rfl⟩)
  · clear hrow hget hlen h2 h4 h5 h6 h7
    induction rows with
    | nil => exact Or.inr rfl
    | cons a rows ih =>
      simp only [List.map_cons, List.foldr_cons]
      rcases le_total ((rows.map fun r => (r.filterMap id).length).foldr max 0) (a.filterMap id).length with hle | hle
      · rw [max_eq_left hle]
        exact Or.inl ⟨a, by simp, rfl⟩
      · rw [max_eq_right hle]
        rcases ih with ⟨row, hr, e⟩ | e
        · exact Or.inl ⟨row, by simp [hr], e⟩
        · exact Or.inr e
  · intro i row hr
    have hi : i < rows.length := (List.getElem?_eq_some_iff.1 hr).1
    have hri : rows[i] = row := (List.getElem?_eq_some_iff.1 hr).2
    set best := (rows.map fun r => (r.filterMap id).length).foldr max 0 with hbest
    have hval : r.varSalTheta[i]? = some (if decide (best ≠ 0 ∧ ((row.filterMap id).length : K) / (best : K) < percent) ||
        ((rows.map fun r => (r.filterMap id).length).map fun (n : ℕ) =>
          decide (best ≠ 0 ∧ (n : K) / (best : K) < percent)).any id && (i == 0) then none else nanvar1 row) := by
      rw [h4]
      unfold filteredVar
      simp only [← hbest]
      rw [List.getElem?_map, List.getElem?_zipIdx, List.getElem?_eq_getElem (show i < (rows.zip _).length by simp [hi])]
      simp only [List.getElem_zip, List.getElem_map, hri, Option.map_some, Nat.zero_add]
    -- level 0 has no salinity at all
    have hzero : i = 0 → row.filterMap id = [] := by
      intro h0
      subst h0
      obtain ⟨p, hp, hs⟩ := hrow 0 row hr
      obtain ⟨lo, hi', _, hb, _, _, hhead⟩ := presLevels_ok h1
      have hp0 := hhead p hp
      have hnone := thetaLevel_min_none (data.map fun prof => prof.map (mask B)) p (by
        intro prof hprof l hl q hq
        rw [hp0]
        exact (hb l (List.mem_flatten.2 ⟨prof, hprof, hl⟩) q hq).1)
      rw [hnone] at hs
      obtain ⟨hl2, hg2⟩ := mapM_getElem hs
      rw [List.filterMap_eq_nil_iff]
      intro a ha
      obtain ⟨d, hd, hda⟩ := List.mem_iff_getElem.1 ha
      obtain ⟨s, hs1, hs2⟩ := hg2 d _ (List.getElem?_eq_getElem (by omega))
      have hsa : s = a := by
        rw [List.getElem?_eq_getElem hd, hda] at hs1
        exact (Option.some.inj hs1).symm
      rw [← hsa]
      exact (Except.ok.inj hs2).symm
    have hn1 : ∀ x : List (Option K), (x.filterMap id).length < 2 → nanvar1 x = none := by
      intro x hx; unfold nanvar1; simp only; rw [if_pos hx]
    have hn2 : ∀ x : List (Option K), ¬ (x.filterMap id).length < 2 → nanvar1 x = some (sampleVariance (x.filterMap id)) := by
      intro x hx; unfold nanvar1; simp only; rw [if_neg hx]; rfl
    rw [hval]
    have hbestge : (row.filterMap id).length ≤ best :=
      foldr_max_ge _ _ (List.mem_map.2 ⟨row, List.mem_of_getElem? hr, rfl⟩)
    constructor
    · intro hcase
      congr 1
      split_ifs with hc
      · rfl
      · rcases hcase with hcase | hcase
        · exact hn1 row hcase
        · by_cases hb0 : best = 0
          · exact hn1 row (by omega)
          · exfalso
            apply hc
            have hbK : (0 : K) < best := by exact_mod_cast Nat.pos_of_ne_zero hb0
            have : decide (best ≠ 0 ∧ ((row.filterMap id).length : K) / (best : K) < percent) = true :=
              decide_eq_true ⟨hb0, by rw [div_lt_iff₀ hbK]; exact hcase⟩
            rw [this, Bool.true_or]
    · intro hcase
      rw [not_or] at hcase
      obtain ⟨hc1, hc2⟩ := hcase
      have hb0 : best ≠ 0 := by omega
      have hbK : (0 : K) < best := by exact_mod_cast Nat.pos_of_ne_zero hb0
      have hi0 : i ≠ 0 := by
        intro h0
        have := hzero h0
        rw [this] at hc1; simp at hc1
      rw [if_neg, hn2 row hc1]
      have h1' : decide (best ≠ 0 ∧ ((row.filterMap id).length : K) / (best : K) < percent) = false :=
        decide_eq_false (fun hh => hc2 (by rw [← div_lt_iff₀ hbK]; exact hh.2))
      have h2' : (i == 0) = false := by simpa using hi0
      rw [h1', h2', Bool.and_false]
      simp

/-! ## C20 nearest level -/

/-- C20. For the chosen level with temperature `th` and profile `d` the reported number `i` is the first cell whose temperature is
nearest to `th` among the usable cells, and `th` lies strictly inside the profile's usable temperatures. -/
theorem thetas_index_nearest (B : Bounds K) (percent : K) (data : List (List (Level K))) (r : Thetas K)
    (h : find10thetas B percent data = .ok r) (k d i : ℕ) (row : List (Option ℕ)) (prof : List (Level K))
    (hrow : r.index[k]? = some row) (hi : row[d]? = some (some i)) (hd : data[d]? = some prof) :
    ∃ th l t, r.tLevels[k]? = some (some th) ∧ prof[i]? = some l ∧ l.ptmp = some t ∧ Usable B l ∧
      (∀ (j : ℕ) (lj : Level K) (u : K), prof[j]? = some lj → Usable B lj → lj.ptmp = some u → |t - th| ≤ |u - th|) ∧
      (∀ (j : ℕ) (lj : Level K) (u : K), j < i → prof[j]? = some lj → Usable B lj → lj.ptmp = some u → |t - th| < |u - th|) ∧
      (∃ l1 ∈ prof, ∃ u, Usable B l1 ∧ l1.ptmp = some u ∧ u < th) ∧ (∃ l1 ∈ prof, ∃ u, Usable B l1 ∧ l1.ptmp = some u ∧ th < u) := by
  obtain ⟨pl, rows, h1, h2, h3, h4, h5, h6, h7⟩ := find10thetas_ok h
  rw [h7, List.getElem?_map, Option.map_eq_some_iff] at hrow
  obtain ⟨c, hc, rfl⟩ := hrow
  rw [List.getElem?_map, List.getElem?_map, hd] at hi
  simp only [Option.map_some, Option.some.injEq] at hi
  obtain ⟨th, lo, hi', t, l, e1, e2, e3, hlo, hhi, hl, ht, hnear, hfirst⟩ := thetaIndex_some hi
  rw [List.getElem?_map, Option.map_eq_some_iff] at hl
  obtain ⟨l0, hl0, rfl⟩ := hl
  obtain ⟨hu, ht0⟩ := (mask_ptmp B l0 t).1 ht
  have hmask : ∀ (j : ℕ) (lj : Level K) (u : K), prof[j]? = some lj → Usable B lj → lj.ptmp = some u →
      (prof.map (mask B))[j]? = some (mask B lj) ∧ (mask B lj).ptmp = some u := by
    intro j lj u hj huj hpt
    exact ⟨by simp [hj], (mask_ptmp B lj u).2 ⟨huj, hpt⟩⟩
  refine ⟨th, l0, t, ?_, hl0, ht0, hu, ?_, ?_, ?_, ?_⟩
  · rw [h5, List.getElem?_map, hc]; simp [e1]
  · intro j lj u hj huj hpt
    obtain ⟨m1, m2⟩ := hmask j lj u hj huj hpt
    exact hnear j _ u m1 m2
  · intro j lj u hji hj huj hpt
    obtain ⟨m1, m2⟩ := hmask j lj u hj huj hpt
    exact hfirst j _ u hji m1 m2
  · obtain ⟨m, hm, hme⟩ := List.mem_map.1 (nanmin_some e2).1
    obtain ⟨l1, hl1, rfl⟩ := List.mem_map.1 hm
    obtain ⟨hu1, ht1⟩ := (mask_ptmp B l1 lo).1 hme
    exact ⟨l1, hl1, lo, hu1, ht1, hlo⟩
  · obtain ⟨m, hm, hme⟩ := List.mem_map.1 (nanmax_some e3).1
    obtain ⟨l1, hl1, rfl⟩ := List.mem_map.1 hm
    obtain ⟨hu1, ht1⟩ := (mask_ptmp B l1 hi').1 hme
    exact ⟨l1, hl1, hi', hu1, ht1, hhi⟩

/-- C20, converse: if the chosen temperature is strictly inside the profile's usable temperatures, a level number is reported. -/
theorem thetas_index_found (B : Bounds K) (percent : K) (data : List (List (Level K))) (r : Thetas K)
    (h : find10thetas B percent data = .ok r) (k d : ℕ) (row : List (Option ℕ)) (prof : List (Level K)) (th : K)
    (hrow : r.index[k]? = some row) (hd : data[d]? = some prof) (hth : r.tLevels[k]? = some (some th))
    (l1 l2 : Level K) (u1 u2 : K) (hl1 : l1 ∈ prof) (hu1 : Usable B l1) (ht1 : l1.ptmp = some u1) (h1 : u1 < th)
    (hl2 : l2 ∈ prof) (hu2 : Usable B l2) (ht2 : l2.ptmp = some u2) (h2 : th < u2) :
    ∃ i, row[d]? = some (some i) := by
  obtain ⟨pl, rows, h1', h2', h3, h4, h5, h6, h7⟩ := find10thetas_ok h
  rw [h7, List.getElem?_map, Option.map_eq_some_iff] at hrow
  obtain ⟨c, hc, rfl⟩ := hrow
  rw [h5, List.getElem?_map, hc] at hth
  simp only [Option.map_some, Option.some.injEq] at hth
  rw [List.getElem?_map, List.getElem?_map, hd]
  simp only [Option.map_some, Option.some.injEq, hth]
  have m1 : some u1 ∈ (prof.map (mask B)).map Level.ptmp :=
    List.mem_map.2 ⟨mask B l1, List.mem_map.2 ⟨l1, hl1, rfl⟩, (mask_ptmp B l1 u1).2 ⟨hu1, ht1⟩⟩
  have m2 : some u2 ∈ (prof.map (mask B)).map Level.ptmp :=
    List.mem_map.2 ⟨mask B l2, List.mem_map.2 ⟨l2, hl2, rfl⟩, (mask_ptmp B l2 u2).2 ⟨hu2, ht2⟩⟩
  unfold thetaIndex
  cases e1 : nanmin ((prof.map (mask B)).map Level.ptmp) with
  | none => have := nanmin_none e1 _ m1; simp at this
  | some lo =>
    cases e2 : nanmax ((prof.map (mask B)).map Level.ptmp) with
    | none => have := nanmax_none e2 _ m1; simp at this
    | some hi =>
      have hlo := (nanmin_some e1).2 u1 m1
      have hhi := (nanmax_some e2).2 u2 m2
      simp only
      rw [if_pos ⟨by linarith, by linarith⟩]
      obtain ⟨m, hm, hme⟩ := List.mem_map.1 m1
      exact nanArgmin_isSome (v := |u1 - th|) (List.mem_map.2 ⟨m, hm, by rw [hme]; rfl⟩)

/-! ## C63 salinity on a level -/

theorem neighbours_mem (i n j : ℕ) : j ∈ neighbours i n ↔ j < n ∧ j ≤ i + 1 ∧ i ≤ j + 1 := by
  unfold neighbours; simp

theorem kIndex_mem {prof : List (Level K)} {i k : ℕ} {t th : K} (hk : k ∈ kIndex prof i t th) (hki : k ≠ i) :
    k ≤ i + 1 ∧ i ≤ k + 1 ∧ ∃ l tk, prof[k]? = some l ∧ l.ptmp = some tk ∧ ((th < t ∧ tk < t) ∨ (t < th ∧ t < tk)) := by
  unfold kIndex at hk
  simp only at hk
  split_ifs at hk with h1 h2
  · cases hm : ((List.map (fun j => (j, prof[j]?.bind Level.ptmp)) (neighbours i prof.length)).filterMap
        (fun p => p.2.map fun u => t - u) |>.filter fun d => decide (d > 0)).min? with
    | none => rw [hm] at hk; simp at hk; exact absurd hk hki
    | some m =>
      rw [hm] at hk
      simp only [List.mem_map, List.mem_filter, decide_eq_true_eq] at hk
      obtain ⟨⟨j, pt⟩, ⟨⟨j', hj', he⟩, hpt⟩, rfl⟩ := hk
      simp only [Prod.mk.injEq] at he
      obtain ⟨rfl, rfl⟩ := he
      have hmpos := (List.min?_eq_some_iff.1 hm).1
      rw [List.mem_filter] at hmpos
      have hm0 : m > 0 := by simpa using hmpos.2
      obtain ⟨_, hn2, hn3⟩ := (neighbours_mem _ _ _).1 hj'
      simp only [Option.map_eq_some_iff, Option.bind_eq_some_iff] at hpt
      obtain ⟨tk, ⟨l, hl, htk⟩, hm'⟩ := hpt
      exact ⟨hn2, hn3, l, tk, hl, htk, Or.inl ⟨h1, by linarith⟩⟩
  · cases hm : ((List.map (fun j => (j, prof[j]?.bind Level.ptmp)) (neighbours i prof.length)).filterMap
        (fun p => p.2.map fun u => u - t) |>.filter fun d => decide (d > 0)).min? with
    | none => rw [hm] at hk; simp at hk; exact absurd hk hki
    | some m =>
      rw [hm] at hk
      simp only [List.mem_map, List.mem_filter, decide_eq_true_eq] at hk
      obtain ⟨⟨j, pt⟩, ⟨⟨j', hj', he⟩, hpt⟩, rfl⟩ := hk
      simp only [Prod.mk.injEq] at he
      obtain ⟨rfl, rfl⟩ := he
      have hmpos := (List.min?_eq_some_iff.1 hm).1
      rw [List.mem_filter] at hmpos
      have hm0 : m > 0 := by simpa using hmpos.2
      obtain ⟨_, hn2, hn3⟩ := (neighbours_mem _ _ _).1 hj'
      simp only [Option.map_eq_some_iff, Option.bind_eq_some_iff] at hpt
      obtain ⟨tk, ⟨l, hl, htk⟩, hm'⟩ := hpt
      exact ⟨hn2, hn3, l, tk, hl, htk, Or.inr ⟨h2, by linarith⟩⟩
  · simp at hk; exact absurd hk hki

theorem convex_between (s sk w : K) (h0 : 0 ≤ w) (h1 : w ≤ 1) :
    min s sk ≤ sk + (s - sk) * w ∧ sk + (s - sk) * w ≤ max s sk := by
  rcases le_total s sk with h | h
  · rw [min_eq_left h, max_eq_right h]; constructor <;> nlinarith
  · rw [min_eq_right h, max_eq_left h]; constructor <;> nlinarith

/-- Two profiles of two levels, temperatures 0 and 10. -/
def exProfile : List (Level ℚ) := [⟨some 0, some 34, some 0, some 0⟩, ⟨some 1000, some 35, some 10, some 10⟩]

/-- No limits but the band between 4 and 6 degrees excluded. -/
def exBand : Bounds ℚ := ⟨some 4, some 6, none, none⟩

/-- C18 does not extend to an excluded middle band: 4.5 and 5 degrees are chosen although the user excluded the temperatures between 4
and 6. -/
theorem thetas_level_in_excluded_band :
    ∃ r, find10thetas exBand (1 / 2) [exProfile, exProfile] = .ok r ∧ some (5 : ℚ) ∈ r.tLevels ∧
      ¬ Allowed exBand.thetaLt exBand.thetaGt (5 : ℚ) := by
  have h : (match find10thetas exBand (1 / 2) [exProfile, exProfile] with
      | .ok r => decide (some (5 : ℚ) ∈ r.tLevels)
      | .error _ => false) = true := by decide +kernel
  cases hr : find10thetas exBand (1 / 2) [exProfile, exProfile] with
  | error e => rw [hr] at h; simp at h
  | ok r =>
    rw [hr] at h
    refine ⟨r, rfl, by simpa using h, ?_⟩
    unfold Allowed exBand
    norm_num

/-- The hypotheses of C18 - C20 are met: ten levels are found within the limits 0 .. 10, with level numbers. -/
example : ∃ r, find10thetas (⟨some 10, some 0, none, none⟩ : Bounds ℚ) (1 / 2) [exProfile, exProfile] = .ok r ∧
    r.tLevels.length = 10 ∧ r.index[0]? = some [some 0, some 0] := by
  have h : (match find10thetas (⟨some 10, some 0, none, none⟩ : Bounds ℚ) (1 / 2) [exProfile, exProfile] with
      | .ok r => decide (r.tLevels.length = 10 ∧ r.index[0]? = some [some 0, some 0])
      | .error _ => false) = true := by decide +kernel
  cases hr : find10thetas (⟨some 10, some 0, none, none⟩ : Bounds ℚ) (1 / 2) [exProfile, exProfile] with
  | error e => rw [hr] at h; simp at h
  | ok r =>
    rw [hr] at h
    exact ⟨r, rfl, by simpa using h⟩

/-- A pressure range below 10 dbar, or temperatures without two different tenths of a degree, make the function fail. -/
theorem thetas_small_range_fails :
    find10thetas (⟨none, none, none, none⟩ : Bounds ℚ) (1 / 2)
      [[⟨some 0, some 34, some 0, some 0⟩, ⟨some 9, some 35, some 10, some 10⟩]] = .error .valueError ∧
    find10thetas (⟨none, none, none, none⟩ : Bounds ℚ) (1 / 2)
      [[⟨some 0, some 34, some (1 / 100), some 0⟩, ⟨some 1000, some 35, some (19 / 100), some 10⟩]] = .error .nameError := by
  constructor
  · have h : (match find10thetas (⟨none, none, none, none⟩ : Bounds ℚ) (1 / 2)
        [[⟨some 0, some 34, some 0, some 0⟩, ⟨some 9, some 35, some 10, some 10⟩]] with
        | .ok _ => false | .error e => decide (e = .valueError)) = true := by decide +kernel
    cases hr : find10thetas (⟨none, none, none, none⟩ : Bounds ℚ) (1 / 2)
        [[⟨some 0, some 34, some 0, some 0⟩, ⟨some 9, some 35, some 10, some 10⟩]] with
    | ok _ => rw [hr] at h; simp at h
    | error e => rw [hr] at h; simp at h; rw [h]
  · have h : (match find10thetas (⟨none, none, none, none⟩ : Bounds ℚ) (1 / 2)
        [[⟨some 0, some 34, some (1 / 100), some 0⟩, ⟨some 1000, some 35, some (19 / 100), some 10⟩]] with
        | .ok _ => false | .error e => decide (e = .nameError)) = true := by decide +kernel
    cases hr : find10thetas (⟨none, none, none, none⟩ : Bounds ℚ) (1 / 2)
        [[⟨some 0, some 34, some (1 / 100), some 0⟩, ⟨some 1000, some 35, some (19 / 100), some 10⟩]] with
    | ok _ => rw [hr] at h; simp at h
    | error e => rw [hr] at h; simp at h; rw [h]

end Verif.Props
