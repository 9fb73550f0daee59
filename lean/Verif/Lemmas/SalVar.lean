import Verif.Props.Thetas
import Verif.Spec.SalVar

/-!
# Lemmas about `sal_var_plot`
-/

set_option linter.unusedSectionVars false

namespace Verif.SalVar

open Verif.Np Verif.Spec

variable {K : Type} [Field K] [LinearOrder K] [IsStrictOrderedRing K] [FloorRing K]

/-- The temperature of row `r`. -/
def tempAt (prof : List (Thetas.Level K)) (r : ℕ) : Option K := prof[r]?.bind Thetas.Level.ptmp

/-- A neighbour on the far side of `t`, seen from the row with temperature `t`. -/
def Side (prof : List (Thetas.Level K)) (i : ℕ) (t th : K) (j : ℕ) (u : K) : Prop :=
  j ∈ Thetas.neighbours i prof.length ∧ tempAt prof j = some u ∧ ((th < t ∧ u < t) ∨ (t < th ∧ t < u))

theorem kIndex_branch (ns : List ℕ) (temp : ℕ → Option K) (f : K → K) (i k : ℕ)
    (h : (match (((ns.map fun j => (j, temp j)).filterMap fun p => p.2.map f).filter fun d => decide (d > 0)).min? with
      | some m => ((ns.map fun j => (j, temp j)).filter fun p => decide (p.2.map f = some m)).map Prod.fst
      | none => [i]) = [k]) :
    (k = i ∧ ∀ j ∈ ns, ∀ u, temp j = some u → ¬ f u > 0) ∨
    (∃ u, k ∈ ns ∧ temp k = some u ∧ f u > 0 ∧ ∀ j ∈ ns, ∀ w, temp j = some w → f w > 0 → j = k ∨ f u < f w) := by
  have hmem : ∀ d, d ∈ ((ns.map fun j => (j, temp j)).filterMap fun p => p.2.map f).filter (fun d => decide (d > 0)) ↔
      d > 0 ∧ ∃ j ∈ ns, ∃ u, temp j = some u ∧ f u = d := by
    intro d
    simp only [List.mem_filter, List.mem_filterMap, List.mem_map, decide_eq_true_eq, Option.map_eq_some_iff]
    constructor
    · rintro ⟨⟨p, ⟨j, hj, rfl⟩, u, hu, rfl⟩, hd⟩
      exact ⟨hd, j, hj, u, hu, rfl⟩
    · rintro ⟨hd, j, hj, u, hu, rfl⟩
      exact ⟨⟨(j, temp j), ⟨j, hj, rfl⟩, u, hu, rfl⟩, hd⟩
  cases hm : (((ns.map fun j => (j, temp j)).filterMap fun p => p.2.map f).filter fun d => decide (d > 0)).min? with
  | none =>
    rw [hm] at h
    simp only [List.cons.injEq, and_true] at h
    refine Or.inl ⟨h.symm, fun j hj u hu hpos => ?_⟩
    rw [List.min?_eq_none_iff] at hm
    have := (hmem (f u)).2 ⟨hpos, j, hj, u, hu, rfl⟩
    rw [hm] at this; simp at this
  | some m =>
    rw [hm] at h
    simp only at h
    rw [List.min?_eq_some_iff] at hm
    obtain ⟨hin, hmin⟩ := hm
    have hpos := ((hmem m).1 hin).1
    have hk : ∀ j, (j ∈ ns ∧ ∃ u, temp j = some u ∧ f u = m) → j = k := by
      rintro j ⟨hj, u, hu, hfu⟩
      have : j ∈ ((ns.map fun j => (j, temp j)).filter fun p => decide (p.2.map f = some m)).map Prod.fst :=
        List.mem_map.2 ⟨(j, temp j), List.mem_filter.2 ⟨List.mem_map.2 ⟨j, hj, rfl⟩, by simp [hu, hfu]⟩, rfl⟩
      rw [h] at this
      exact List.mem_singleton.1 this
    have hkin : k ∈ ((ns.map fun j => (j, temp j)).filter fun p => decide (p.2.map f = some m)).map Prod.fst := by rw [h]; simp
    obtain ⟨p, hp, rfl⟩ := List.mem_map.1 hkin
    rw [List.mem_filter] at hp
    obtain ⟨hp1, hp2⟩ := hp
    obtain ⟨j, hj, rfl⟩ := List.mem_map.1 hp1
    simp only [decide_eq_true_eq, Option.map_eq_some_iff] at hp2
    obtain ⟨u, hu, hfu⟩ := hp2
    refine Or.inr ⟨u, hj, hu, by rw [hfu]; exact hpos, fun j' hj' w hw hwpos => ?_⟩
    have hle := hmin _ ((hmem (f w)).2 ⟨hwpos, j', hj', w, hw, rfl⟩)
    rw [hfu]
    rcases hle.lt_or_eq with hlt | heq
    · exact Or.inr hlt
    · exact Or.inl (hk j' ⟨hj', w, hw, heq.symm⟩)

theorem kIndex_single {prof : List (Thetas.Level K)} {i k : ℕ} {t th : K} (ht : tempAt prof i = some t) (h : Thetas.kIndex prof i t th = [k]) :
    (k = i ∧ ∀ j u, ¬ Side prof i t th j u) ∨
    (k ≠ i ∧ ∃ u, Side prof i t th k u ∧ ∀ j w, Side prof i t th j w → j = k ∨ |t - u| < |t - w|) := by
  unfold Thetas.kIndex at h
  simp only at h
  split_ifs at h with h1 h2
  · rcases kIndex_branch _ _ (fun u => t - u) i k h with ⟨hk, hno⟩ | ⟨u, hk, hu, hpos, hmin⟩
    · refine Or.inl ⟨hk, fun j u hs => ?_⟩
      obtain ⟨a, b, c⟩ := hs
      rcases c with c | c
      · exact hno j a u b (by simp only [gt_iff_lt]; linarith)
      · linarith
    · refine Or.inr ⟨?_, u, ⟨hk, hu, Or.inl ⟨h1, by linarith⟩⟩, ?_⟩
      · rintro rfl
        rw [show (prof[k]?.bind Thetas.Level.ptmp) = tempAt prof k from rfl, ht] at hu
        simp at hu; subst hu; simp at hpos
      · rintro j w ⟨a, b, c⟩
        rcases c with c | c
        · rw [abs_of_pos hpos, abs_of_pos (by linarith : 0 < t - w)]
          exact hmin j a w b (by simp only [gt_iff_lt]; linarith)
        · linarith
  · rcases kIndex_branch _ _ (fun u => u - t) i k h with ⟨hk, hno⟩ | ⟨u, hk, hu, hpos, hmin⟩
    · refine Or.inl ⟨hk, fun j u hs => ?_⟩
      obtain ⟨a, b, c⟩ := hs
      rcases c with c | c
      · exact absurd c.1 h1
      · exact hno j a u b (by simp only [gt_iff_lt]; linarith)
    · refine Or.inr ⟨?_, u, ⟨hk, hu, Or.inr ⟨h2, by linarith⟩⟩, ?_⟩
      · rintro rfl
        rw [show (prof[k]?.bind Thetas.Level.ptmp) = tempAt prof k from rfl, ht] at hu
        simp at hu; subst hu; simp at hpos
      · rintro j w ⟨a, b, c⟩
        rcases c with c | c
        · exact absurd c.1 h1
        · rw [abs_sub_comm t u, abs_sub_comm t w, abs_of_pos hpos, abs_of_pos (by linarith : 0 < w - t)]
          exact hmin j a w b (by simp only [gt_iff_lt]; linarith)
  · simp only [List.cons.injEq, and_true] at h
    refine Or.inl ⟨h.symm, fun j u hs => ?_⟩
    rcases hs.2.2 with c | c
    · exact h1 c.1
    · exact h2 c.1

open Classical in
/-- The profile with the rows not kept blanked. -/
noncomputable def keepRows (kept : ℕ → Prop) (prof : List (Cell K)) : List (Cell K) := prof.mapIdx fun r x => if kept r then x else blank x

theorem keepRows_get (kept : ℕ → Prop) (prof : List (Cell K)) (r : ℕ) (x' : Cell K) (t : K) :
    ((keepRows kept prof)[r]? = some x' ∧ x'.ptmp = some t) ↔ (prof[r]? = some x' ∧ kept r ∧ x'.ptmp = some t) := by
  classical
  unfold keepRows
  rw [List.getElem?_mapIdx, Option.map_eq_some_iff]
  constructor
  · rintro ⟨⟨x, hx, rfl⟩, ht⟩
    split_ifs at ht ⊢ with hk
    · exact ⟨hx, hk, ht⟩
    · simp [blank] at ht
  · rintro ⟨hx, hk, ht⟩
    exact ⟨⟨x', hx, by simp [hk]⟩, ht⟩

theorem keepRows_temp (kept : ℕ → Prop) (prof : List (Cell K)) (r : ℕ) (t : K) :
    tempAt ((keepRows kept prof).map Cell.toLevel) r = some t ↔ ∃ x, prof[r]? = some x ∧ kept r ∧ x.ptmp = some t := by
  unfold tempAt
  rw [List.getElem?_map, Option.bind_eq_some_iff]
  constructor
  · rintro ⟨l, hl, ht⟩
    rw [Option.map_eq_some_iff] at hl
    obtain ⟨x, hx, rfl⟩ := hl
    exact ⟨x, (keepRows_get kept prof r x t).1 ⟨hx, ht⟩⟩
  · rintro ⟨x, hx⟩
    obtain ⟨h1, h2⟩ := (keepRows_get kept prof r x t).2 hx
    exact ⟨x.toLevel, by rw [h1]; rfl, h2⟩

theorem encloses_iff (kept : ℕ → Prop) (prof : List (Cell K)) (th : K) :
    Encloses kept prof th ↔ ∃ i, Thetas.thetaIndex (some th) ((keepRows kept prof).map Cell.toLevel) = some i := by
  have hm : ∀ t, some t ∈ ((keepRows kept prof).map Cell.toLevel).map Thetas.Level.ptmp ↔ ∃ r x, prof[r]? = some x ∧ kept r ∧ x.ptmp = some t := by
    intro t
    rw [List.mem_iff_getElem?]
    refine exists_congr fun r => ?_
    rw [List.getElem?_map, Option.map_eq_some_iff, ← keepRows_temp]
    unfold tempAt
    rw [Option.bind_eq_some_iff]
  constructor
  · rintro ⟨⟨r1, x1, t1, a1, a2, a3, a4⟩, r2, x2, t2, b1, b2, b3, b4⟩
    have m1 := (hm t1).2 ⟨r1, x1, a1, a2, a3⟩
    have m2 := (hm t2).2 ⟨r2, x2, b1, b2, b3⟩
    unfold Thetas.thetaIndex
    cases e1 : nanmin (((keepRows kept prof).map Cell.toLevel).map Thetas.Level.ptmp) with
    | none => have := nanmin_none e1 _ m1; simp at this
    | some lo =>
      cases e2 : nanmax (((keepRows kept prof).map Cell.toLevel).map Thetas.Level.ptmp) with
      | none => have := nanmax_none e2 _ m1; simp at this
      | some hi =>
        have hlo := (nanmin_some e1).2 t1 m1
        have hhi := (nanmax_some e2).2 t2 m2
        simp only
        rw [if_pos ⟨by linarith, by linarith⟩]
        obtain ⟨m, hm, hme⟩ := List.mem_map.1 m1
        exact nanArgmin_isSome (v := |t1 - th|) (List.mem_map.2 ⟨m, hm, by rw [hme]; rfl⟩)
  · rintro ⟨i, hi⟩
    obtain ⟨th', lo, hi', t, l, e, h1, h2, h3, h4, -⟩ := Props.thetaIndex_some hi
    obtain rfl := Option.some.inj e
    obtain ⟨r1, x1, a⟩ := (hm lo).1 (nanmin_some h1).1
    obtain ⟨r2, x2, b⟩ := (hm hi').1 (nanmax_some h2).1
    exact ⟨⟨r1, x1, lo, a.1, a.2.1, a.2.2, h3⟩, r2, x2, hi', b.1, b.2.1, b.2.2, h4⟩

/-- The value drawn, in terms of the rows kept. -/
theorem onLevel_spec (kept : ℕ → Prop) (prof : List (Cell K)) (th : K) (gate q : Cell K → Option K) (v : Option K)
    (h : onLevel (some th) (keepRows kept prof) gate q = .ok v) : OnTheta kept prof th gate q v := by
  unfold onLevel at h
  cases hidx : Thetas.thetaIndex (some th) ((keepRows kept prof).map Cell.toLevel) with
  | none =>
    rw [hidx] at h
    simp only [Except.ok.injEq] at h
    refine ⟨fun _ => h.symm, fun he => ?_⟩
    obtain ⟨i, hi⟩ := (encloses_iff kept prof th).1 he
    rw [hidx] at hi; simp at hi
  | some i =>
    refine ⟨fun hne => absurd ((encloses_iff kept prof th).2 ⟨i, hidx⟩) hne, fun _ => ?_⟩
    obtain ⟨th', lo, hi', t, l, e, h1, h2, h3, h4, hl, ht, hmin, hfirst⟩ := Props.thetaIndex_some hidx
    obtain rfl := Option.some.inj e
    rw [List.getElem?_map, Option.map_eq_some_iff] at hl
    obtain ⟨x, hx, rfl⟩ := hl
    have hxt : x.ptmp = some t := ht
    obtain ⟨g1, g2, -⟩ := (keepRows_get kept prof i x t).1 ⟨hx, hxt⟩
    have near : NearestRow kept prof th i x t := by
      refine ⟨g1, g2, hxt, fun r' x' t' a b c => ?_⟩
      obtain ⟨d1, d2⟩ := (keepRows_get kept prof r' x' t').2 ⟨a, b, c⟩
      have d3 : ((keepRows kept prof).map Cell.toLevel)[r']? = some x'.toLevel := by rw [List.getElem?_map, d1]; rfl
      exact ⟨hmin r' _ t' d3 d2, fun hr => hfirst r' _ t' hr d3 d2⟩
    refine ⟨i, x, t, near, ?_⟩
    have hlen : ((keepRows kept prof).map Cell.toLevel).length = prof.length := by simp [keepRows]
    have hside : ∀ j u, Side ((keepRows kept prof).map Cell.toLevel) i t th j u ↔ ∃ y, Across kept prof th i t j y u := by
      intro j u
      unfold Side Across
      rw [Props.neighbours_mem, keepRows_temp, hlen]
      constructor
      · rintro ⟨⟨-, n2, n3⟩, ⟨y, y1, y2, y3⟩, hs⟩
        have hnear := (near.2.2.2 j y u y1 y2 y3).1
        refine ⟨y, ?_, y1, y2, y3, ?_⟩
        · by_contra hc
          have : j = i := by omega
          subst this
          rw [g1] at y1
          obtain rfl := Option.some.inj y1
          rw [hxt] at y3
          obtain rfl := Option.some.inj y3
          rcases hs with hs | hs <;> exact absurd hs.2 (lt_irrefl _)
        · rcases hs with ⟨s1, s2⟩ | ⟨s1, s2⟩
          · refine Or.inl ⟨?_, s1⟩
            by_contra hc
            rw [abs_of_pos (by linarith), abs_of_nonneg (by linarith)] at hnear
            linarith
          · refine Or.inr ⟨s1, ?_⟩
            by_contra hc
            rw [abs_of_neg (by linarith), abs_of_nonpos (by linarith)] at hnear
            linarith
      · rintro ⟨y, ha, y1, y2, y3, hs⟩
        have : j < prof.length := (List.getElem?_eq_some_iff.1 y1).1
        refine ⟨⟨this, by omega, by omega⟩, ⟨y, y1, y2, y3⟩, ?_⟩
        rcases hs with hs | hs
        · exact Or.inl ⟨hs.2, by linarith⟩
        · exact Or.inr ⟨hs.1, by linarith⟩
    rw [hidx] at h
    simp only [hx, hxt] at h
    have hti : tempAt ((keepRows kept prof).map Cell.toLevel) i = some t := (keepRows_temp kept prof i t).2 ⟨x, g1, g2, hxt⟩
    split at h
    · rename_i k hk
      rcases kIndex_single hti hk with ⟨rfl, hno⟩ | ⟨hki, u, hsk, hbest⟩
      · simp only [ne_eq, not_true_eq_false, if_false, Except.ok.injEq] at h
        exact Or.inr ⟨fun r2 x2 t2 ha => absurd ((hside r2 t2).2 ⟨x2, ha⟩) (hno r2 t2), h.symm⟩
      · rw [if_pos hki] at h
        obtain ⟨y, hy⟩ := (hside k u).1 hsk
        have hpart : Partner kept prof th i t k y u := ⟨hy, fun r3 x3 t3 ha => by
          rcases hbest r3 t3 ((hside r3 t3).2 ⟨x3, ha⟩) with e | e
          · exact Or.inl e
          · exact Or.inr e⟩
        obtain ⟨hk1, -⟩ := (keepRows_get kept prof k y u).2 ⟨hy.2.1, hy.2.2.1, hy.2.2.2.1⟩
        simp only [hk1, hy.2.2.2.1] at h
        cases hgx : gate x with
        | none =>
          rw [hgx] at h
          simp only [Except.ok.injEq] at h
          exact Or.inr ⟨fun _ _ _ _ => Or.inl rfl, h.symm⟩
        | some g =>
          cases hgy : gate y with
          | none =>
            rw [hgx, hgy] at h
            simp only [Except.ok.injEq] at h
            exact Or.inr ⟨fun _ _ _ _ => Or.inr ⟨k, y, u, hpart, hgy⟩, h.symm⟩
          | some g' =>
            rw [hgx, hgy] at h
            simp only [Except.ok.injEq] at h
            refine Or.inl ⟨k, y, u, hpart, by simp, by rw [hgy]; simp, ?_⟩
            have hne : t - u ≠ 0 := by
              rcases hy.2.2.2.2 with hs | hs
              · have : u < t := by linarith
                exact sub_ne_zero.2 this.ne'
              · have : t < u := by linarith
                exact sub_ne_zero.2 this.ne
            unfold OnLine
            unfold lineValue at h
            cases hqx : q x with
            | none => rw [hqx] at h; exact h.symm
            | some a =>
              cases hqy : q y with
              | none => rw [hqx, hqy] at h; exact h.symm
              | some b =>
                rw [hqx, hqy] at h
                refine ⟨_, h.symm, ?_⟩
                field_simp
                ring
    · simp at h

/-- A cell that passes a test. -/
def Hit (test : Cell K → Bool) (data : List (List (Cell K))) (r c : ℕ) : Prop := ∃ x, cellAt data r c = some x ∧ test x = true

theorem mem_hits (test : Cell K → Bool) (data : List (List (Cell K))) (r c : ℕ) : (r, c) ∈ hits test data ↔ Hit test data r c := by
  unfold hits Hit cellAt
  simp only [List.mem_flatMap, List.mem_map, List.mem_filter, Prod.exists, Prod.mk.injEq, List.mem_zipIdx_iff_getElem?, Option.bind_eq_some_iff]
  constructor
  · rintro ⟨prof, c', hp, x, r', ⟨hx, ht⟩, rfl, rfl⟩
    exact ⟨x, ⟨prof, hp, hx⟩, ht⟩
  · rintro ⟨x, ⟨prof, hp, hx⟩, ht⟩
    exact ⟨prof, c, hp, x, r, ⟨hx, ht⟩, rfl, rfl⟩

theorem mem_idx (good : List (ℕ × ℕ)) (r : ℕ) : r ∈ good.flatMap (fun p => [p.1, p.2]) ↔ ∃ s, (r, s) ∈ good ∨ (s, r) ∈ good := by
  simp only [List.mem_flatMap, List.mem_cons, List.not_mem_nil, or_false, Prod.exists]
  constructor
  · rintro ⟨a, b, h, rfl | rfl⟩
    · exact ⟨b, Or.inl h⟩
    · exact ⟨a, Or.inr h⟩
  · rintro ⟨s, h | h⟩
    · exact ⟨r, s, h, Or.inl rfl⟩
    · exact ⟨s, r, h, Or.inr rfl⟩

theorem cellAt_lt {data : List (List (Cell K))} {rows r c : ℕ} {x : Cell K} (hrows : ∀ prof ∈ data, prof.length = rows) (h : cellAt data r c = some x) :
    r < rows := by
  unfold cellAt at h
  rw [Option.bind_eq_some_iff] at h
  obtain ⟨prof, hp, hx⟩ := h
  rw [← hrows prof (List.mem_of_getElem? hp)]
  exact (List.getElem?_eq_some_iff.1 hx).1

/-- The rows that remain after `a[argwhere(test)] = nan`. -/
def Spared (test : Cell K → Bool) (data : List (List (Cell K))) (r : ℕ) : Prop := ∀ s, ¬ Hit test data r s ∧ ¬ Hit test data s r

theorem blankRows_ok {test : Cell K → Bool} {rows : ℕ} {data d : List (List (Cell K))} (h : blankRows rows (hits test data) data = .ok d) (c : ℕ) :
    d[c]? = (data[c]?).map (keepRows (Spared test data)) := by
  classical
  unfold blankRows at h
  simp only at h
  split_ifs at h
  simp only [Except.ok.injEq] at h
  subst h
  rw [List.getElem?_map]
  congr 1
  funext prof
  unfold keepRows
  congr 1
  funext r x
  have : r ∈ (hits test data).flatMap (fun p => [p.1, p.2]) ↔ ¬ Spared test data r := by
    rw [mem_idx]
    unfold Spared
    push Not
    refine exists_congr fun s => ?_
    rw [mem_hits, mem_hits]; tauto
  by_cases hr : r ∈ (hits test data).flatMap (fun p => [p.1, p.2])
  · rw [if_pos hr, if_neg (this.1 hr)]
  · rw [if_neg hr, if_pos (not_not.1 fun hc => hr (this.2 hc))]

theorem blankRows_error {test : Cell K → Bool} {rows : ℕ} {data : List (List (Cell K))} (hrows : ∀ prof ∈ data, prof.length = rows) (e : PyErr) :
    blankRows rows (hits test data) data = .error e ↔ e = .indexError ∧ ∃ r c, rows ≤ c ∧ Hit test data r c := by
  have : ((hits test data).flatMap (fun p => [p.1, p.2])).any (fun i => decide (rows ≤ i)) = true ↔ ∃ r c, rows ≤ c ∧ Hit test data r c := by
    rw [List.any_eq_true]
    simp only [decide_eq_true_eq, mem_idx, mem_hits]
    constructor
    · rintro ⟨i, ⟨s, h | h⟩, hi⟩
      · obtain ⟨x, hx, -⟩ := h
        have := cellAt_lt hrows hx
        omega
      · exact ⟨s, i, hi, h⟩
    · rintro ⟨r, c, hc, h⟩
      exact ⟨c, ⟨r, Or.inr h⟩, hc⟩
  unfold blankRows
  simp only
  split_ifs with hc
  · rw [Except.error.injEq, eq_comm]
    exact ⟨fun h => ⟨h, this.1 hc⟩, fun h => h.1⟩
  · simp only [reduceCtorEq, false_iff, not_and]
    exact fun _ h => hc (this.2 h)

theorem blank_blank (x : Cell K) : blank (blank x) = blank x := rfl

theorem keepRows_comp (k1 k2 : ℕ → Prop) (prof : List (Cell K)) : keepRows k2 (keepRows k1 prof) = keepRows (fun r => k1 r ∧ k2 r) prof := by
  classical
  unfold keepRows
  apply List.ext_getElem?
  intro r
  simp only [List.getElem?_mapIdx, Option.map_map]
  congr 1
  funext x
  simp only [Function.comp]
  by_cases h1 : k1 r <;> by_cases h2 : k2 r <;> simp [h1, h2, blank_blank]

theorem keepRows_congr {k1 k2 : ℕ → Prop} {prof : List (Cell K)} (h : ∀ r x, prof[r]? = some x → (k1 r ↔ k2 r)) : keepRows k1 prof = keepRows k2 prof := by
  classical
  unfold keepRows
  apply List.ext_getElem?
  intro r
  rw [List.getElem?_mapIdx, List.getElem?_mapIdx]
  cases hx : prof[r]? with
  | none => rfl
  | some x => simp only [Option.map_some, h r x hx]

theorem keepRows_length (k : ℕ → Prop) (prof : List (Cell K)) : (keepRows k prof).length = prof.length := by
  simp [keepRows]

/-- The data with the cells not kept blanked. -/
def IsKeep (data : List (List (Cell K))) (k : ℕ → ℕ → Prop) (d : List (List (Cell K))) : Prop :=
  ∀ c : ℕ, d[c]? = (data[c]?).map (keepRows fun r => k r c)

theorem IsKeep.rows {data d : List (List (Cell K))} {k : ℕ → ℕ → Prop} {rows : ℕ} (h : IsKeep data k d) (hrows : ∀ prof ∈ data, prof.length = rows) :
    ∀ prof ∈ d, prof.length = rows := by
  intro prof hp
  obtain ⟨c, hc⟩ := List.getElem?_of_mem hp
  rw [h c, Option.map_eq_some_iff] at hc
  obtain ⟨p0, hp0, rfl⟩ := hc
  rw [keepRows_length]
  exact hrows p0 (List.mem_of_getElem? hp0)

theorem IsKeep.hit {data d : List (List (Cell K))} {k : ℕ → ℕ → Prop} (h : IsKeep data k d) (lt gt : Option K) (val : Cell K → Option K)
    (hval : ∀ x, val (blank x) = none) (r c : ℕ) :
    Hit (fun x => Thetas.excluded lt gt (val x)) d r c ↔ k r c ∧ ∃ x v, cellAt data r c = some x ∧ val x = some v ∧ ¬ Allowed lt gt v := by
  classical
  have hex : ∀ x, Thetas.excluded lt gt (val x) = true ↔ ∃ v, val x = some v ∧ ¬ Allowed lt gt v := by
    intro x
    cases hv : val x with
    | none => simp [Thetas.excluded_none]
    | some v =>
      have := Thetas.excluded_iff lt gt v
      constructor
      · intro he
        exact ⟨v, rfl, fun ha => by rw [this.2 ha] at he; simp at he⟩
      · rintro ⟨v', hv', hna⟩
        obtain rfl := Option.some.inj hv'
        by_contra hc
        exact hna (this.1 (by simpa using hc))
  have hcell : cellAt d r c = (cellAt data r c).map fun x => if k r c then x else blank x := by
    unfold cellAt
    rw [h c]
    cases data[c]? with
    | none => rfl
    | some prof =>
      simp only [Option.map_some, Option.bind_some]
      unfold keepRows
      rw [List.getElem?_mapIdx]
  unfold Hit
  rw [hcell]
  simp only [hex, Option.map_eq_some_iff]
  constructor
  · rintro ⟨x', ⟨x, hx, rfl⟩, v, hv, hna⟩
    split_ifs at hv with hk
    · exact ⟨hk, x, v, hx, hv, hna⟩
    · rw [hval] at hv; simp at hv
  · rintro ⟨hk, x, v, hx, hv, hna⟩
    exact ⟨x, ⟨x, hx, by rw [if_pos hk]⟩, v, hv, hna⟩

theorem IsKeep.comp {data d d' : List (List (Cell K))} {k k' : ℕ → ℕ → Prop} (h : IsKeep data k d) (h' : IsKeep d k' d') :
    IsKeep data (fun r c => k r c ∧ k' r c) d' := by
  intro c
  rw [h' c, h c, Option.map_map]
  congr 1
  funext prof
  exact keepRows_comp _ _ prof

theorem IsKeep.congr {data d : List (List (Cell K))} {k k' : ℕ → ℕ → Prop} (h : IsKeep data k d) (hk : ∀ r c x, cellAt data r c = some x → (k r c ↔ k' r c)) :
    IsKeep data k' d := by
  intro c
  rw [h c]
  cases hc : data[c]? with
  | none => rfl
  | some prof =>
    simp only [Option.map_some]
    rw [keepRows_congr fun r x hx => hk r c x (by unfold cellAt; rw [hc]; exact hx)]

theorem isKeep_unmapped (data : List (List (Cell K))) :
    IsKeep data (fun r c => ∃ x, cellAt data r c = some x ∧ x.mapPtmp ≠ none) (data.map fun prof => prof.map maskUnmapped) := by
  classical
  intro c
  rw [List.getElem?_map]
  cases hc : data[c]? with
  | none => rfl
  | some prof =>
    simp only [Option.map_some, Option.some.injEq]
    unfold keepRows
    apply List.ext_getElem?
    intro r
    rw [List.getElem?_map, List.getElem?_mapIdx]
    cases hx : prof[r]? with
    | none => rfl
    | some x =>
      simp only [Option.map_some, Option.some.injEq]
      have : cellAt data r c = some x := by unfold cellAt; rw [hc]; exact hx
      have hP : (∃ y, cellAt data r c = some y ∧ y.mapPtmp ≠ none) ↔ x.mapPtmp ≠ none :=
        ⟨fun ⟨y, hy, hm⟩ => by rw [this] at hy; obtain rfl := Option.some.inj hy; exact hm, fun hm => ⟨x, this, hm⟩⟩
      unfold maskUnmapped
      by_cases hm : x.mapPtmp = none
      · rw [if_pos (by rw [hm]; rfl), if_neg (fun hh => (hP.1 hh) hm)]
      · rw [if_neg (by rw [Option.isNone_iff_eq_none]; exact hm), if_pos (hP.2 hm)]

theorem isKeep_id (data : List (List (Cell K))) : IsKeep data (fun _ _ => True) data := by
  classical
  intro c
  cases data[c]? with
  | none => rfl
  | some prof =>
    simp only [Option.map_some, Option.some.injEq]
    unfold keepRows
    apply List.ext_getElem?
    intro r
    rw [List.getElem?_mapIdx]
    cases prof[r]? <;> simp

theorem isKeep_pointwise (test : Cell K → Bool) (data : List (List (Cell K))) :
    IsKeep data (fun r c => ¬ Hit test data r c) (data.map fun prof => prof.map fun x => if test x then blank x else x) := by
  classical
  intro c
  rw [List.getElem?_map]
  cases hc : data[c]? with
  | none => rfl
  | some prof =>
    simp only [Option.map_some, Option.some.injEq]
    unfold keepRows
    apply List.ext_getElem?
    intro r
    rw [List.getElem?_map, List.getElem?_mapIdx]
    cases hx : prof[r]? with
    | none => rfl
    | some x =>
      simp only [Option.map_some, Option.some.injEq]
      have hcx : cellAt data r c = some x := by unfold cellAt; rw [hc]; exact hx
      have : Hit test data r c ↔ test x = true := by
        unfold Hit
        rw [hcx]
        constructor
        · rintro ⟨y, hy, ht⟩
          obtain rfl := Option.some.inj hy
          exact ht
        · exact fun ht => ⟨x, rfl, ht⟩
      by_cases ht : test x = true
      · rw [if_pos ht, if_neg (not_not.2 (this.2 ht))]
      · rw [if_neg ht, if_pos (fun hh => ht (this.1 hh))]

/-- The data after `map_ptmp` is looked at. -/
def afterMapped (data : List (List (Cell K))) : List (List (Cell K)) := data.map fun prof => prof.map maskUnmapped

theorem thetaBad_iff (B : Thetas.Bounds K) (data : List (List (Cell K))) (r c : ℕ) :
    Hit (fun x => Thetas.excluded B.thetaLt B.thetaGt x.ptmp) (afterMapped data) r c ↔ ThetaBad B data r c := by
  have hk : IsKeep data (fun r c => ∃ x, cellAt data r c = some x ∧ x.mapPtmp ≠ none) (afterMapped data) := isKeep_unmapped data
  rw [hk.hit B.thetaLt B.thetaGt Cell.ptmp (fun _ => rfl)]
  unfold ThetaBad
  constructor
  · rintro ⟨⟨x, hx, hm⟩, y, v, hy, hv, hna⟩
    rw [hx] at hy
    obtain rfl := Option.some.inj hy
    exact ⟨x, v, hx, hm, hv, hna⟩
  · rintro ⟨x, v, hx, hm, hv, hna⟩
    exact ⟨⟨x, hx, hm⟩, x, v, hx, hv, hna⟩

theorem maskTheta_ok {B : Thetas.Bounds K} {rows : ℕ} {data d : List (List (Cell K))} (h : maskTheta rows B (afterMapped data) = .ok d) :
    IsKeep data (ThetaKept B data) d := by
  have hmap : IsKeep data (fun r c => ∃ x, cellAt data r c = some x ∧ x.mapPtmp ≠ none) (afterMapped data) := isKeep_unmapped data
  unfold maskTheta at h
  split at h
  · rename_i e1 e2
    simp only [Except.ok.injEq] at h
    subst h
    refine hmap.congr fun r c x hx => ?_
    unfold ThetaKept
    rw [if_pos e2]
    refine (and_iff_left ?_).symm
    rintro ⟨y, t, -, -, -, hna⟩
    rw [e1, e2] at hna
    exact hna trivial
  · rename_i e1 e2
    simp only [Except.ok.injEq] at h
    subst h
    have hp := isKeep_pointwise (fun x : Cell K => Thetas.excluded B.thetaLt B.thetaGt x.ptmp) (afterMapped data)
    refine (hmap.comp hp).congr fun r c x hx => ?_
    unfold ThetaKept
    rw [if_pos e2, thetaBad_iff]
  · rename_i b e2
    have hp : IsKeep (afterMapped data) (fun r _ => Spared (fun x => Thetas.excluded B.thetaLt B.thetaGt x.ptmp) (afterMapped data) r) d :=
      fun c => blankRows_ok h c
    refine (hmap.comp hp).congr fun r c x hx => ?_
    unfold ThetaKept Spared
    rw [if_neg (by rw [e2]; simp)]
    simp only [thetaBad_iff]

theorem presBad_iff {B : Thetas.Bounds K} {data d : List (List (Cell K))} (h : IsKeep data (ThetaKept B data) d) (r c : ℕ) :
    Hit (fun x => Thetas.excluded B.presLt B.presGt x.pres) d r c ↔ PresBad B data r c := by
  rw [h.hit B.presLt B.presGt Cell.pres (fun _ => rfl)]
  rfl

theorem maskPres_ok {B : Thetas.Bounds K} {rows : ℕ} {data d d' : List (List (Cell K))} (hd : IsKeep data (ThetaKept B data) d)
    (h : maskPres rows B d = .ok d') : IsKeep data (Kept B data) d' := by
  unfold maskPres at h
  split at h
  · rename_i e1 e2
    simp only [Except.ok.injEq] at h
    subst h
    refine hd.congr fun r c x hx => ?_
    unfold Kept
    have hno : ∀ r c, ¬ PresBad B data r c := by
      rintro r c ⟨-, y, p, -, -, hna⟩
      rw [e1, e2] at hna
      exact hna trivial
    exact (and_iff_left fun s => ⟨hno r s, hno s r⟩).symm
  · have hp : IsKeep d (fun r _ => Spared (fun x => Thetas.excluded B.presLt B.presGt x.pres) d r) d' := fun c => blankRows_ok h c
    refine (hd.comp hp).congr fun r c x hx => ?_
    unfold Kept Spared
    simp only [presBad_iff hd]

theorem maskAll_ok {B : Thetas.Bounds K} {rows : ℕ} {data d : List (List (Cell K))} (h : maskAll rows B data = .ok d) : IsKeep data (Kept B data) d := by
  unfold maskAll at h
  change (do let d ← maskTheta rows B (afterMapped data); maskPres rows B d) = _ at h
  cases h1 : maskTheta rows B (afterMapped data) with
  | error e => rw [h1] at h; simp [bind, Except.bind] at h
  | ok d1 =>
    rw [h1] at h
    exact maskPres_ok (maskTheta_ok h1) h

theorem maskAll_error {B : Thetas.Bounds K} {rows : ℕ} {data : List (List (Cell K))} (hrows : ∀ prof ∈ data, prof.length = rows) (e : PyErr) :
    maskAll rows B data = .error e ↔ e = .indexError ∧
      ((B.thetaGt ≠ none ∧ ∃ r c, rows ≤ c ∧ ThetaBad B data r c) ∨
        ∃ r c, rows ≤ c ∧ PresBad B data r c) := by
  have hrows1 : ∀ prof ∈ afterMapped data, prof.length = rows := IsKeep.rows (isKeep_unmapped data) hrows
  have key1 : ∀ e, maskTheta rows B (afterMapped data) = .error e ↔ e = .indexError ∧ B.thetaGt ≠ none ∧ ∃ r c, rows ≤ c ∧ ThetaBad B data r c := by
    intro e
    unfold maskTheta
    split
    · rename_i e1 e2; simp [e2]
    · rename_i e1 e2; simp [e2]
    · rename_i b e2
      rw [blankRows_error hrows1]
      simp only [thetaBad_iff]
      rw [e2]; simp
  have key2 : ∀ d, IsKeep data (ThetaKept B data) d → ∀ e, maskPres rows B d = .error e ↔ e = .indexError ∧ ∃ r c, rows ≤ c ∧ PresBad B data r c := by
    intro d hd e
    unfold maskPres
    split
    · rename_i e1 e2
      simp only [reduceCtorEq, false_iff, not_and]
      rintro - ⟨r, c, -, -, y, p, -, -, hna⟩
      rw [e1, e2] at hna
      exact hna trivial
    · rw [blankRows_error (hd.rows hrows)]
      simp only [presBad_iff hd]
  unfold maskAll
  change (do let d ← maskTheta rows B (afterMapped data); maskPres rows B d) = _ ↔ _
  cases h1 : maskTheta rows B (afterMapped data) with
  | error e1 =>
    obtain ⟨rfl, h2, h3⟩ := (key1 e1).1 h1
    simp only [bind, Except.bind, Except.error.injEq]
    constructor
    · rintro rfl; exact ⟨rfl, Or.inl ⟨h2, h3⟩⟩
    · rintro ⟨rfl, _⟩; rfl
  | ok d1 =>
    have hno : ¬ (B.thetaGt ≠ none ∧ ∃ r c, rows ≤ c ∧ ThetaBad B data r c) := by
      intro hh
      have := (key1 .indexError).2 ⟨rfl, hh⟩
      rw [h1] at this; simp at this
    simp only [bind, Except.bind]
    rw [key2 d1 (maskTheta_ok h1)]
    exact and_congr_right fun _ => ⟨Or.inr, fun h => h.resolve_left hno⟩

end Verif.SalVar
