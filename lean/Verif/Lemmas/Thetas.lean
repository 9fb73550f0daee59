import Verif.Spec.Thetas
import Verif.Lemmas.Np

set_option linter.unusedSectionVars false

namespace Verif.Thetas

open Verif.Np Verif.Spec

variable {K : Type} [Field K] [LinearOrder K] [IsStrictOrderedRing K] [FloorRing K]

theorem excluded_iff (lt gt : Option K) (v : K) : excluded lt gt (some v) = false ↔ Allowed lt gt v := by
  unfold excluded Allowed
  rcases lt with _ | a <;> rcases gt with _ | b
  · simp
  · simp
  · simp
  · by_cases h : a < b
    · simp only [h, if_true, decide_eq_false_iff_not, not_and_or, not_lt, gt_iff_lt]
      exact Or.comm
    · simp only [h, if_false, decide_eq_false_iff_not, not_or, not_lt, gt_iff_lt]
      exact And.comm

theorem excluded_none (lt gt : Option K) : excluded lt gt none = false := by
  unfold excluded
  rcases lt with _ | a <;> rcases gt with _ | b <;> rfl

/-- The mask leaves usable cells alone and blanks the others. -/
theorem mask_usable (B : Bounds K) (l : Level K) (h : Usable B l) : mask B l = l := by
  obtain ⟨h1, h2, h3⟩ := h
  have e1 : maskUnmapped l = l := by
    unfold maskUnmapped
    rw [if_neg]
    simpa [Option.isNone_iff_eq_none] using h1
  have e2 : maskTheta B l = l := by
    unfold maskTheta
    rw [if_neg]
    cases ht : l.ptmp with
    | none => simp [excluded_none]
    | some t => simp [(excluded_iff _ _ t).2 (h2 t ht)]
  have e3 : maskPres B l = l := by
    unfold maskPres
    rw [if_neg]
    cases ht : l.pres with
    | none => simp [excluded_none]
    | some t => simp [(excluded_iff _ _ t).2 (h3 t ht)]
  unfold mask
  rw [e1, e2, e3]

theorem maskPres_blank (B : Bounds K) (l : Level K) : maskPres B (blank l) = blank l := by
  unfold maskPres blank
  simp [excluded_none]

theorem maskTheta_blank (B : Bounds K) (l : Level K) : maskTheta B (blank l) = blank l := by
  unfold maskTheta blank
  simp [excluded_none]

theorem mask_not_usable (B : Bounds K) (l : Level K) (h : ¬ Usable B l) : mask B l = blank l := by
  by_cases h1 : l.mapped = none
  · have e1 : maskUnmapped l = blank l := by unfold maskUnmapped; rw [if_pos (by simp [h1])]
    unfold mask
    rw [e1, maskTheta_blank, maskPres_blank]
  have e1 : maskUnmapped l = l := by
    unfold maskUnmapped
    rw [if_neg]
    simpa [Option.isNone_iff_eq_none] using h1
  by_cases h2 : excluded B.thetaLt B.thetaGt l.ptmp = true
  · have e2 : maskTheta B l = blank l := by unfold maskTheta; rw [if_pos h2]
    unfold mask
    rw [e1, e2, maskPres_blank]
  have e2 : maskTheta B l = l := by unfold maskTheta; rw [if_neg h2]
  by_cases h3 : excluded B.presLt B.presGt l.pres = true
  · unfold mask
    rw [e1, e2]
    unfold maskPres; rw [if_pos h3]
  · exfalso
    apply h
    refine ⟨h1, fun t ht => ?_, fun p hp => ?_⟩
    · rw [← excluded_iff, ← ht]; simpa using h2
    · rw [← excluded_iff, ← hp]; simpa using h3

theorem mask_ptmp (B : Bounds K) (l : Level K) (t : K) : (mask B l).ptmp = some t ↔ Usable B l ∧ l.ptmp = some t := by
  by_cases h : Usable B l
  · simp [mask_usable B l h, h]
  · simp [mask_not_usable B l h, h, blank]

theorem mask_pres (B : Bounds K) (l : Level K) (t : K) : (mask B l).pres = some t ↔ Usable B l ∧ l.pres = some t := by
  by_cases h : Usable B l
  · simp [mask_usable B l h, h]
  · simp [mask_not_usable B l h, h, blank]

theorem mask_sal (B : Bounds K) (l : Level K) (t : K) : (mask B l).sal = some t ↔ Usable B l ∧ l.sal = some t := by
  by_cases h : Usable B l
  · simp [mask_usable B l h, h]
  · simp [mask_not_usable B l h, h, blank]

theorem segment_mem (x0 x1 y0 y1 x a b : K) (h0 : x0 < x) (h1 : x ≤ x1) (ha0 : a ≤ y0) (ha1 : a ≤ y1) (hb0 : y0 ≤ b)
    (hb1 : y1 ≤ b) : a ≤ y0 + (y1 - y0) / (x1 - x0) * (x - x0) ∧ y0 + (y1 - y0) / (x1 - x0) * (x - x0) ≤ b := by
  have hpos : 0 < x1 - x0 := by linarith
  set w := (x - x0) / (x1 - x0) with hw
  have hw0 : 0 ≤ w := div_nonneg (by linarith) hpos.le
  have hw1 : w ≤ 1 := by rw [hw, div_le_one hpos]; linarith
  have e : y0 + (y1 - y0) / (x1 - x0) * (x - x0) = (1 - w) * y0 + w * y1 := by
    rw [hw]; field_simp; ring
  rw [e]
  constructor <;> nlinarith

theorem interpSorted_mem (pts : List (K × K)) (x v a b : K) (hhead : ∀ q, pts.head? = some q → q.1 < x)
    (h : interpSorted pts x = some v) (ha : ∀ q ∈ pts, a ≤ q.2) (hb : ∀ q ∈ pts, q.2 ≤ b) : a ≤ v ∧ v ≤ b := by
  induction pts with
  | nil => simp [interpSorted] at h
  | cons p rest ih =>
    cases rest with
    | nil => simp [interpSorted] at h
    | cons q rest =>
      unfold interpSorted at h
      split_ifs at h with hx
      · have h' := Option.some.inj h
        rw [← h']
        exact segment_mem _ _ _ _ _ _ _ (hhead p rfl) hx (ha p (by simp)) (ha q (by simp)) (hb p (by simp)) (hb q (by simp))
      · refine ih ?_ h (fun r hr => ha r (List.mem_cons_of_mem _ hr)) (fun r hr => hb r (List.mem_cons_of_mem _ hr))
        intro r hr
        simp only [List.head?_cons, Option.some.injEq] at hr
        rw [← hr]; exact not_le.1 hx

instance : Std.Total (fun a b : K × K => a.1 ≤ b.1) := ⟨fun a b => le_total _ _⟩
instance : IsTrans (K × K) (fun a b => a.1 ≤ b.1) := ⟨fun _ _ _ h1 h2 => le_trans h1 h2⟩

theorem interp1d_mem (pts : List (K × K)) (x v a b lo : K) (hlo : lo ∈ pts.map Prod.fst) (hx : lo < x)
    (h : interp1d pts x = some v) (ha : ∀ q ∈ pts, a ≤ q.2) (hb : ∀ q ∈ pts, q.2 ≤ b) : a ≤ v ∧ v ≤ b := by
  unfold interp1d at h
  have hperm := List.perm_insertionSort (fun a b : K × K => a.1 ≤ b.1) pts
  have hsort := List.pairwise_insertionSort (fun a b : K × K => a.1 ≤ b.1) pts
  refine interpSorted_mem _ x v a b ?_ h (fun q hq => ha q (hperm.mem_iff.1 hq)) (fun q hq => hb q (hperm.mem_iff.1 hq))
  intro q hq
  obtain ⟨r, hr, hrlo⟩ := List.mem_map.1 hlo
  have hr' := hperm.mem_iff.2 hr
  cases hs : pts.insertionSort (fun a b => a.1 ≤ b.1) with
  | nil => rw [hs] at hq; simp at hq
  | cons c rest =>
    rw [hs] at hq hr' hsort
    simp only [List.head?_cons, Option.some.injEq] at hq
    subst hq
    rcases List.mem_cons.1 hr' with rfl | hmem
    · rw [hrlo]; exact hx
    · exact lt_of_le_of_lt ((List.pairwise_cons.1 hsort).1 r hmem) (hrlo ▸ hx)

theorem mem_goodPT (prof : List (Level K)) (p t : K) :
    (p, t) ∈ goodPT prof ↔ ∃ l ∈ prof, l.pres = some p ∧ l.ptmp = some t := by
  unfold goodPT
  rw [List.mem_filterMap]
  constructor
  · rintro ⟨l, hl, h⟩
    refine ⟨l, hl, ?_⟩
    cases hp : l.pres <;> cases ht : l.ptmp <;> rw [hp, ht] at h <;> simp_all
  · rintro ⟨l, hl, hp, ht⟩
    exact ⟨l, hl, by rw [hp, ht]⟩

/-- An interpolated temperature: pressure strictly inside the profile and value between any bounds of the profile's temperatures. -/
theorem interpT_some {p v : K} {prof : List (Level K)} (h : interpT p prof = some v) :
    (∃ l ∈ prof, ∃ q, l.pres = some q ∧ q < p) ∧
    (∀ a b, (∀ l ∈ prof, ∀ t, l.ptmp = some t → a ≤ t ∧ t ≤ b) → a ≤ v ∧ v ≤ b) := by
  unfold interpT at h
  simp only at h
  cases hmin : ((goodPT prof).map Prod.fst).min? with
  | none => rw [hmin] at h; simp at h
  | some lo =>
    cases hmax : ((goodPT prof).map Prod.fst).max? with
    | none => rw [hmin, hmax] at h; simp at h
    | some hi =>
      rw [hmin, hmax] at h
      simp only at h
      split_ifs at h with hc
      have hlo := (List.min?_eq_some_iff.1 hmin).1
      constructor
      · obtain ⟨⟨q, t⟩, hq, hqlo⟩ := List.mem_map.1 hlo
        obtain ⟨l, hl, hp, _⟩ := (mem_goodPT prof q t).1 hq
        exact ⟨l, hl, q, hp, by simp only at hqlo; rw [hqlo]; exact hc.2⟩
      · intro a b hab
        refine interp1d_mem (goodPT prof) p v a b lo hlo hc.2 h ?_ ?_
        · rintro ⟨q, t⟩ hq
          obtain ⟨l, hl, _, ht⟩ := (mem_goodPT prof q t).1 hq
          exact (hab l hl t ht).1
        · rintro ⟨q, t⟩ hq
          obtain ⟨l, hl, _, ht⟩ := (mem_goodPT prof q t).1 hq
          exact (hab l hl t ht).2

theorem thetaLevel_mem {data : List (List (Level K))} {p th a b : K} (h : thetaLevel data p = some th)
    (hab : ∀ prof ∈ data, ∀ l ∈ prof, ∀ t, l.ptmp = some t → a ≤ t ∧ t ≤ b) : a ≤ th ∧ th ≤ b := by
  unfold thetaLevel at h
  refine nanmean_mem h ?_ ?_
  · intro v hv
    obtain ⟨prof, hp, hi⟩ := List.mem_map.1 hv
    exact ((interpT_some hi).2 a b (hab prof hp)).1
  · intro v hv
    obtain ⟨prof, hp, hi⟩ := List.mem_map.1 hv
    exact ((interpT_some hi).2 a b (hab prof hp)).2

theorem interpSorted_linear (pts : List (K × K)) (x : K) (hsort : pts.Pairwise fun a b => a.1 ≤ b.1)
    (hhead : ∀ q, pts.head? = some q → q.1 < x) (hlast : ∃ q ∈ pts, x < q.1) :
    ∃ v q1 q2, interpSorted pts x = some v ∧ q1 ∈ pts ∧ q2 ∈ pts ∧ q1.1 < x ∧ x ≤ q2.1 ∧
      (∀ q ∈ pts, q.1 ≤ q1.1 ∨ q2.1 ≤ q.1) ∧ (v - q1.2) * (q2.1 - q1.1) = (q2.2 - q1.2) * (x - q1.1) := by
  induction pts with
  | nil => obtain ⟨q, hq, _⟩ := hlast; simp at hq
  | cons a rest ih =>
    cases rest with
    | nil =>
      obtain ⟨q, hq, hx⟩ := hlast
      have := hhead a rfl
      simp only [List.mem_cons, List.not_mem_nil, or_false] at hq
      subst hq
      exact absurd hx (not_lt.2 this.le)
    | cons b rest =>
      have ha := hhead a rfl
      have hsort2 := (List.pairwise_cons.1 hsort).2
      by_cases hx : x ≤ b.1
      · refine ⟨a.2 + (b.2 - a.2) / (b.1 - a.1) * (x - a.1), a, b, ?_, by simp, by simp, ha, hx, ?_, ?_⟩
        · obtain ⟨a1, a2⟩ := a
          obtain ⟨b1, b2⟩ := b
          unfold interpSorted
          rw [if_pos hx]
        · intro q hq
          rcases List.mem_cons.1 hq with rfl | hq
          · exact Or.inl le_rfl
          rcases List.mem_cons.1 hq with rfl | hq
          · exact Or.inr le_rfl
          · exact Or.inr ((List.pairwise_cons.1 hsort2).1 q hq)
        · have hne : b.1 - a.1 ≠ 0 := ne_of_gt (by linarith)
          field_simp
          ring
      · obtain ⟨v, q1, q2, h1, h2, h3, h4, h5, h6, h7⟩ := ih hsort2
          (by intro q hq; simp only [List.head?_cons, Option.some.injEq] at hq; rw [← hq]; exact not_le.1 hx)
          (by
            obtain ⟨q, hq, hxq⟩ := hlast
            rcases List.mem_cons.1 hq with rfl | hq
            · exact absurd hxq (not_lt.2 ha.le)
            · exact ⟨q, hq, hxq⟩)
        refine ⟨v, q1, q2, ?_, List.mem_cons_of_mem _ h2, List.mem_cons_of_mem _ h3, h4, h5, ?_, h7⟩
        · obtain ⟨a1, a2⟩ := a
          obtain ⟨b1, b2⟩ := b
          unfold interpSorted
          rw [if_neg hx]; exact h1
        · intro q hq
          rcases List.mem_cons.1 hq with rfl | hq
          · left
            refine ((List.pairwise_cons.1 hsort).1 q1 h2)
          · exact h6 q hq

theorem interp1d_linear (pts : List (K × K)) (x : K) (hlo : ∃ q ∈ pts, q.1 < x) (hhi : ∃ q ∈ pts, x < q.1) :
    ∃ v q1 q2, interp1d pts x = some v ∧ q1 ∈ pts ∧ q2 ∈ pts ∧ q1.1 < x ∧ x ≤ q2.1 ∧
      (∀ q ∈ pts, q.1 ≤ q1.1 ∨ q2.1 ≤ q.1) ∧ (v - q1.2) * (q2.1 - q1.1) = (q2.2 - q1.2) * (x - q1.1) := by
  unfold interp1d
  have hperm := List.perm_insertionSort (fun a b : K × K => a.1 ≤ b.1) pts
  have hsort := List.pairwise_insertionSort (fun a b : K × K => a.1 ≤ b.1) pts
  obtain ⟨v, q1, q2, h1, h2, h3, h4, h5, h6, h7⟩ := interpSorted_linear _ x hsort
    (by
      intro q hq
      obtain ⟨r, hr, hrx⟩ := hlo
      have hr' := hperm.mem_iff.2 hr
      cases hs : pts.insertionSort (fun a b => a.1 ≤ b.1) with
      | nil => rw [hs] at hq; simp at hq
      | cons c rest =>
        rw [hs] at hq hr' hsort
        simp only [List.head?_cons, Option.some.injEq] at hq
        subst hq
        rcases List.mem_cons.1 hr' with rfl | hmem
        · exact hrx
        · exact lt_of_le_of_lt ((List.pairwise_cons.1 hsort).1 r hmem) hrx)
    (by obtain ⟨q, hq, hx⟩ := hhi; exact ⟨q, hperm.mem_iff.2 hq, hx⟩)
  exact ⟨v, q1, q2, h1, hperm.mem_iff.1 h2, hperm.mem_iff.1 h3, h4, h5, fun q hq => h6 q (hperm.mem_iff.2 hq), h7⟩

theorem mem_goodPT_mask (B : Bounds K) (prof : List (Level K)) (p t : K) :
    (p, t) ∈ goodPT (prof.map (mask B)) ↔ Point B prof p t := by
  rw [mem_goodPT]
  unfold Point
  constructor
  · rintro ⟨l, hl, hp, ht⟩
    obtain ⟨l0, hl0, rfl⟩ := List.mem_map.1 hl
    obtain ⟨hu, hp0⟩ := (mask_pres B l0 p).1 hp
    exact ⟨l0, hl0, hu, hp0, ((mask_ptmp B l0 t).1 ht).2⟩
  · rintro ⟨l0, hl0, hu, hp, ht⟩
    exact ⟨mask B l0, List.mem_map_of_mem hl0, (mask_pres B l0 p).2 ⟨hu, hp⟩, (mask_ptmp B l0 t).2 ⟨hu, ht⟩⟩

theorem interpT_inside (B : Bounds K) (prof : List (Level K)) (p : K) (h : StrictlyInside B prof p) :
    ∃ v, interpT p (prof.map (mask B)) = some v ∧ LinearAt B prof p v := by
  obtain ⟨⟨q, t, hq, hqp⟩, ⟨q', t', hq', hqp'⟩⟩ := h
  rw [← mem_goodPT_mask] at hq hq'
  obtain ⟨v, q1, q2, h1, h2, h3, h4, h5, h6, h7⟩ :=
    interp1d_linear (goodPT (prof.map (mask B))) p ⟨_, hq, hqp⟩ ⟨_, hq', hqp'⟩
  refine ⟨v, ?_, q1.1, q1.2, q2.1, q2.2, (mem_goodPT_mask B prof _ _).1 h2, (mem_goodPT_mask B prof _ _).1 h3, h4, h5,
    fun r u hr => h6 (r, u) ((mem_goodPT_mask B prof _ _).2 hr), h7⟩
  unfold interpT
  simp only
  have m1 : q ∈ (goodPT (prof.map (mask B))).map Prod.fst := List.mem_map_of_mem hq
  have m2 : q' ∈ (goodPT (prof.map (mask B))).map Prod.fst := List.mem_map_of_mem hq'
  cases hmin : ((goodPT (prof.map (mask B))).map Prod.fst).min? with
  | none => rw [List.min?_eq_none_iff] at hmin; rw [hmin] at m1; simp at m1
  | some lo =>
    cases hmax : ((goodPT (prof.map (mask B))).map Prod.fst).max? with
    | none => rw [List.max?_eq_none_iff] at hmax; rw [hmax] at m1; simp at m1
    | some hi =>
      simp only
      rw [if_pos]
      · exact h1
      · exact ⟨lt_of_lt_of_le hqp' ((List.max?_eq_some_iff.1 hmax).2 _ m2),
          lt_of_le_of_lt ((List.min?_eq_some_iff.1 hmin).2 _ m1) hqp⟩

theorem interpT_outside (B : Bounds K) (prof : List (Level K)) (p : K) (h : ¬ StrictlyInside B prof p) :
    interpT p (prof.map (mask B)) = none := by
  unfold interpT
  simp only
  cases hmin : ((goodPT (prof.map (mask B))).map Prod.fst).min? with
  | none => simp
  | some lo =>
    cases hmax : ((goodPT (prof.map (mask B))).map Prod.fst).max? with
    | none => simp
    | some hi =>
      simp only
      rw [if_neg]
      intro hc
      apply h
      obtain ⟨⟨q, t⟩, hq, e⟩ := List.mem_map.1 (List.min?_eq_some_iff.1 hmin).1
      obtain ⟨⟨q', t'⟩, hq', e'⟩ := List.mem_map.1 (List.max?_eq_some_iff.1 hmax).1
      exact ⟨⟨q, t, (mem_goodPT_mask B prof _ _).1 hq, by simp only at e; rw [e]; exact hc.2⟩,
        ⟨q', t', (mem_goodPT_mask B prof _ _).1 hq', by simp only at e'; rw [e']; exact hc.1⟩⟩

/-- A theta level at the least pressure does not exist. -/
theorem thetaLevel_min_none (data : List (List (Level K))) (p : K)
    (h : ∀ prof ∈ data, ∀ l ∈ prof, ∀ q, l.pres = some q → p ≤ q) : thetaLevel data p = none := by
  have hall : ∀ prof ∈ data, interpT p prof = none := by
    intro prof hp
    cases hi : interpT p prof with
    | none => rfl
    | some v =>
      obtain ⟨⟨l, hl, q, hq, hlt⟩, _⟩ := interpT_some hi
      exact absurd (h prof hp l hl q hq) (not_le.2 hlt)
  unfold thetaLevel nanmean
  simp only
  rw [if_pos]
  rw [List.filterMap_eq_nil_iff]
  intro a ha
  obtain ⟨prof, hp, rfl⟩ := List.mem_map.1 ha
  exact hall prof hp

theorem arange_mem {a b s v : K} (hs : 0 < s) (h : v ∈ arange a b s) : a ≤ v ∧ v < b := by
  unfold arange at h
  rw [List.mem_map] at h
  obtain ⟨i, hi, rfl⟩ := h
  rw [List.mem_range] at hi
  have h1 : (i : ℤ) < ⌈(b - a) / s⌉ := by omega
  have h2 : ((i : ℤ) : K) < (b - a) / s := Int.lt_ceil.1 h1
  rw [lt_div_iff₀ hs] at h2
  push_cast at h2
  constructor
  · have : (0 : K) ≤ (i : K) := Nat.cast_nonneg i
    nlinarith
  · linarith

theorem arange_head {a b s : K} {v : K} (h : (arange a b s)[0]? = some v) : v = a := by
  unfold arange at h
  rw [List.getElem?_map, Option.map_eq_some_iff] at h
  obtain ⟨i, hi, rfl⟩ := h
  obtain ⟨h0, hi'⟩ := List.getElem?_eq_some_iff.1 hi
  rw [List.getElem_range] at hi'
  simp [← hi']

/-- What `pres_levels` are: from the least usable pressure, below the greatest. -/
theorem presLevels_ok {data : List (List (Level K))} {pl : List K} (h : presLevels data = .ok pl) :
    ∃ lo hi : K, (∃ l ∈ data.flatten, l.pres = some lo) ∧ (∀ l ∈ data.flatten, ∀ q, l.pres = some q → lo ≤ q ∧ q ≤ hi) ∧
      (∃ l ∈ data.flatten, l.pres = some hi) ∧ (∀ p ∈ pl, lo ≤ p ∧ p < hi) ∧ (∀ p, pl[0]? = some p → p = lo) := by
  unfold presLevels at h
  cases h1 : nanmin (data.flatten.map Level.ptmp) with
  | none => rw [h1] at h; simp at h
  | some tlo =>
    cases h2 : nanmax (data.flatten.map Level.ptmp) with
    | none => rw [h1, h2] at h; simp at h
    | some thi =>
      rw [h1, h2] at h
      simp only at h
      split_ifs at h with hth
      cases h3 : nanmin (data.flatten.map Level.pres) with
      | none => rw [h3] at h; simp at h
      | some lo =>
        cases h4 : nanmax (data.flatten.map Level.pres) with
        | none => rw [h3, h4] at h; simp at h
        | some hi =>
          rw [h3, h4] at h
          simp only at h
          obtain ⟨m1, m2⟩ := nanmin_some h3
          obtain ⟨m3, m4⟩ := nanmax_some h4
          have hbound : ∀ l ∈ data.flatten, ∀ q, l.pres = some q → lo ≤ q ∧ q ≤ hi := by
            intro l hl q hq
            have : some q ∈ data.flatten.map Level.pres := List.mem_map.2 ⟨l, hl, hq⟩
            exact ⟨m2 q this, m4 q this⟩
          obtain ⟨l1, hl1, e1⟩ := List.mem_map.1 m1
          obtain ⟨l2, hl2, e2⟩ := List.mem_map.1 m3
          have hle : lo ≤ hi := (hbound l1 hl1 lo e1).2
          refine ⟨lo, hi, ⟨l1, hl1, e1⟩, hbound, ⟨l2, hl2, e2⟩, ?_⟩
          split_ifs at h with hlen hinc
          · have h' := Except.ok.inj h
            rw [← h']
            have hpos : (0 : K) < (⌊(hi - lo) / 10⌋ : K) := by
              have h0 : (0 : ℤ) ≤ ⌊(hi - lo) / 10⌋ := Int.floor_nonneg.2 (div_nonneg (by linarith) (by norm_num))
              have h1 : ⌊(hi - lo) / 10⌋ ≠ 0 := by
                intro hz; apply hinc; rw [hz]; simp
              have : (0 : ℤ) < ⌊(hi - lo) / 10⌋ := lt_of_le_of_ne h0 (Ne.symm h1)
              exact_mod_cast this
            exact ⟨fun p hp => arange_mem hpos hp, fun p hp => arange_head hp⟩
          · have h' := Except.ok.inj h
            rw [← h']
            exact ⟨fun p hp => arange_mem (by norm_num) hp, fun p hp => arange_head hp⟩

theorem find10thetas_ok {B : Bounds K} {percent : K} {data0 : List (List (Level K))} {r : Thetas K}
    (h : find10thetas B percent data0 = .ok r) :
    ∃ pl rows, presLevels (data0.map fun prof => prof.map (mask B)) = .ok pl ∧
      (pl.map (thetaLevel (data0.map fun prof => prof.map (mask B)))).mapM
        (salRow (data0.map fun prof => prof.map (mask B))) = .ok rows ∧
      r.thetaLevels = pl.map (thetaLevel (data0.map fun prof => prof.map (mask B))) ∧
      r.varSalTheta = filteredVar percent rows ∧
      r.tLevels = (select 10 (filteredVar percent rows)).map (fun (i : ℕ) => (r.thetaLevels[i]?).join) ∧
      r.pLevels = (select 10 (filteredVar percent rows)).map (fun (i : ℕ) => pl[i]?) ∧
      r.index = (select 10 (filteredVar percent rows)).map (fun (i : ℕ) =>
        (data0.map fun prof => prof.map (mask B)).map (thetaIndex (r.thetaLevels[i]?).join)) := by
  unfold find10thetas at h
  simp only [bind, Except.bind] at h
  cases h1 : presLevels (data0.map fun prof => prof.map (mask B)) with
  | error e => rw [h1] at h; simp at h
  | ok pl =>
    rw [h1] at h
    simp only at h
    cases h2 : (pl.map (thetaLevel (data0.map fun prof => prof.map (mask B)))).mapM
        (salRow (data0.map fun prof => prof.map (mask B))) with
    | error e => rw [h2] at h; simp at h
    | ok rows =>
      rw [h2] at h
      simp only [pure, Except.pure, Except.ok.injEq] at h
      subst h
      exact ⟨pl, rows, rfl, h2, rfl, rfl, rfl, rfl, rfl⟩

end Verif.Thetas
