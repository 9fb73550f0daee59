import Verif.Lemmas.SalVar

/-!
# The salinities `find_10thetas` uses on the theta levels (C19, C63)
-/

set_option linter.unusedSectionVars false

namespace Verif.Props

open Verif.Np Verif.Spec Verif.Thetas

variable {K : Type} [Field K] [LinearOrder K] [IsStrictOrderedRing K] [FloorRing K]

theorem tempAt_mask (B : Bounds K) (prof : List (Level K)) (i : ℕ) (t : K) :
    SalVar.tempAt (prof.map (mask B)) i = some t ↔ UsableTemp B prof i t := by
  unfold SalVar.tempAt UsableTemp
  rw [List.getElem?_map, Option.bind_eq_some_iff]
  constructor
  · rintro ⟨l, hl, ht⟩
    obtain ⟨x, hx, rfl⟩ := Option.map_eq_some_iff.1 hl
    exact ⟨x, hx, (mask_ptmp B x t).1 ht⟩
  · rintro ⟨x, hx, h⟩
    exact ⟨mask B x, by rw [hx]; rfl, (mask_ptmp B x t).2 h⟩

theorem salAt_mask (B : Bounds K) (prof : List (Level K)) (i : ℕ) (s : K) :
    (prof.map (mask B))[i]?.bind Level.sal = some s ↔ UsableSal B prof i s := by
  unfold UsableSal
  rw [List.getElem?_map, Option.bind_eq_some_iff]
  constructor
  · rintro ⟨l, hl, ht⟩
    obtain ⟨x, hx, rfl⟩ := Option.map_eq_some_iff.1 hl
    exact ⟨x, hx, (mask_sal B x s).1 ht⟩
  · rintro ⟨x, hx, h⟩
    exact ⟨mask B x, by rw [hx]; rfl, (mask_sal B x s).2 h⟩

theorem temps_enclose_iff (B : Bounds K) (prof : List (Level K)) (th : K) :
    TempsEnclose B prof th ↔ ∃ i, thetaIndex (some th) (prof.map (mask B)) = some i := by
  have hm : ∀ t, some t ∈ (prof.map (mask B)).map Level.ptmp ↔ ∃ r, UsableTemp B prof r t := by
    intro t
    rw [List.mem_iff_getElem?]
    refine exists_congr fun r => ?_
    rw [List.getElem?_map, Option.map_eq_some_iff, ← tempAt_mask]
    unfold SalVar.tempAt
    rw [Option.bind_eq_some_iff]
  constructor
  · rintro ⟨⟨r1, t1, a, a4⟩, r2, t2, b, b4⟩
    have m1 := (hm t1).2 ⟨r1, a⟩
    have m2 := (hm t2).2 ⟨r2, b⟩
    unfold thetaIndex
    cases e1 : nanmin ((prof.map (mask B)).map Level.ptmp) with
    | none => have := nanmin_none e1 _ m1; simp at this
    | some lo =>
      cases e2 : nanmax ((prof.map (mask B)).map Level.ptmp) with
      | none => have := nanmax_none e2 _ m1; simp at this
      | some hi =>
        have hlo := (nanmin_some e1).2 t1 m1
        have hhi := (nanmax_some e2).2 t2 m2
        simp only
        rw [if_pos ⟨by linarith, by linarith⟩]
        obtain ⟨m, hm, hme⟩ := List.mem_map.1 m1
        exact nanArgmin_isSome (v := |t1 - th|) (List.mem_map.2 ⟨m, hm, by rw [hme]; rfl⟩)
  · rintro ⟨i, hi⟩
    obtain ⟨th', lo, hi', t, l, e, h1, h2, h3, h4, -⟩ := thetaIndex_some hi
    obtain rfl := Option.some.inj e
    obtain ⟨r1, a⟩ := (hm lo).1 (nanmin_some h1).1
    obtain ⟨r2, b⟩ := (hm hi').1 (nanmax_some h2).1
    exact ⟨⟨r1, lo, a, h3⟩, r2, hi', b, h4⟩

/-- The salinity of one profile on one level, in terms of its usable cells. -/
theorem salOn_spec (B : Bounds K) (prof : List (Level K)) (th : K) (s : Option K)
    (h : salOn (some th) (prof.map (mask B)) = .ok s) : SalinityOn B prof th s := by
  unfold salOn at h
  cases hidx : thetaIndex (some th) (prof.map (mask B)) with
  | none =>
    rw [hidx] at h
    simp only [Except.ok.injEq] at h
    refine ⟨fun _ => h.symm, fun he => ?_⟩
    obtain ⟨i, hi⟩ := (temps_enclose_iff B prof th).1 he
    rw [hidx] at hi; simp at hi
  | some i =>
    refine ⟨fun hne => absurd ((temps_enclose_iff B prof th).2 ⟨i, hidx⟩) hne, fun _ => ?_⟩
    obtain ⟨th', lo, hi', t, l, e, h1, h2, h3, h4, hl, ht, hmin, hfirst⟩ := thetaIndex_some hidx
    obtain rfl := Option.some.inj e
    have hti : SalVar.tempAt (prof.map (mask B)) i = some t := by
      unfold SalVar.tempAt; rw [hl]; exact ht
    have hut := (tempAt_mask B prof i t).1 hti
    have near : NearestCell B prof th i t := by
      refine ⟨hut, fun j u hj => ?_⟩
      obtain ⟨lj, a1, a2⟩ := Option.bind_eq_some_iff.1 ((tempAt_mask B prof j u).2 hj)
      exact ⟨hmin j lj u a1 a2, fun hji => hfirst j lj u hji a1 a2⟩
    refine ⟨i, t, near, ?_⟩
    have hlen : (prof.map (mask B)).length = prof.length := by simp
    have hside : ∀ j u, SalVar.Side (prof.map (mask B)) i t th j u ↔ AcrossCell B prof th i t j u := by
      intro j u
      unfold SalVar.Side AcrossCell
      rw [neighbours_mem, tempAt_mask, hlen]
      constructor
      · rintro ⟨⟨-, n2, n3⟩, hy, hs⟩
        have hnear := (near.2 j u hy).1
        refine ⟨?_, hy, ?_⟩
        · by_contra hc
          have : j = i := by omega
          subst this
          have : u = t := by
            have := (tempAt_mask B prof j u).2 hy
            rw [hti] at this
            exact (Option.some.inj this).symm
          subst this
          rcases hs with hs | hs <;> exact absurd hs.2 (lt_irrefl _)
        · rcases hs with ⟨s1, s2⟩ | ⟨s1, s2⟩
          · refine Or.inl ⟨?_, s1⟩
            by_contra hc
            rw [abs_of_pos (by linarith), abs_of_nonneg (by linarith)] at hnear
            linarith
          · refine Or.inr ⟨s1, ?_⟩
            by_contra hc
            rw [abs_of_neg (by linarith), abs_of_nonpos (by linarith)] at hnear
            linarith
      · rintro ⟨ha, hy, hs⟩
        have : j < prof.length := by
          obtain ⟨y, hy, -⟩ := hy
          exact (List.getElem?_eq_some_iff.1 hy).1
        refine ⟨⟨this, by omega, by omega⟩, hy, ?_⟩
        rcases hs with hs | hs
        · exact Or.inl ⟨hs.2, by linarith⟩
        · exact Or.inr ⟨hs.1, by linarith⟩
    have hsi : ∀ a, l.sal = some a ↔ UsableSal B prof i a := by
      intro a
      rw [← salAt_mask, hl]; rfl
    have hnone : l.sal = none → ∀ a, ¬ UsableSal B prof i a := by
      intro hn a ha
      rw [← hsi, hn] at ha; simp at ha
    have alone : l.sal = s → ∀ a, s = some a ↔ UsableSal B prof i a := by
      rintro rfl a; exact hsi a
    rw [hidx] at h
    simp only [hl, ht] at h
    split at h
    · rename_i k hk
      rcases SalVar.kIndex_single hti hk with ⟨rfl, hno⟩ | ⟨hki, u, hsk, hbest⟩
      · simp only [ne_eq, not_true_eq_false, if_false, Except.ok.injEq] at h
        exact Or.inr ⟨fun k2 t2 ha => absurd ((hside k2 t2).2 ha) (hno k2 t2), alone h⟩
      · rw [if_pos hki] at h
        have hy := (hside k u).1 hsk
        have hpart : PartnerCell B prof th i t k u := ⟨hy, fun k3 t3 ha => hbest k3 t3 ((hside k3 t3).2 ha)⟩
        have hkt : (prof.map (mask B))[k]?.bind Level.ptmp = some u := (tempAt_mask B prof k u).2 hy.2.1
        rw [hkt] at h
        cases hgx : l.sal with
        | none =>
          rw [hgx] at h
          simp only [Except.ok.injEq] at h
          exact Or.inr ⟨fun _ _ _ => Or.inl (hnone hgx), alone (by rw [hgx]; exact h)⟩
        | some a =>
          cases hgy : (prof.map (mask B))[k]?.bind Level.sal with
          | none =>
            rw [hgx, hgy] at h
            simp only [Except.ok.injEq] at h
            refine Or.inr ⟨fun _ _ _ => Or.inr ⟨k, u, hpart, fun b hb => ?_⟩, alone (by rw [hgx]; exact h)⟩
            rw [← salAt_mask, hgy] at hb; simp at hb
          | some b =>
            rw [hgx, hgy] at h
            simp only [Except.ok.injEq] at h
            refine Or.inl ⟨k, u, a, b, _, hpart, (hsi a).1 hgx, (salAt_mask B prof k b).1 hgy, h.symm, ?_⟩
            have hne : t - u ≠ 0 := by
              rcases hy.2.2 with hs | hs
              · exact sub_ne_zero.2 (by linarith : u < t).ne'
              · exact sub_ne_zero.2 (by linarith : t < u).ne
            field_simp
            ring
    · simp at h

/-- C19, the variances. The variances returned are those of the salinities of the profiles on the theta levels. -/
theorem thetas_variance (B : Bounds K) (percent : K) (data : List (List (Level K))) (r : Thetas K)
    (h : find10thetas B percent data = .ok r) :
    ∃ rows, SalinityTable B data r.thetaLevels rows ∧ RowVariances percent rows r.varSalTheta := by
  obtain ⟨rows, h1, h2, h3⟩ := thetas_variance_rows B percent data r h
  refine ⟨rows, ⟨h1, fun i row hr => ?_⟩, ?_, h3⟩
  · obtain ⟨a, b⟩ := h2 i row hr
    refine ⟨a, fun d prof hd => ?_⟩
    obtain ⟨s, hs, hs2⟩ := b d prof hd
    refine ⟨s, hs, fun hn => ?_, fun th hth => ?_⟩
    · rw [hn] at hs2
      exact (Except.ok.inj hs2).symm
    · rw [hth] at hs2
      exact salOn_spec B prof th s hs2
  · obtain ⟨pl, rows', e1, e2, e3, e4, -⟩ := find10thetas_ok h
    rw [h1, e3, e4]
    have := (mapM_getElem e2).1
    simp [filteredVar, this]

theorem add_div_eq_iff {b x d s : K} (hd : 0 < d) : b + x / d = s ↔ b * d + x = s * d := by
  rw [eq_comm, ← sub_eq_iff_eq_add', eq_div_iff hd.ne']
  constructor <;> intro h <;> linarith

/-- A salinity on a level is measured, or between two measured ones. -/
theorem salinityOn_between (B : Bounds K) (prof : List (Level K)) (th s : K) (h : SalinityOn B prof th (some s)) :
    ∃ i a, UsableSal B prof i a ∧ (s = a ∨ ∃ k b ti tk, UsableSal B prof k b ∧ UsableTemp B prof i ti ∧ UsableTemp B prof k tk ∧
      (k = i + 1 ∨ i = k + 1) ∧ min ti tk < th ∧ th < max ti tk ∧ min a b ≤ s ∧ s ≤ max a b) := by
  obtain ⟨h1, h2⟩ := h
  by_cases he : TempsEnclose B prof th
  · obtain ⟨i, t, hn, ⟨k, tk, a, b, v, hp, ha, hb, hv, heq⟩ | ⟨-, hs⟩⟩ := h2 he
    · obtain rfl := Option.some.inj hv
      refine ⟨i, a, ha, Or.inr ⟨k, b, t, tk, hb, hn.1, hp.1.2.1, hp.1.1, ?_⟩⟩
      have hside := hp.1.2.2
      have hw : ∃ w, 0 ≤ w ∧ w ≤ 1 ∧ s = b + (a - b) * w := by
        rcases hside with ⟨s1, s2⟩ | ⟨s1, s2⟩
        · have hpos : 0 < t - tk := by linarith
          refine ⟨(th - tk) / (t - tk), div_nonneg (by linarith) hpos.le, by rw [div_le_one hpos]; linarith, ?_⟩
          have : s * (t - tk) = b * (t - tk) + (a - b) * (th - tk) := by linarith
          rw [← mul_div_assoc, eq_comm, add_div_eq_iff hpos]
          exact this.symm
        · have hpos : 0 < tk - t := by linarith
          refine ⟨(tk - th) / (tk - t), div_nonneg (by linarith) hpos.le, by rw [div_le_one hpos]; linarith, ?_⟩
          have : s * (tk - t) = b * (tk - t) + (a - b) * (tk - th) := by linarith
          rw [← mul_div_assoc, eq_comm, add_div_eq_iff hpos]
          exact this.symm
      obtain ⟨w, w0, w1, rfl⟩ := hw
      obtain ⟨c1, c2⟩ := convex_between a b w w0 w1
      refine ⟨?_, ?_, c1, c2⟩
      · rcases hside with ⟨s1, s2⟩ | ⟨s1, s2⟩
        · exact lt_of_le_of_lt (min_le_right _ _) s1
        · exact lt_of_le_of_lt (min_le_left _ _) s1
      · rcases hside with ⟨s1, s2⟩ | ⟨s1, s2⟩
        · exact lt_of_lt_of_le s2 (le_max_left _ _)
        · exact lt_of_lt_of_le s2 (le_max_right _ _)
    · exact ⟨i, s, (hs s).1 rfl, Or.inl rfl⟩
  · have := h1 he; simp at this

/-- C63. Of the salinities whose variances are returned, each is a measured salinity of a usable cell, or lies between the measured
salinities of two usable, adjacent cells whose temperatures enclose the level: nothing is extrapolated. -/
theorem thetas_salinity_between (B : Bounds K) (percent : K) (data : List (List (Level K))) (r : Thetas K)
    (h : find10thetas B percent data = .ok r) :
    ∃ rows, SalinityTable B data r.thetaLevels rows ∧ RowVariances percent rows r.varSalTheta ∧
      ∀ (n : ℕ) (row : List (Option K)) (d : ℕ) (prof : List (Level K)) (s : K), rows[n]? = some row → row[d]? = some (some s) →
        data[d]? = some prof → ∃ th, r.thetaLevels[n]? = some (some th) ∧
          ∃ i a, UsableSal B prof i a ∧ (s = a ∨ ∃ k b ti tk, UsableSal B prof k b ∧ UsableTemp B prof i ti ∧ UsableTemp B prof k tk ∧
            (k = i + 1 ∨ i = k + 1) ∧ min ti tk < th ∧ th < max ti tk ∧ min a b ≤ s ∧ s ≤ max a b) := by
  obtain ⟨rows, h1, h2⟩ := thetas_variance B percent data r h
  refine ⟨rows, h1, h2, fun n row d prof s hn hd hp => ?_⟩
  obtain ⟨hl, hr⟩ := h1
  obtain ⟨-, hb⟩ := hr n row hn
  obtain ⟨s', hs', hnone, hsome⟩ := hb d prof hp
  rw [hd] at hs'
  obtain rfl := Option.some.inj hs'
  have hlt : n < r.thetaLevels.length := by rw [← hl]; exact (List.getElem?_eq_some_iff.1 hn).1
  cases hth : r.thetaLevels[n] with
  | none =>
    have := hnone (by rw [List.getElem?_eq_getElem hlt, hth])
    simp at this
  | some th =>
    have e : r.thetaLevels[n]? = some (some th) := by rw [List.getElem?_eq_getElem hlt, hth]
    exact ⟨th, e, salinityOn_between B prof th s (hsome th e)⟩

/-- Two profiles, of salinities 34 to 35 and 34 to 36, between 0 and 10 degrees: the call returns and a level of known variance is found, so the table has
salinities. -/
def exProfile2 : List (Level ℚ) := [⟨some 0, some 34, some 0, some 0⟩, ⟨some 1000, some 36, some 10, some 10⟩]

example : ∃ r, find10thetas (⟨some 10, some 0, none, none⟩ : Bounds ℚ) (1 / 2) [exProfile, exProfile2] = .ok r ∧
    r.varSalTheta[1]? = some (some (1 / 800)) ∧ r.thetaLevels[1]? = some (some (1 / 2)) := by
  have h : (match find10thetas (⟨some 10, some 0, none, none⟩ : Bounds ℚ) (1 / 2) [exProfile, exProfile2] with
      | .ok r => decide (r.varSalTheta[1]? = some (some (1 / 800)) ∧ r.thetaLevels[1]? = some (some (1 / 2)))
      | .error _ => false) = true := by decide +kernel
  cases hr : find10thetas (⟨some 10, some 0, none, none⟩ : Bounds ℚ) (1 / 2) [exProfile, exProfile2] with
  | error e => rw [hr] at h; simp at h
  | ok r =>
    rw [hr] at h
    exact ⟨r, rfl, by simpa using h⟩

end Verif.Props
