import Verif.Model.Calseries
import Verif.Spec.Calseries
import Verif.Lemmas.Np
import Verif.Lemmas.Update

/-! # Lemmas about the model of `set_calseries` -/

set_option linter.unusedSectionVars false

namespace Verif.Calseries

open Verif.Np Verif.Spec

variable {K : Type} [Field K] [LinearOrder K] [IsStrictOrderedRing K]

theorem missingIndex_nil (calibNo no : List K) : (missingIndex calibNo no).length = 0 ↔ ∀ v ∈ no, v ∈ calibNo := by
  unfold missingIndex
  rw [argwhere_length, List.countP_eq_zero]
  refine forall_congr' fun v => forall_congr' fun _ => ?_
  rw [decide_eq_true_iff, argwhere_length, List.countP_eq_zero]
  constructor
  · intro h
    by_contra hc
    exact h fun c hcm => by
      rw [decide_eq_true_iff]; rintro rfl; exact hc hcm
  · intro h hc
    exact hc v h (by simp)

theorem hasData_ok (m : List (List (Option K))) (i : ℕ) (h : i < m.length) :
    ∃ b, hasData m i = .ok b ∧ (b = true ↔ ∃ col, m[i]? = some col ∧ ∃ v, some v ∈ col) := by
  unfold hasData
  rw [List.getElem?_eq_getElem h]
  refine ⟨_, rfl, ?_⟩
  rw [decide_eq_true_iff, argwhere_length, ne_eq, List.countP_eq_zero]
  push Not
  constructor
  · rintro ⟨a, ha, hs⟩
    obtain ⟨v, rfl⟩ := Option.isSome_iff_exists.1 hs
    exact ⟨_, rfl, v, ha⟩
  · rintro ⟨col, hcol, v, hv⟩
    obtain rfl := Option.some.inj hcol
    exact ⟨_, hv, rfl⟩

open Classical in
theorem flagStep_ok (src : FloatSource K) (hw : WellFormedSource src) (cal : List K) (i : ℕ) (hi : i < src.no.length)
    (hc : i < cal.length) : flagStep src cal i = .ok (if HasGoodData src i then cal else cal.set i 0) := by
  obtain ⟨h1, h2, h3⟩ := hw
  obtain ⟨s, hs, hs'⟩ := hasData_ok src.sal i (by omega)
  obtain ⟨t, ht, ht'⟩ := hasData_ok src.temp i (by omega)
  obtain ⟨p, hp, hp'⟩ := hasData_ok src.pres i (by omega)
  unfold flagStep
  rw [hs, ht, hp]
  simp only [bind, Except.bind, hc, if_true, pure, Except.pure]
  have hg : HasGoodData src i ↔ s = true ∧ t = true ∧ p = true := by
    unfold HasGoodData; rw [hs', ht', hp']
  by_cases hgood : HasGoodData src i
  · obtain ⟨a, b, c⟩ := hg.1 hgood
    subst a; subst b; subst c
    simp [hgood]
  · rw [if_neg hgood]
    have : s = false ∨ t = false ∨ p = false := by
      by_contra hcon
      push Not at hcon
      exact hgood (hg.2 ⟨by simpa using hcon.1, by simpa using hcon.2.1, by simpa using hcon.2.2⟩)
    rw [if_pos this]

open Classical in
theorem flagLoop_ok (src : FloatSource K) (hw : WellFormedSource src) (cal : List K) (n : ℕ) (hn : n ≤ src.no.length)
    (hc : n ≤ cal.length) : ∃ out, (List.range n).foldlM (flagStep src) cal = .ok out ∧ out.length = cal.length ∧
      ∀ i : ℕ, out[i]? = if i < n ∧ ¬ HasGoodData src i then some 0 else cal[i]? := by
  induction n with
  | zero => exact ⟨cal, rfl, rfl, fun i => by simp⟩
  | succ n ih =>
    obtain ⟨o, h1, h2, h3⟩ := ih (by omega) (by omega)
    rw [List.range_succ, List.foldlM_append, h1]
    simp only [bind, Except.bind, List.foldlM_cons, List.foldlM_nil, pure, Except.pure]
    rw [flagStep_ok src hw o n (by omega) (by omega)]
    refine ⟨_, rfl, ?_, ?_⟩
    · split <;> simp [h2]
    · intro i
      by_cases hg : HasGoodData src n
      · rw [if_pos hg, h3]
        by_cases hi : i = n
        · subst hi; simp [hg]
        · have : i < n + 1 ↔ i < n := by omega
          simp only [this]
      · rw [if_neg hg]
        by_cases hi : i = n
        · subst hi; rw [List.getElem?_set_self (by omega)]; simp [hg]
        · rw [List.getElem?_set_ne (by omega), h3]
          have : i < n + 1 ↔ i < n := by omega
          simp only [this]

theorem params_ok (src : FloatSource K) (file : Option (CalFile K)) (hf : ∀ f, file = some f → f.percent.isSome) :
    ∃ p, params src file = .ok p ∧ p.calibNo = knownNumbers src file ∧ p.calseries = knownFlags src file := by
  cases file with
  | none => exact ⟨_, rfl, rfl, by simp [knownFlags, List.map_const']⟩
  | some f =>
    obtain ⟨p, hp⟩ := Option.isSome_iff_exists.1 (hf f rfl)
    dsimp only [params]
    rw [hp]
    exact ⟨_, rfl, rfl, rfl⟩


theorem setCalseries_inv (argsort : List (Option K) → List ℕ) (src : FloatSource K) (file : Option (CalFile K)) (out : CalFile K)
    (h : setCalseries argsort src file = .ok out) :
    ∃ p no cal cal', params src file = .ok p ∧ (∀ v ∈ src.no, v ∈ p.calibNo) ∧ gather p.calibNo (argsort (p.calibNo.map some)) = .ok no ∧
      gather p.calseries (argsort (p.calibNo.map some)) = .ok cal ∧ (List.range src.no.length).foldlM (flagStep src) cal = .ok cal' ∧
      out = ⟨p.breaks, p.maxBreaks, [cal'], [no], dropMany p.thetaLt, dropMany p.thetaGt, dropMany p.presLt, dropMany p.presGt, some p.percent⟩ := by
  unfold setCalseries at h
  cases hp : params src file with
  | error e => rw [hp] at h; cases h
  | ok p =>
    rw [hp] at h
    simp only [bind, Except.bind] at h
    by_cases hm : (missingIndex p.calibNo src.no).length ≠ 0
    · rw [if_pos hm] at h; cases h
    · rw [if_neg hm] at h
      simp only [pure, Except.pure] at h
      cases hg : gather p.calibNo (argsort (p.calibNo.map some)) with
      | error e => rw [hg] at h; cases h
      | ok no =>
        rw [hg] at h
        dsimp only at h
        cases hg' : gather p.calseries (argsort (p.calibNo.map some)) with
        | error e => rw [hg'] at h; cases h
        | ok cal =>
          rw [hg'] at h
          dsimp only at h
          cases hl : (List.range src.no.length).foldlM (flagStep src) cal with
          | error e => rw [hl] at h; cases h
          | ok cal' =>
            rw [hl] at h
            exact ⟨p, no, cal, cal', rfl, (missingIndex_nil _ _).1 (not_not.1 hm), hg, hg', hl, (Except.ok.inj h).symm⟩

theorem setCalseries_intro (argsort : List (Option K) → List ℕ) (src : FloatSource K) (file : Option (CalFile K)) (p : Params K)
    (no cal cal' : List K) (hp : params src file = .ok p) (hm : ∀ v ∈ src.no, v ∈ p.calibNo)
    (hg : gather p.calibNo (argsort (p.calibNo.map some)) = .ok no) (hg' : gather p.calseries (argsort (p.calibNo.map some)) = .ok cal)
    (hl : (List.range src.no.length).foldlM (flagStep src) cal = .ok cal') :
    setCalseries argsort src file =
      .ok ⟨p.breaks, p.maxBreaks, [cal'], [no], dropMany p.thetaLt, dropMany p.thetaGt, dropMany p.presLt, dropMany p.presGt, some p.percent⟩ := by
  unfold setCalseries
  rw [hp]
  simp only [bind, Except.bind]
  rw [if_neg (not_not.2 ((missingIndex_nil _ _).2 hm))]
  simp only [pure, Except.pure, hg, hg', hl]

theorem gather_range {α : Type} (l : List α) : gather l (List.range l.length) = .ok l := by
  cases l with
  | nil => rfl
  | cons a l =>
    haveI : Inhabited α := ⟨a⟩
    rw [gather_ok _ _ fun i hi => List.mem_range.1 hi, map_getElem!_range]

theorem dropMany_idem (l : List (List K)) : dropMany (dropMany l) = dropMany l := by
  unfold dropMany
  by_cases h : l.length > 1
  · simp [h]
  · simp [h]

end Verif.Calseries
