import Verif.Props.FitCond

/-!
# More properties of `fit_cond`: when it returns, exact data, change of units, order of the data
-/

set_option linter.unusedSectionVars false

namespace Verif.Props

open Verif.Np Verif.Spec Verif.BreakFit Verif.FitCond Matrix

section

variable {n m : ℕ} (xfit : Fin (m + 1) → ℝ) (x y err : Fin (n + 1) → ℝ) (he : ∀ i, 0 < err i)
  (cov : Matrix (Fin (n + 1)) (Fin (n + 1)) ℝ) (hc : IsPosCorrelation cov) (opt : Externals)

include he

theorem finish_offset (r : ℝ) : ∀ f, f = Fitted.offset ((∑ i, (scaled x y err).w i * (scaled x y err).yf i) / ∑ i, (scaled x y err).w i) r →
    (finish 200 opt x y (scaled x y err) cov xfit f).coef = [weightedMean y err] ∧
    (∀ i, (finish 200 opt x y (scaled x y err) cov xfit f).condslope i = weightedMean y err) ∧
    ∀ i, (finish 200 opt x y (scaled x y err) cov xfit f).timeDeriv i = some 0 := by
  rintro f rfl
  have hback := offset_back x y err he
  exact ⟨by simp [finish, hback], fun i => hback, fun i => rfl⟩

include hc

/-- C68. With fewer than 5 degrees of freedom, or if only an offset is allowed, `fit_cond` always returns and reports the
error-weighted mean for every profile. -/
theorem fit_offset_when_few (k : ℤ) (hk : -1 ≤ k) (h : k = -1 ∨ effectiveNumber cov < 5) :
    ∃ fit, fitCore xfit x y err cov [.str "max_no_breaks", .int k] opt = .ok fit ∧
      fit.coef = [weightedMean y err] ∧ (∀ i, fit.condslope i = weightedMean y err) ∧ ∀ i, fit.timeDeriv i = some 0 := by
  rw [show effectiveNumber cov = ndfOf cov from rfl] at h
  have honly : ∀ nbr : ℤ, -1 ≤ nbr ∧ nbr ≤ k ∧ (nbr = -1 ∨ 2 * (nbr : ℝ) + 5 ≤ ndfOf cov) → nbr = -1 := by
    intro nbr h1
    rcases h with rfl | h
    · omega
    · rcases h1.2.2 with h' | h'
      · exact h'
      · have : (nbr : ℝ) < 0 := by linarith
        have : nbr < 0 := by exact_mod_cast this
        omega
  obtain ⟨cand, f, hcand, h1, h2, h3, h4⟩ := choice xfit x y err he cov hc k hk opt (by
    intro nbr hn
    rw [honly nbr hn]
    rintro (⟨h, -⟩ | ⟨b, h, -⟩) <;> omega)
  have hm1 : nbrOf f = -1 := honly _ h1
  have hoff := tryModel_offset (scaled x y err) (scaled_w_sum x y err he).ne' (limits (scaled x y err).xf).1
        (limits (scaled x y err).xf).2 (freeOpts k) k (plan none k (-1) (ndfOf cov)) opt
  rw [hm1, hcand, hoff] at h2
  have hf := (Except.ok.inj h2).symm
  have hd : normalDet (scaled x y err) f ≠ 0 := by rw [hf]; exact (scaled_w_sum x y err he).ne'
  rw [if_neg hd] at h4
  refine ⟨finish 200 opt x y (scaled x y err) cov xfit f, ?_, finish_offset xfit x y err he cov opt _ f hf⟩
  rw [h4, hf]

omit hc in
/-- All good data at one profile: a straight line cannot be fitted. -/
theorem singular_flat (hx : Monotone x) (h0 : ¬ x 0 < x (Fin.last n)) : singular (scaled x y err) (![] : Fin 0 → ℝ) := by
  have hall : ∀ i, (scaled x y err).xf i = (scaled x y err).xf 0 := by
    intro i
    have : x i = x 0 := le_antisymm ((hx (Fin.le_last i)).trans (not_lt.1 h0)) (hx (Fin.zero_le i))
    show (x i - xCentre x) / xScale x = (x 0 - xCentre x) / xScale x
    rw [this]
  unfold singular
  by_contra hd
  have hD := (determined_iff _ (xf_mono x y err hx) _ _ rfl (mono_one _) _ (fun i => (scaled_w_pos x y err he i).le)).2 hd
  have := (hD (fun _ => 1) (fun t => t - (scaled x y err).xf 0) (fun j t _ _ => by
    rw [show j = 0 from Fin.ext (by simp)]
    simp) (fun i _ => by rw [hall i]; ring)).2
  have := congrFun this 0
  simp at this

omit hc in
/-- A straight line can be fitted to data at two different profiles. -/
theorem noneDegenerate_line (hx : Monotone x) (h0 : x 0 < x (Fin.last n)) : NoneDegenerate x y err cov 0 opt := by
  rintro nbr hn (⟨-, h⟩ | ⟨b, h, -⟩)
  · exact linear_det x y err hx he h0 h
  · omega

/-- C69. If no break points are allowed, `fit_cond` returns if there are fewer than 5 degrees of freedom or good data at two different profiles. Else it fails. -/
theorem fit_returns_without_breaks (hx : Monotone x) :
    if effectiveNumber cov < 5 ∨ x 0 < x (Fin.last n) then ∃ fit, fitCore xfit x y err cov [.str "max_no_breaks", .int 0] opt = .ok fit
    else fitCore xfit x y err cov [.str "max_no_breaks", .int 0] opt = .error .valueError := by
  split_ifs with h
  · by_cases h5 : effectiveNumber cov < 5
    · obtain ⟨fit, hfit, -⟩ := fit_offset_when_few xfit x y err he cov hc opt 0 (by norm_num) (Or.inr h5)
      exact ⟨fit, hfit⟩
    have h0 : x 0 < x (Fin.last n) := h.resolve_left h5
    obtain ⟨cand, f, hcand, h1, h2, h3, h4⟩ := choice xfit x y err he cov hc 0 (by norm_num) opt (noneDegenerate_line x y err he cov opt hx h0)
    cases f with
    | offset a r =>
      have hd : normalDet (scaled x y err) (.offset a r) ≠ 0 := (scaled_w_sum x y err he).ne'
      rw [if_neg hd] at h4
      exact ⟨_, h4⟩
    | line b br co r =>
      have hb : b = 0 := by have := h1.2.1; simp [nbrOf] at this; exact this
      subst hb
      obtain rfl : br = ![] := Subsingleton.elim _ _
      rw [if_neg (show normalDet (scaled x y err) (.line 0 ![] co r) ≠ 0 from linear_det x y err hx he h0)] at h4
      exact ⟨_, h4⟩
  · push Not at h
    refine fitCore_degenerate xfit x y err he cov hc 0 (by norm_num) opt fun hnd => ?_
    exact hnd 0 ⟨by norm_num, le_refl _, Or.inr (by push_cast; exact (by linarith [h.1] : 2 * (0 : ℝ) + 5 ≤ effectiveNumber cov))⟩
      (Or.inl ⟨rfl, singular_flat x y err he hx (not_lt.2 h.2)⟩)

/-- Equal values are returned unchanged for every profile, if all models allowed can be fitted. -/
theorem fit_constant_aux (c : ℝ) (hy : ∀ i, y i = c) (k : ℤ) (hk : -1 ≤ k) (hnd : NoneDegenerate x y err cov k opt) :
    ∃ fit, fitCore xfit x y err cov [.str "max_no_breaks", .int k] opt = .ok fit ∧
      fit.coef = [c] ∧ (∀ i, fit.condslope i = c) ∧ ∀ i, fit.timeDeriv i = some 0 := by
  obtain ⟨cand, f, hcand, h1, h2, h3, h4⟩ := choice xfit x y err he cov hc k hk opt hnd
  have hoff := tryModel_offset (scaled x y err) (scaled_w_sum x y err he).ne' (limits (scaled x y err).xf).1
        (limits (scaled x y err).xf).2 (freeOpts k) k (plan none k (-1) (ndfOf cov)) opt
  rw [← hcand, offset_rss x y err he] at hoff
  have hS : 0 < ∑ i, 1 / err i ^ 2 := Finset.sum_pos (fun i _ => by have := he i; positivity) ⟨0, Finset.mem_univ _⟩
  have hwm : weightedMean y err = c := by
    unfold weightedMean
    have : ∑ i, y i / err i ^ 2 = c * ∑ i, 1 / err i ^ 2 := by
      rw [Finset.mul_sum]; exact Finset.sum_congr rfl fun i _ => by rw [hy i]; ring
    rw [this]; field_simp
  have hdev : deviation (fun i => 1 / err i ^ 2) x y (fun _ => weightedMean y err) = 0 := by
    unfold deviation
    exact Finset.sum_eq_zero fun i _ => by rw [hy i, hwm]; ring
  have hm1 : nbrOf f = -1 := by
    by_contra hne
    obtain ⟨g, hg, _, _, hlt⟩ := h3 (-1) ⟨le_refl _, hk, Or.inl rfl⟩
    rw [hoff] at hg
    obtain rfl := Except.ok.inj hg
    have := hlt (by have := h1.1; omega)
    rw [aic_eq_akaike_offset, akaike, if_pos hdev] at this
    exact absurd this (not_lt.2 bot_le)
  rw [hm1, hoff] at h2
  have hf := (Except.ok.inj h2).symm
  have hd : normalDet (scaled x y err) f ≠ 0 := by rw [hf]; exact (scaled_w_sum x y err he).ne'
  rw [if_neg hd] at h4
  refine ⟨finish 200 opt x y (scaled x y err) cov xfit f, ?_, ?_⟩
  · rw [h4, hf]
  · have := finish_offset xfit x y err he cov opt _ f hf
    rw [hwm] at this
    exact this

/-- Data on a straight line that is not constant, if all models allowed can be fitted. -/
theorem fit_linear_aux (hx : Monotone x) (hx0 : x 0 < x (Fin.last n)) (hxm : Monotone xfit) (h5 : 5 ≤ effectiveNumber cov)
    (p q : ℝ) (hq : q ≠ 0) (hy : ∀ i, y i = p + q * x i) (k : ℤ) (hk : 0 ≤ k) (hnd : NoneDegenerate x y err cov k opt) :
    ∃ fit, fitCore xfit x y err cov [.str "max_no_breaks", .int k] opt = .ok fit ∧
      fit.coef = [p + q * x 0, q] ∧ (∀ i, fit.timeDeriv i = some q) ∧
      (∀ i, fit.condslope i = p + q * xfit i + q * (x 0 - xfit 0)) := by
  rw [show effectiveNumber cov = ndfOf cov from rfl] at h5
  obtain ⟨cand, f, hcand, h1, h2, h3, h4⟩ := choice xfit x y err he cov hc k (by omega) opt hnd
  obtain ⟨a, c, s, hca, hsa, hlin, hmin⟩ := linear_candidate x y err hx he hx0 (limits (scaled x y err).xf).1
        (limits (scaled x y err).xf).2 (freeOpts k) k (plan none k (-1) (ndfOf cov)) opt
  rw [← hcand] at hlin
  have hoff := tryModel_offset (scaled x y err) (scaled_w_sum x y err he).ne' (limits (scaled x y err).xf).1
        (limits (scaled x y err).xf).2 (freeOpts k) k (plan none k (-1) (ndfOf cov)) opt
  rw [← hcand, offset_rss x y err he] at hoff
  have hzero : ∀ g : ℝ → ℝ, deviation (fun i => 1 / err i ^ 2) x y g = 0 ↔ ∀ i, y i = g (x i) := by
    intro g
    unfold deviation
    rw [Finset.sum_eq_zero_iff_of_nonneg (fun i _ => by have := he i; positivity)]
    constructor
    · intro h i
      have := h i (Finset.mem_univ i)
      have hp : 0 < 1 / err i ^ 2 := by have := he i; positivity
      rcases mul_eq_zero.1 this with h | h
      · exact absurd h hp.ne'
      · have := pow_eq_zero_iff (by norm_num) |>.1 h; linarith
    · intro h i _
      rw [h i]; ring
  have hnn : ∀ g : ℝ → ℝ, 0 ≤ deviation (fun i => 1 / err i ^ 2) x y g := fun g =>
    Finset.sum_nonneg fun i _ => by have := he i; positivity
  have hl0 : deviation (fun i => 1 / err i ^ 2) x y (fun t => c + s * (t - x 0)) = 0 := by
    refine le_antisymm ((hmin p q).trans (le_of_eq ?_)) (hnn _)
    exact (hzero _).2 hy
  have hon := (hzero _).1 hl0
  have hs : s = q := by
    have e1 := hon 0
    have e2 := hon (Fin.last n)
    rw [hy] at e1 e2
    have e3 : (q - s) * (x (Fin.last n) - x 0) = 0 := by nlinarith
    rcases mul_eq_zero.1 e3 with h | h
    · linarith
    · exfalso; linarith
  have hcv : c = p + q * x 0 := by
    have e1 := hon 0
    rw [hy] at e1
    simp only [sub_self, mul_zero, add_zero] at e1
    exact e1.symm
  have ho : deviation (fun i => 1 / err i ^ 2) x y (fun _ => weightedMean y err) ≠ 0 := by
    intro h
    have h' := (hzero _).1 h
    have e1 := h' 0
    have e2 := h' (Fin.last n)
    rw [hy] at e1 e2
    have : q * (x (Fin.last n) - x 0) = 0 := by linarith
    rcases mul_eq_zero.1 this with h | h
    · exact hq h
    · linarith
  have hone : aic (ndfOf cov) (n + 1) (.line 0 ![] a (deviation (fun i => 1 / err i ^ 2) x y (fun t => c + s * (t - x 0)))) = ⊥ := by
    rw [aic_eq_akaike_line, akaike, if_pos hl0]
  have hlow : ∃ g, cand 0 = .ok g ∧ nbrOf g = 0 ∧ aic (ndfOf cov) (n + 1) f ≤ aic (ndfOf cov) (n + 1) g ∧
        (0 < nbrOf f → aic (ndfOf cov) (n + 1) f < aic (ndfOf cov) (n + 1) g) :=
    h3 0 ⟨by norm_num, hk, Or.inr (by push_cast; linarith)⟩
  obtain ⟨g, hg, _, hle, hlt⟩ := hlow
  rw [hlin] at hg
  obtain rfl := Except.ok.inj hg
  rw [hone] at hle hlt
  have hz : nbrOf f = 0 := by
    have hge := h1.1
    rcases lt_trichotomy (nbrOf f) 0 with h | h | h
    · exfalso
      have hm1 : nbrOf f = -1 := by omega
      rw [hm1, hoff] at h2
      rw [← Except.ok.inj h2, aic_eq_akaike_offset, akaike, if_neg ho] at hle
      exact absurd (le_bot_iff.1 hle) (WithBot.coe_ne_bot)
    · exact h
    · exact absurd (hlt h) (not_lt.2 bot_le)
  rw [hz, hlin] at h2
  have hf := (Except.ok.inj h2).symm
  have hd : normalDet (scaled x y err) f ≠ 0 := by rw [hf]; exact linear_det x y err hx he hx0
  rw [if_neg hd, hf] at h4
  simp only at h4
  refine ⟨_, h4, ?_, ?_, ?_⟩
  · rw [← hcv, ← hs, hca, hsa]; simp [finish]
  · intro i; rw [← hs, hsa]; rfl
  · intro i
    show (trends (fun i => (xfit i - xCentre x) / xScale x) (![] : Fin 0 → ℝ) *ᵥ a) i * yScale y + mean y = _
    have hxs := xScale_pos x hx
    rw [trends_apply _ (fun i j hij => by
      have := hxm hij
      show (xfit i - xCentre x) / xScale x ≤ (xfit j - xCentre x) / xScale x
      gcongr) _ (mono_one _)]
    rw [lineOf_zero _ _ _ (by
      have := hxm (Fin.zero_le i)
      show (xfit 0 - xCentre x) / xScale x ≤ (xfit i - xCentre x) / xScale x
      gcongr)]
    have e1 : a 0 * yScale y + mean y = p + q * x 0 := by rw [← hcv, hca]
    have e2 : a 1 * yScale y = q * xScale x := by rw [← hs, hsa]; field_simp
    simp only [Fin.cons_zero]
    have e3 : (xfit i - xCentre x) / xScale x - (xfit 0 - xCentre x) / xScale x = (xfit i - xfit 0) / xScale x := by ring
    rw [e3, add_mul]
    have e4 : a 1 * ((xfit i - xfit 0) / xScale x) * yScale y = q * (xfit i - xfit 0) := by
      rw [show a 1 * ((xfit i - xfit 0) / xScale x) * yScale y = a 1 * yScale y * (xfit i - xfit 0) / xScale x by ring, e2]
      field_simp
    rw [e4]
    linarith

end

end Verif.Props
