import Verif.Props.FitChoice

/-!
# C69-C71, C139: `fit_cond` and models the data do not determine
-/

set_option linter.unusedSectionVars false

namespace Verif.Props

open Verif.Np Verif.Spec Verif.BreakFit Verif.FitCond Matrix

variable {n m : ℕ} (xfit : Fin (m + 1) → ℝ) (x y err : Fin (n + 1) → ℝ) (hx : Monotone x) (he : ∀ i, 0 < err i)
  (cov : Matrix (Fin (n + 1)) (Fin (n + 1)) ℝ) (hc : IsPosCorrelation cov) (opt : Externals)

include hx he

/-- The broken lines with the break points last tried by the optimiser can be fitted if the data determine them. -/
theorem noneDegenerate_iff (hx0 : x 0 < x (Fin.last n)) (k : ℤ) :
    NoneDegenerate x y err cov k opt ↔ BrokenDetermined x (fun b => (opt.search b).1) k (effectiveNumber cov) := by
  have key : ∀ b : ℕ, singular (scaled x y err) (nlbpBreaks (limits (scaled x y err).xf).1 (limits (scaled x y err).xf).2 (opt.search b).1) ↔
      ¬ Determined (Fin.cons (x 0) (soughtOf x y err (opt.search b).1) : Fin (b + 2) → ℝ) (fun _ => 1) x := by
    intro b
    rw [← sc_soughtOf x y err hx]
    have hk := sought_mono x y err hx hx0 (opt.search b).1
    constructor
    · intro hs hD
      exact scaled_det x y err _ hx he hk hD hs
    · intro hD
      unfold singular
      by_contra h
      exact hD (scaled_det_conv x y err hx hx0 he _ hk h)
  constructor
  · intro h b hb l hl
    rw [sought_iff x y err hx hx0] at hl
    subst hl
    by_contra hD
    exact h _ hb (Or.inr ⟨b, rfl, (key b).2 hD⟩)
  · rintro h nbr hn (⟨-, hs⟩ | ⟨b, rfl, hs⟩)
    · exact linear_det x y err hx he hx0 hs
    · exact (key b).1 hs (h b hn _ ((sought_iff x y err hx hx0 _ _).2 rfl))

include hc

/-- C70. Equal values are returned unchanged for every profile, if there are good data at two different profiles and they determine the broken lines allowed. -/
theorem fit_constant (hx0 : x 0 < x (Fin.last n)) (c : ℝ) (hy : ∀ i, y i = c) (k : ℤ) (hk : -1 ≤ k)
    (hD : BrokenDetermined x (fun b => (opt.search b).1) k (effectiveNumber cov)) :
    ∃ fit, fitCore xfit x y err cov [.str "max_no_breaks", .int k] opt = .ok fit ∧
      fit.coef = [c] ∧ (∀ i, fit.condslope i = c) ∧ ∀ i, fit.timeDeriv i = some 0 :=
  fit_constant_aux xfit x y err he cov hc opt c hy k hk ((noneDegenerate_iff x y err hx he cov opt hx0 k).2 hD)

omit hx in
/-- C70. Whenever `fit_cond` returns for equal values, it returns them. -/
theorem fit_constant_returned (c : ℝ) (hy : ∀ i, y i = c) (k : ℤ) (hk : -1 ≤ k) (fit : Fit m)
    (hfit : fitCore xfit x y err cov [.str "max_no_breaks", .int k] opt = .ok fit) :
    fit.coef = [c] ∧ (∀ i, fit.condslope i = c) ∧ ∀ i, fit.timeDeriv i = some 0 := by
  obtain ⟨fit', h1, h2⟩ := fit_constant_aux xfit x y err he cov hc opt c hy k hk (.of_ok he hc hk hfit)
  rw [hfit] at h1
  obtain rfl := Except.ok.inj h1
  exact h2

/-- C71. Data on a straight line that is not constant, at least 5 degrees of freedom, two distinct profiles, any number of break
points allowed if the data determine the broken lines: the line is found. The values returned for the profiles are on the line if the first profile has good data; if it has
none, they are off by the slope times the distance between the first profile and the first one with good data. -/
theorem fit_linear_exact (hx0 : x 0 < x (Fin.last n)) (hxm : Monotone xfit) (h5 : 5 ≤ effectiveNumber cov)
    (p q : ℝ) (hq : q ≠ 0) (hy : ∀ i, y i = p + q * x i) (k : ℤ) (hk : 0 ≤ k)
    (hD : BrokenDetermined x (fun b => (opt.search b).1) k (effectiveNumber cov)) :
    ∃ fit, fitCore xfit x y err cov [.str "max_no_breaks", .int k] opt = .ok fit ∧
      fit.coef = [p + q * x 0, q] ∧ (∀ i, fit.timeDeriv i = some q) ∧
      (∀ i, fit.condslope i = p + q * xfit i + q * (x 0 - xfit 0)) :=
  fit_linear_aux xfit x y err he cov hc opt hx hx0 hxm h5 p q hq hy k hk ((noneDegenerate_iff x y err hx he cov opt hx0 k).2 hD)

/-- C139. With good data at two different profiles, `fit_cond` raises `ValueError` if and only if some broken line allowed is not determined by the data. -/
theorem fit_value_error_iff (hx0 : x 0 < x (Fin.last n)) (k : ℤ) (hk : -1 ≤ k) :
    fitCore xfit x y err cov [.str "max_no_breaks", .int k] opt = .error .valueError ↔
      ¬ BrokenDetermined x (fun b => (opt.search b).1) k (effectiveNumber cov) := by
  rw [← noneDegenerate_iff x y err hx he cov opt hx0 k]
  constructor
  · intro h hnd
    obtain ⟨cand, f, -, -, -, -, h4⟩ := choice xfit x y err he cov hc k hk opt hnd
    rw [h4] at h
    split_ifs at h with hd
    · cases h
    · cases f with
      | offset a r => cases h
      | line b br co r =>
        cases b with
        | zero => cases h
        | succ b => cases h
  · exact fitCore_degenerate xfit x y err he cov hc k hk opt

/-- C139, finding. With at most three different profiles `fit_cond` raises `ValueError` if a break point is allowed and there are at least 7 degrees of freedom. -/
theorem fit_few_profiles_fails (hfew : (Finset.univ.image x).card ≤ 3) (k : ℤ) (hk : 1 ≤ k) (h7 : 7 ≤ effectiveNumber cov) :
    fitCore xfit x y err cov [.str "max_no_breaks", .int k] opt = .error .valueError := by
  by_cases hx0 : x 0 < x (Fin.last n)
  · rw [fit_value_error_iff xfit x y err hx he cov hc opt hx0 k (by omega)]
    intro hD
    have hl : SoughtBreaks x (opt.search 0).1 (fun _ => x (Fin.last n)) := by
      unfold SoughtBreaks
      rw [if_neg (by omega)]
      intro i
      rw [if_pos (Fin.ext (by simp))]
      ring
    have hdet := hD 0 ⟨by norm_num, by simpa using hk, Or.inr (by push_cast; linarith)⟩ _ hl
    -- a line that is zero up to the last profile and rises beyond it
    obtain ⟨-, h⟩ := hdet ![0, 1] (fun t => max 0 (t - x (Fin.last n))) (by
      intro j t h1 h2
      match j with
      | ⟨0, _⟩ =>
        have h2 : t ≤ x (Fin.last n) := h2 (by norm_num)
        have e1 : max 0 (t - x (Fin.last n)) = 0 := max_eq_left (by linarith)
        have e2 : max 0 (x 0 - x (Fin.last n)) = 0 := max_eq_left (by linarith)
        show max 0 (t - x (Fin.last n)) = max 0 (x 0 - x (Fin.last n)) + 0 * (t - x 0)
        rw [e1, e2]; ring
      | ⟨1, _⟩ =>
        have h1 : x (Fin.last n) ≤ t := h1
        show max 0 (t - x (Fin.last n)) = max 0 (x (Fin.last n) - x (Fin.last n)) + 1 * (t - x (Fin.last n))
        rw [max_eq_right (by linarith), sub_self, max_self]; ring) (by
      intro i _
      exact max_eq_left (by linarith [hx (Fin.le_last i)]))
    have := congrFun h 1
    simp at this
  · refine fitCore_degenerate xfit x y err he cov hc k (by omega) opt fun hnd => ?_
    exact hnd 0 ⟨by norm_num, by omega, Or.inr (by
      push_cast
      exact (by linarith : 2 * (0 : ℝ) + 5 ≤ effectiveNumber cov))⟩ (Or.inl ⟨rfl, singular_flat x y err he hx hx0⟩)

/-- C139, finding. With all good data at one profile `fit_cond` raises `ValueError` if a line is allowed and there are at least 5 degrees of freedom. -/
theorem fit_one_profile_fails (hone : ∀ i j, x i = x j) (k : ℤ) (hk : 0 ≤ k) (h5 : 5 ≤ effectiveNumber cov) :
    fitCore xfit x y err cov [.str "max_no_breaks", .int k] opt = .error .valueError := by
  refine fitCore_degenerate xfit x y err he cov hc k (by omega) opt fun hnd => ?_
  exact hnd 0 ⟨by norm_num, hk, Or.inr (by
    push_cast
    exact (by linarith : 2 * (0 : ℝ) + 5 ≤ effectiveNumber cov))⟩ (Or.inl ⟨rfl, singular_flat x y err he hx (by rw [hone 0 (Fin.last n)]; exact lt_irrefl _)⟩)

end Verif.Props
