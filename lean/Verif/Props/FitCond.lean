import Verif.Lemmas.FitBack

/-!
# Properties of `fit_cond` (C29 - C33 and more)

`fitCore` is `fit_cond` from the sorted good observations on, `fitCond` the whole function. In all theorems errors are positive and, where
needed, `cov` is a correlation matrix.
-/

set_option linter.unusedSectionVars false

namespace Verif.Props

open Verif.Np Verif.Spec Verif.BreakFit Verif.FitCond Matrix

/-! ## C29 -/

/-- C29. Whatever vector is proposed, the break points are strictly increasing and strictly between the limits. -/
theorem optimiser_breaks_ordered {b : ℕ} (lo hi : ℝ) (h : lo < hi) (u : Fin (b + 1) → ℝ) :
    StrictMono (nlbpBreaks lo hi u) ∧ ∀ i, lo < nlbpBreaks lo hi u i ∧ nlbpBreaks lo hi u i < hi := by
  rw [nlbpBreaks_eq lo hi h]
  exact ⟨rawBreaks_strictMono lo hi h u, rawBreaks_interior lo hi h u⟩

/-- C29. With more than three distinct profiles the limits are two of the profiles and strictly inside the range of the data, so at least
one profile lies on each side of the break points. -/
theorem optimiser_limits {n : ℕ} (xf : Fin (n + 1) → ℝ) (s : Finset ℝ) (hs : ∀ v, v ∈ s ↔ ∃ i, xf i = v) (h : 3 < s.card) :
    (limits xf).1 < (limits xf).2 ∧ (∃ i, xf i < (limits xf).1) ∧ (∃ i, (limits xf).2 < xf i) ∧
      (∃ i, xf i = (limits xf).1) ∧ ∃ i, xf i = (limits xf).2 := by
  set u := uniqueReal (List.ofFn xf) with hu
  have hmem : ∀ v, v ∈ u ↔ ∃ i, xf i = v := fun v => by rw [hu, uniqueReal_mem, List.mem_ofFn]
  have hstrict := uniqueReal_strict (List.ofFn xf)
  rw [← hu] at hstrict
  have hlen : 3 < u.length := by
    have e : s = u.toFinset := by ext v; rw [hs, List.mem_toFinset, hmem]
    rw [e, List.toFinset_card_of_nodup (hstrict.imp ne_of_lt)] at h
    exact h
  have e1 : (limits xf).1 = u[1] := by
    unfold limits; simp only; rw [if_pos hlen]; simp only [List.getD_eq_getElem?_getD]
    show (u[1]?).getD 0 = _
    rw [List.getElem?_eq_getElem (by omega)]; rfl
  have e2 : (limits xf).2 = u[u.length - 2] := by
    unfold limits; simp only; rw [if_pos hlen]; simp only [List.getD_eq_getElem?_getD]
    show (u[u.length - 2]?).getD 0 = _
    rw [List.getElem?_eq_getElem (by omega)]; rfl
  have hp := List.pairwise_iff_getElem.1 hstrict
  rw [e1, e2]
  refine ⟨hp 1 (u.length - 2) (by omega) (by omega) (by omega), ?_, ?_, (hmem _).1 (List.getElem_mem _), (hmem _).1 (List.getElem_mem _)⟩
  · obtain ⟨i, hi⟩ := (hmem u[0]).1 (List.getElem_mem _)
    exact ⟨i, by rw [hi]; exact hp 0 1 (by omega) (by omega) (by omega)⟩
  · obtain ⟨i, hi⟩ := (hmem u[u.length - 1]).1 (List.getElem_mem _)
    exact ⟨i, by rw [hi]; exact hp (u.length - 2) (u.length - 1) (by omega) (by omega) (by omega)⟩

/-- C29, finding. With at most three distinct profiles all proposals give the same break points, at or beyond the end 1 of the scaled data. -/
theorem optimiser_breaks_few {n b : ℕ} (xf : Fin (n + 1) → ℝ) (s : Finset ℝ) (hs : ∀ v, v ∈ s ↔ ∃ i, xf i = v) (h : s.card ≤ 3)
    (u : Fin (b + 1) → ℝ) (i : Fin (b + 1)) :
    nlbpBreaks (limits xf).1 (limits xf).2 u i = if i = 0 then 1 else 1.00001 := by
  have hlen : ¬ 3 < (uniqueReal (List.ofFn xf)).length := by
    have e : s = (uniqueReal (List.ofFn xf)).toFinset := by
      ext v; rw [hs, List.mem_toFinset, uniqueReal_mem, List.mem_ofFn]
    rw [e, List.toFinset_card_of_nodup ((uniqueReal_strict _).imp ne_of_lt)] at h
    omega
  have e : limits xf = (1, 1) := by unfold limits; simp only; rw [if_neg hlen]
  rw [e]
  unfold nlbpBreaks rawBreaks
  simp only [sub_self, zero_div, zero_mul, add_zero, if_true]
  by_cases hi : i = 0
  · subst hi; simp
  · rw [dif_pos (Nat.pos_of_ne_zero fun h => hi (Fin.ext h)), if_neg hi]; norm_num

example : ∃ (xf : Fin 5 → ℝ) (s : Finset ℝ), (∀ v, v ∈ s ↔ ∃ i, xf i = v) ∧ 3 < s.card := by
  refine ⟨fun i => (i.val : ℝ), Finset.univ.image fun i : Fin 5 => (i.val : ℝ), fun v => by simp, ?_⟩
  rw [Finset.card_image_of_injective _ (fun i j h => Fin.ext (by exact_mod_cast h))]
  simp

/-! ## C31 -/

/-- The effective number of degrees of freedom of `n` correlated data lies between 1 and `n`. -/
theorem ndf_between {n : ℕ} (c : Matrix (Fin (n + 1)) (Fin (n + 1)) ℝ) (hc : IsPosCorrelation c) :
    1 ≤ effectiveNumber c ∧ effectiveNumber c ≤ (n + 1 : ℕ) := by
  push_cast; exact ndf_bounds c hc

theorem isCorrelation_one {n : ℕ} : IsPosCorrelation (1 : Matrix (Fin n) (Fin n) ℝ) := by
  constructor
  · intro i j
    by_cases h : i = j
    · subst h; simp
    · simp [Matrix.one_apply_ne h]
  · intro i; simp

/-- Both bounds are reached: by uncorrelated and by completely correlated data. -/
theorem ndf_bounds_sharp (n : ℕ) : effectiveNumber (1 : Matrix (Fin (n + 1)) (Fin (n + 1)) ℝ) = (n + 1 : ℕ) ∧
    effectiveNumber (Matrix.of fun _ _ => 1 : Matrix (Fin (n + 1)) (Fin (n + 1)) ℝ) = 1 := by
  constructor
  · unfold effectiveNumber
    have : ∀ i : Fin (n + 1), ∑ j, (1 : Matrix (Fin (n + 1)) (Fin (n + 1)) ℝ) i j = 1 := fun i => by
      simp [Matrix.one_apply]
    simp [this]
  · unfold effectiveNumber
    simp; field_simp

/-! ## C32 and the result in original units -/

theorem aic_eq_akaike_offset (ndf : ℝ) (npts : ℕ) (a r : ℝ) : aic ndf npts (.offset a r) = akaike ndf npts 1 r := by
  unfold aic akaike penalty; simp only [Fitted.rss]
  rw [show ndf - 1 - 2 = ndf - 3 by ring]
  by_cases h : r = 0 <;> simp [h]

theorem aic_eq_akaike_line (ndf : ℝ) (npts b : ℕ) (br : Fin b → ℝ) (co : Fin (b + 2) → ℝ) (r : ℝ) :
    aic ndf npts (.line b br co r) = akaike ndf npts (2 * ((b : ℝ) + 1)) r := by
  unfold aic akaike penalty; simp only [Fitted.rss]
  cases b with
  | zero =>
    simp only [Nat.cast_zero, zero_add, mul_one]
    rw [show ndf - 2 - 2 = ndf - 4 by ring]
    by_cases h : r = 0 <;> simp [h]
  | succ b =>
    simp only [Nat.cast_succ]
    by_cases h : r = 0 <;> simp [h]

/-- The model used is one of those allowed: the offset (-1), or a broken line with at most `max_no_breaks` break points and at most
`(ndf - 5) / 2`; its Akaike criterion is least among them, and smaller than that of every one with fewer break points. -/
theorem fit_chosen {n m : ℕ} (xfit : Fin (m + 1) → ℝ) (x y err : Fin (n + 1) → ℝ) (he : ∀ i, 0 < err i)
    (cov : Matrix (Fin (n + 1)) (Fin (n + 1)) ℝ) (hc : IsPosCorrelation cov) (k : ℤ) (hk : -1 ≤ k) (opt : Externals)
    (fit : Fit m) (hfit : fitCore xfit x y err cov [.str "max_no_breaks", .int k] opt = .ok fit) :
    ∃ (cand : ℤ → Except PyErr Fitted) (f : Fitted),
      cand = tryModel (scaled x y err) (limits (scaled x y err).xf).1
        (limits (scaled x y err).xf).2 (freeOpts k) k (plan none k (-1) (ndfOf cov)) opt ∧
      fit = finish 200 opt x y (scaled x y err) cov xfit f ∧ (fit.coef.length : ℤ) = nbrOf f + 2 ∧
      (-1 ≤ nbrOf f ∧ nbrOf f ≤ k ∧ (nbrOf f = -1 ∨ 2 * (nbrOf f : ℝ) + 5 ≤ ndfOf cov)) ∧ cand (nbrOf f) = .ok f ∧
      ∀ nbr, -1 ≤ nbr ∧ nbr ≤ k ∧ (nbr = -1 ∨ 2 * (nbr : ℝ) + 5 ≤ ndfOf cov) → ∃ g, cand nbr = .ok g ∧ nbrOf g = nbr ∧
        aic (ndfOf cov) (n + 1) f ≤ aic (ndfOf cov) (n + 1) g ∧
        (nbr < nbrOf f → aic (ndfOf cov) (n + 1) f < aic (ndfOf cov) (n + 1) g) := by
  obtain ⟨cand, f, hcand, h1, h2, h3, h4⟩ := choice xfit x y err he cov hc k hk opt (.of_ok he hc hk hfit)
  have hfin : fit = finish 200 opt x y (scaled x y err) cov xfit f := by
    rw [h4] at hfit
    split_ifs at hfit with hd
    cases f with
    | offset a r => exact (Except.ok.inj hfit).symm
    | line b br co r =>
      cases b with
      | zero => exact (Except.ok.inj hfit).symm
      | succ b => simp at hfit
  refine ⟨cand, f, hcand, hfin, ?_, h1, h2, h3⟩
  rw [hfin]
  cases f with
  | offset a r => simp [finish, nbrOf]
  | line b br co r => simp [finish, nbrOf]; ring

/-- A linear trend can be fitted if there are two distinct profiles. -/
theorem linear_det {n : ℕ} (x y err : Fin (n + 1) → ℝ) (hx : Monotone x) (he : ∀ i, 0 < err i) (h0 : x 0 < x (Fin.last n)) :
    ((trends (scaled x y err).xf (![] : Fin 0 → ℝ))ᵀ * diagonal (scaled x y err).w * trends (scaled x y err).xf (![] : Fin 0 → ℝ)).det ≠ 0 := by
  refine (determined_iff _ (xf_mono x y err hx) _ _ rfl ?_ _ (fun i => (scaled_w_pos x y err he i).le)).1 ?_
  · intro i j _; rw [show i = j from Fin.ext (by omega)]
  · intro slope f hf hz
    have z : ∀ i, f ((scaled x y err).xf i) = 0 := fun i => hz i (scaled_w_pos x y err he i).ne'
    have hlast := hf 0 ((scaled x y err).xf (Fin.last n)) (xf_mono x y err hx (Fin.zero_le _)) (fun h => by simp at h)
    have h00 : f ((Fin.cons ((scaled x y err).xf 0) ![] : Fin 1 → ℝ) 0) = 0 := z 0
    refine ⟨h00, ?_⟩
    rw [z, h00, zero_add] at hlast
    ext j
    rw [show j = 0 from Fin.ext (by simp)]
    rcases mul_eq_zero.1 hlast.symm with h | h
    · exact h
    · exfalso
      have hs := xScale_pos x hx
      have : (x (Fin.last n) - xCentre x) / xScale x - (x 0 - xCentre x) / xScale x = 0 := h
      field_simp at this
      linarith

theorem penalty_lt (ndf : ℝ) (h : 5 ≤ ndf) : ndf * (ndf + 1) / (ndf - 3) < ndf * (ndf + 2) / (ndf - 4) := by
  rw [div_lt_div_iff₀ (by linarith) (by linarith)]
  nlinarith

theorem lineOf_zero (k : Fin 1 → ℝ) (a : Fin 2 → ℝ) (t : ℝ) (ht : k 0 ≤ t) : lineOf k a t = a 0 + a 1 * (t - k 0) := by
  unfold lineOf
  rw [Fin.sum_univ_succ, Finset.univ_eq_empty, Finset.sum_empty, add_zero]
  congr 1
  rw [seg_at k _ t ht (fun h => by simp at h)]
  rfl

theorem sc_nil {n : ℕ} (x : Fin (n + 1) → ℝ) : sc x (![] : Fin 0 → ℝ) = ![] := Subsingleton.elim _ _

theorem mono_one {α : Type} [Preorder α] (k : Fin 1 → α) : Monotone k := fun i j _ => by rw [Subsingleton.elim i j]

/-- The linear candidate in original units. -/
theorem linear_candidate {n : ℕ} (x y err : Fin (n + 1) → ℝ) (hx : Monotone x) (he : ∀ i, 0 < err i) (h0 : x 0 < x (Fin.last n))
    (lo hi : ℝ) (o : Opts) (maxIn : ℤ) (p : Plan) (opt : Externals) :
    ∃ a : Fin 2 → ℝ, ∃ c s : ℝ, c = a 0 * yScale y + mean y ∧ s = a 1 * yScale y / xScale x ∧
      tryModel (scaled x y err) lo hi o maxIn p opt 0 =
        .ok (.line 0 ![] a (deviation (fun i => 1 / err i ^ 2) x y (fun t => c + s * (t - x 0)))) ∧
      ∀ u v : ℝ, deviation (fun i => 1 / err i ^ 2) x y (fun t => c + s * (t - x 0)) ≤
        deviation (fun i => 1 / err i ^ 2) x y (fun t => u + v * t) := by
  have hdet := linear_det x y err hx he h0
  rw [← sc_nil x] at hdet
  obtain ⟨a, r, hfit, hrss, hmin⟩ := fit_back x y err hx he (![] : Fin 0 → ℝ) (mono_one _) hdet
  refine ⟨a, _, _, rfl, rfl, ?_, ?_⟩
  · rw [sc_nil] at hfit
    rw [tryModel_linear _ lo hi o maxIn p opt (linear_det x y err hx he h0) a r hfit, hrss]
    congr 2
    unfold deviation
    refine Finset.sum_congr rfl fun i _ => ?_
    rw [lineOf_zero _ _ _ (hx (Fin.zero_le i))]
    rfl
  · intro u v
    have := hmin (fun _ => v) (fun t => u + v * t) (fun j t _ _ => by ring)
    refine le_of_eq_of_le ?_ this
    unfold deviation
    refine Finset.sum_congr rfl fun i _ => ?_
    rw [lineOf_zero _ _ _ (hx (Fin.zero_le i))]
    rfl

/-- C67. What `fit_cond` returns in original units when it returns: never break points, but either the mean weighted by the inverse
error variances for all profiles, or the straight line of least weighted squares; the line if and only if its Akaike criterion is smaller,
which needs at least 5 degrees of freedom. -/
theorem fit_result {n m : ℕ} (xfit : Fin (m + 1) → ℝ) (x y err : Fin (n + 1) → ℝ) (hx : Monotone x) (hx0 : x 0 < x (Fin.last n))
    (hxm : Monotone xfit)
    (he : ∀ i, 0 < err i) (cov : Matrix (Fin (n + 1)) (Fin (n + 1)) ℝ) (hc : IsPosCorrelation cov) (k : ℤ) (hk : -1 ≤ k) (opt : Externals)
    (fit : Fit m) (hfit : fitCore xfit x y err cov [.str "max_no_breaks", .int k] opt = .ok fit) :
    fit.breaks = [] ∧
    ∃ c s : ℝ, (∀ u v : ℝ, deviation (fun i => 1 / err i ^ 2) x y (fun t => c + s * (t - x 0)) ≤
        deviation (fun i => 1 / err i ^ 2) x y (fun t => u + v * t)) ∧
      let chiOffset := deviation (fun i => 1 / err i ^ 2) x y (fun _ => weightedMean y err)
      let chiLine := deviation (fun i => 1 / err i ^ 2) x y (fun t => c + s * (t - x 0))
      if 0 ≤ k ∧ 5 ≤ effectiveNumber cov ∧ akaike (effectiveNumber cov) (n + 1) 2 chiLine < akaike (effectiveNumber cov) (n + 1) 1 chiOffset then
        fit.coef = [c, s] ∧ (∀ i, fit.condslope i = c + s * (xfit i - xfit 0)) ∧ ∀ i, fit.timeDeriv i = some s
      else
        fit.coef = [weightedMean y err] ∧ (∀ i, fit.condslope i = weightedMean y err) ∧ ∀ i, fit.timeDeriv i = some 0 := by
  rw [show effectiveNumber cov = ndfOf cov from rfl]
  obtain ⟨cand, f, hcand, hfin, hlen, h1, h2, h3⟩ := fit_chosen xfit x y err he cov hc k hk opt fit hfit
  obtain ⟨a, c, s, hca, hsa, hlin, hmin⟩ := linear_candidate x y err hx he hx0 (limits (scaled x y err).xf).1
        (limits (scaled x y err).xf).2 (freeOpts k) k (plan none k (-1) (ndfOf cov)) opt
  rw [← hcand] at hlin
  have hoff := tryModel_offset (scaled x y err) (scaled_w_sum x y err he).ne' (limits (scaled x y err).xf).1
        (limits (scaled x y err).xf).2 (freeOpts k) k (plan none k (-1) (ndfOf cov)) opt
  rw [← hcand, offset_rss x y err he] at hoff
  have hone : ∀ q : ℝ, aic (ndfOf cov) (n + 1) (.line 0 ![] a q) = akaike (ndfOf cov) (n + 1) 2 q := fun q => by
    rw [aic_eq_akaike_line]; norm_num
  have hsmall : nbrOf f = -1 ∨ nbrOf f = 0 := by
    obtain ⟨cand', f', _, _, _, _, h4⟩ := choice xfit x y err he cov hc k hk opt (.of_ok he hc hk hfit)
    rw [hfin] at hlen hfit
    rw [h4] at hfit
    split_ifs at hfit with hd
    have hl : (finish 200 opt x y (scaled x y err) cov xfit f).coef.length ≤ 2 := by
      cases f' with
      | offset a r =>
        rw [← Except.ok.inj hfit]; simp [finish]
      | line b br co r =>
        cases b with
        | zero => rw [← Except.ok.inj hfit]; simp [finish]
        | succ b => simp at hfit
    omega
  have hback := offset_back x y err he
  refine ⟨?_, c, s, hmin, ?_⟩
  · rw [hfin]
    cases f with
    | offset _ _ => rfl
    | line b br co r =>
      have : b = 0 := by simp [nbrOf] at hsmall; omega
      subst this
      simp [finish]
  · simp only
    rcases hsmall with hm1 | hz
    · rw [hm1, hoff] at h2
      have hf := (Except.ok.inj h2).symm
      rw [if_neg]
      · rw [hfin, hf]
        refine ⟨?_, fun i => ?_, fun i => rfl⟩
        · simp [finish, hback]
        · exact hback
      · rintro ⟨hk0, hn5, hlt⟩
        obtain ⟨g, hg, _, hle, _⟩ := h3 0 ⟨by norm_num, hk0, Or.inr (by push_cast; linarith)⟩
        rw [hlin] at hg
        obtain rfl := Except.ok.inj hg
        rw [hf, hone, aic_eq_akaike_offset] at hle
        exact absurd hlt (not_lt.2 hle)
    · rw [hz, hlin] at h2
      have hf := (Except.ok.inj h2).symm
      rw [hz] at h1
      rw [if_pos]
      · rw [hfin, hf]
        refine ⟨?_, fun i => ?_, fun i => ?_⟩
        · simp [finish, hca, hsa]
        · show (trends (fun i => (xfit i - xCentre x) / xScale x) (![] : Fin 0 → ℝ) *ᵥ a) i * yScale y + mean y = _
          have hs := xScale_pos x hx
          rw [trends_apply _ (fun i j hij => by
            have := hxm hij
            show (xfit i - xCentre x) / xScale x ≤ (xfit j - xCentre x) / xScale x
            gcongr) _ (mono_one _)]
          rw [lineOf_zero _ _ _ (by
            have := hxm (Fin.zero_le i)
            show (xfit 0 - xCentre x) / xScale x ≤ (xfit i - xCentre x) / xScale x
            gcongr)]
          rw [hca, hsa]
          simp only [Fin.cons_zero]
          field_simp
          ring
        · show some (a 1 * yScale y / xScale x) = _
          rw [hsa]
      · refine ⟨h1.2.1, ?_, ?_⟩
        · rcases h1.2.2 with h | h
          · norm_num at h
          · push_cast at h; linarith
        · obtain ⟨g, hg, _, _, hlt⟩ := h3 (-1) ⟨le_refl _, hk, Or.inl rfl⟩
          rw [hoff] at hg
          obtain rfl := Except.ok.inj hg
          have := hlt (by rw [hz]; norm_num)
          rw [hf, hone, aic_eq_akaike_offset] at this
          exact this

end Verif.Props
