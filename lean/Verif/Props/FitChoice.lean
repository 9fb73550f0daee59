import Verif.Props.FitArgs

/-!
# Properties of `fit_cond`: which model is chosen (C31, C32, C75)
-/

set_option linter.unusedSectionVars false

namespace Verif.Props

open Verif.Np Verif.Spec Verif.BreakFit Verif.FitCond Matrix

/-! ## The break points sought in original units -/

section

variable {n : ℕ} (x y err : Fin (n + 1) → ℝ)

theorem unique_length (xf : Fin (n + 1) → ℝ) : (uniqueReal (List.ofFn xf)).length = (Finset.univ.image xf).card := by
  rw [← List.toFinset_card_of_nodup ((uniqueReal_strict (List.ofFn xf)).imp ne_of_lt)]
  congr 1
  ext v
  rw [List.mem_toFinset, uniqueReal_mem, List.mem_ofFn]
  simp

/-- The limits of the optimiser are the second and the last but one of the values. -/
theorem limits_bounds (xf : Fin (n + 1) → ℝ) (hx : Monotone xf) (h : 4 ≤ (Finset.univ.image xf).card) :
    IsLeast {v | ∃ i, xf i = v ∧ xf 0 < v} (limits xf).1 ∧ IsGreatest {v | ∃ i, xf i = v ∧ v < xf (Fin.last n)} (limits xf).2 := by
  have hlen := unique_length xf
  have hmem : ∀ v, v ∈ uniqueReal (List.ofFn xf) ↔ ∃ i, xf i = v := fun v => by rw [uniqueReal_mem, List.mem_ofFn]
  have hstrict := uniqueReal_strict (List.ofFn xf)
  have elim : limits xf = ((uniqueReal (List.ofFn xf)).getD 1 0, (uniqueReal (List.ofFn xf)).getD ((uniqueReal (List.ofFn xf)).length - 2) 0) := by
    unfold limits
    simp only
    rw [if_pos (by omega)]
  rw [elim]
  generalize uniqueReal (List.ofFn xf) = u at *
  have hp := List.pairwise_iff_getElem.1 hstrict
  have hle : ∀ i j (hi : i < u.length) (hj : j < u.length), i ≤ j → u[i] ≤ u[j] := fun i j hi hj hij => by
    rcases hij.lt_or_eq with h | rfl
    · exact (hp i j hi hj h).le
    · exact le_rfl
  have e0 : xf 0 = u[0]'(by omega) := by
    obtain ⟨j, hj, e⟩ := List.mem_iff_getElem.1 ((hmem (xf 0)).2 ⟨0, rfl⟩)
    obtain ⟨i, hi⟩ := (hmem (u[0]'(by omega))).1 (List.getElem_mem _)
    refine le_antisymm (by rw [← hi]; exact hx (Fin.zero_le i)) ?_
    rw [← e]
    exact hle _ _ _ _ (Nat.zero_le j)
  have e1 : xf (Fin.last n) = u[u.length - 1]'(by omega) := by
    obtain ⟨j, hj, e⟩ := List.mem_iff_getElem.1 ((hmem (xf (Fin.last n))).2 ⟨_, rfl⟩)
    obtain ⟨i, hi⟩ := (hmem (u[u.length - 1]'(by omega))).1 (List.getElem_mem _)
    refine le_antisymm ?_ (by rw [← hi]; exact hx (Fin.le_last i))
    rw [← e]
    exact hle _ _ _ _ (by omega)
  simp only [List.getD_eq_getElem?_getD]
  rw [List.getElem?_eq_getElem (by omega), List.getElem?_eq_getElem (by omega)]
  simp only [Option.getD_some]
  refine ⟨⟨?_, ?_⟩, ⟨?_, ?_⟩⟩
  · obtain ⟨i, hi⟩ := (hmem (u[1]'(by omega))).1 (List.getElem_mem _)
    exact ⟨i, hi, by rw [e0]; exact hp 0 1 (by omega) (by omega) (by omega)⟩
  · rintro v ⟨i, rfl, hv⟩
    obtain ⟨j, hj, e⟩ := List.mem_iff_getElem.1 ((hmem (xf i)).2 ⟨_, rfl⟩)
    rw [← e] at hv ⊢
    rw [e0] at hv
    have : j ≠ 0 := by rintro rfl; exact lt_irrefl _ hv
    exact hle _ _ _ _ (by omega)
  · obtain ⟨i, hi⟩ := (hmem (u[u.length - 2]'(by omega))).1 (List.getElem_mem _)
    exact ⟨i, hi, by rw [e1]; exact hp _ _ (by omega) (by omega) (by omega)⟩
  · rintro v ⟨i, rfl, hv⟩
    obtain ⟨j, hj, e⟩ := List.mem_iff_getElem.1 ((hmem (xf i)).2 ⟨_, rfl⟩)
    rw [← e] at hv ⊢
    rw [e1] at hv
    have : j ≠ u.length - 1 := by rintro rfl; exact lt_irrefl _ hv
    exact hle _ _ _ _ (by omega)

variable (hx : Monotone x)

include hx in
theorem scaled_card : (Finset.univ.image (scaled x y err).xf).card = (Finset.univ.image x).card := by
  have hs := xScale_pos x hx
  have : Finset.univ.image (scaled x y err).xf = (Finset.univ.image x).image fun v => (v - xCentre x) / xScale x := by
    rw [Finset.image_image]; rfl
  rw [this]
  refine Finset.card_image_of_injective _ fun a b h => ?_
  have h : (a - xCentre x) / xScale x = (b - xCentre x) / xScale x := h
  field_simp at h
  linarith

/-- The break points of the optimiser in original units. -/
noncomputable def soughtOf {b : ℕ} (u : Fin (b + 1) → ℝ) : Fin (b + 1) → ℝ :=
  fun i => nlbpBreaks (limits (scaled x y err).xf).1 (limits (scaled x y err).xf).2 u i * xScale x + xCentre x

include hx in
theorem sc_soughtOf {b : ℕ} (u : Fin (b + 1) → ℝ) :
    sc x (soughtOf x y err u) = nlbpBreaks (limits (scaled x y err).xf).1 (limits (scaled x y err).xf).2 u := by
  have hs := xScale_pos x hx
  funext i
  simp only [sc, soughtOf]
  field_simp
  ring

variable (hx0 : x 0 < x (Fin.last n))

include hx hx0

theorem sought_limits (h : 4 ≤ (Finset.univ.image x).card) (a c : ℝ) (ha : IsLeast {v | ∃ i, x i = v ∧ x 0 < v} a)
    (hc : IsGreatest {v | ∃ i, x i = v ∧ v < x (Fin.last n)} c) :
    (limits (scaled x y err).xf).1 = (a - xCentre x) / xScale x ∧ (limits (scaled x y err).xf).2 = (c - xCentre x) / xScale x := by
  have hs := xScale_pos x hx
  obtain ⟨h1, h2⟩ := limits_bounds (scaled x y err).xf (xf_mono x y err hx) (by rw [scaled_card x y err hx]; exact h)
  have hlt : ∀ v w : ℝ, (v - xCentre x) / xScale x < (w - xCentre x) / xScale x ↔ v < w := fun v w => by
    rw [div_lt_div_iff_of_pos_right hs]
    exact sub_lt_sub_iff_right _
  have hle : ∀ v w : ℝ, (v - xCentre x) / xScale x ≤ (w - xCentre x) / xScale x ↔ v ≤ w := fun v w => by
    rw [div_le_div_iff_of_pos_right hs]
    exact sub_le_sub_iff_right _
  refine ⟨h1.unique ⟨?_, ?_⟩, h2.unique ⟨?_, ?_⟩⟩
  · obtain ⟨⟨i, hi, hi0⟩, -⟩ := ha
    exact ⟨i, by rw [← hi]; rfl, (hlt _ _).2 hi0⟩
  · rintro v ⟨i, rfl, hv⟩
    exact (hle _ _).2 (ha.2 ⟨i, rfl, (hlt _ _).1 hv⟩)
  · obtain ⟨⟨i, hi, hi0⟩, -⟩ := hc
    exact ⟨i, by rw [← hi]; rfl, (hlt _ _).2 hi0⟩
  · rintro v ⟨i, rfl, hv⟩
    exact (hle _ _).2 (hc.2 ⟨i, rfl, (hlt _ _).1 hv⟩)

theorem second_exists (h : 4 ≤ (Finset.univ.image x).card) : ∃ a c, IsLeast {v | ∃ i, x i = v ∧ x 0 < v} a ∧ IsGreatest {v | ∃ i, x i = v ∧ v < x (Fin.last n)} c ∧ a < c := by
  obtain ⟨h1, h2⟩ := limits_bounds x hx h
  refine ⟨_, _, h1, h2, ?_⟩
  exact (optimiser_limits x (Finset.univ.image x) (fun v => by simp) (by omega)).1

/-- The break points the optimiser works with are those of the specification. -/
theorem sought_iff {b : ℕ} (u l : Fin (b + 1) → ℝ) : SoughtBreaks x u l ↔ l = soughtOf x y err u := by
  have hs := xScale_pos x hx
  unfold SoughtBreaks
  split_ifs with h
  · obtain ⟨a, c, ha, hc, hac⟩ := second_exists x hx hx0 h
    obtain ⟨e1, e2⟩ := sought_limits x y err hx hx0 h a c ha hc
    have hlt : (a - xCentre x) / xScale x < (c - xCentre x) / xScale x := by gcongr
    have key : ∀ i, soughtOf x y err u i = a + (c - a) * (∑ j ∈ Finset.univ.filter (· ≤ i), Real.exp (u j)) / (1 + ∑ j, Real.exp (u j)) := by
      intro i
      unfold soughtOf
      rw [e1, e2, nlbpBreaks_eq _ _ hlt]
      unfold rawBreaks
      have el : runningExp u (Fin.last b) = ∑ j, Real.exp (u j) := by
        unfold runningExp
        congr 1
        ext j
        simp [Fin.le_last]
      have hp : 0 < 1 + ∑ j, Real.exp (u j) := by
        have := runningExp_pos u (Fin.last b)
        rw [el] at this
        linarith
      rw [el]
      unfold runningExp
      field_simp
      ring
    constructor
    · rintro ⟨a', c', ha', hc', hl⟩
      obtain rfl := ha.unique ha'
      obtain rfl := hc.unique hc'
      funext i
      rw [hl, key]
    · rintro rfl
      exact ⟨a, c, ha, hc, key⟩
  · have hxl : xScale x + xCentre x = x (Fin.last n) := by
      unfold xScale xCentre
      rw [if_pos hx0.ne]
      ring
    have hxe : xScale x = (x (Fin.last n) - x 0) / 2 := by
      unfold xScale
      rw [if_pos hx0.ne]
    have key : ∀ i, soughtOf x y err u i = x (Fin.last n) + (if i = 0 then 0 else 0.00001) * ((x (Fin.last n) - x 0) / 2) := by
      intro i
      unfold soughtOf
      rw [optimiser_breaks_few (scaled x y err).xf (Finset.univ.image (scaled x y err).xf) (fun v => by simp) (by rw [scaled_card x y err hx]; omega)]
      rw [← hxe, ← hxl]
      split_ifs <;> ring
    constructor
    · intro hl
      funext i
      rw [hl, key]
    · rintro rfl
      exact key

theorem sought_mono {b : ℕ} (u : Fin (b + 1) → ℝ) : Monotone (Fin.cons (x 0) (soughtOf x y err u) : Fin (b + 2) → ℝ) := by
  have hs := xScale_pos x hx
  have hl := (sought_iff x y err hx hx0 u _).2 rfl
  have hmain : Monotone (soughtOf x y err u) ∧ ∀ i, x 0 ≤ soughtOf x y err u i := by
    unfold SoughtBreaks at hl
    split_ifs at hl with h
    · obtain ⟨a, c, ha, hc, hac⟩ := second_exists x hx hx0 h
      obtain ⟨e1, e2⟩ := sought_limits x y err hx hx0 h a c ha hc
      have hlt : (limits (scaled x y err).xf).1 < (limits (scaled x y err).xf).2 := by rw [e1, e2]; gcongr
      obtain ⟨o1, o2⟩ := optimiser_breaks_ordered _ _ hlt u
      constructor
      · intro i j hij
        have := o1.monotone hij
        unfold soughtOf
        gcongr
      · intro i
        have hi := (o2 i).1
        rw [e1, div_lt_iff₀ hs] at hi
        obtain ⟨⟨j, hj, hj0⟩, -⟩ := ha
        have hd : soughtOf x y err u i = nlbpBreaks (limits (scaled x y err).xf).1 (limits (scaled x y err).xf).2 u i * xScale x + xCentre x := rfl
        rw [e1] at hd
        rw [hd]
        linarith
    · constructor
      · intro i j hij
        rw [hl, hl]
        have hd : 0 < (x (Fin.last n) - x 0) / 2 := by linarith
        have : (if i = 0 then (0 : ℝ) else 0.00001) ≤ if j = 0 then 0 else 0.00001 := by
          split_ifs with h1 h2 h2
          · exact le_rfl
          · norm_num
          · exact absurd (le_antisymm (h2 ▸ hij) (Fin.zero_le i)) h1
          · exact le_rfl
        nlinarith
      · intro i
        rw [hl]
        have hd : 0 < (x (Fin.last n) - x 0) / 2 := by linarith
        have : (0 : ℝ) ≤ if i = 0 then (0 : ℝ) else 0.00001 := by split_ifs <;> norm_num
        nlinarith
  rw [Fin.monotone_iff_le_succ]
  intro i
  refine Fin.cases ?_ (fun i => ?_) i
  · exact hmain.2 0
  · have h1 : (Fin.cons (x 0) (soughtOf x y err u) : Fin (b + 2) → ℝ) i.succ.castSucc = soughtOf x y err u i.castSucc := by
      rw [← Fin.succ_castSucc]
      rfl
    rw [h1, Fin.cons_succ]
    exact hmain.1 (Fin.castSucc_lt_succ).le

/-- The converse of `scaled_det`. -/
theorem scaled_det_conv (he : ∀ i, 0 < err i) {b : ℕ} (l : Fin b → ℝ) (hk : Monotone (Fin.cons (x 0) l : Fin (b + 1) → ℝ))
    (hdet : ((trends (scaled x y err).xf (sc x l))ᵀ * diagonal (scaled x y err).w * trends (scaled x y err).xf (sc x l)).det ≠ 0) :
    Determined (Fin.cons (x 0) l : Fin (b + 1) → ℝ) (fun _ => 1) x := by
  have hxs := xScale_pos x hx
  have hD := (determined_iff _ (xf_mono x y err hx) _ _ rfl (knots_mono x y err hx _ hk) _ (fun i => (scaled_w_pos x y err he i).le)).2 hdet
  intro slope f hf hz
  obtain ⟨h0, hs⟩ := hD (fun j => slope j * xScale x) (fun t => f (t * xScale x + xCentre x)) (by
    intro j t ht ht'
    rw [cons_scale] at ht ht' ⊢
    rw [div_le_iff₀ hxs] at ht
    have := hf j (t * xScale x + xCentre x) (by linarith) (fun h => by
      have := ht' h
      rw [le_div_iff₀ hxs] at this
      linarith)
    simp only
    rw [this, div_mul_cancel₀ _ hxs.ne', sub_add_cancel]
    field_simp
    ring) (fun i _ => by
      have e : (scaled x y err).xf i * xScale x + xCentre x = x i := by
        show (x i - xCentre x) / xScale x * xScale x + xCentre x = x i
        rw [div_mul_cancel₀ _ hxs.ne', sub_add_cancel]
      rw [e]
      exact hz i one_ne_zero)
  refine ⟨?_, ?_⟩
  · rw [cons_scale] at h0
    simp only at h0
    rwa [div_mul_cancel₀ _ hxs.ne', sub_add_cancel] at h0
  · ext j
    have := congrFun hs j
    simp only [Pi.zero_apply] at this ⊢
    rcases mul_eq_zero.1 this with h | h
    · exact h
    · exact absurd h hxs.ne'

/-- The residual sum of squares of a broken line with the break points sought. -/
theorem sought_rss (he : ∀ i, 0 < err i) {b : ℕ} (u : Fin (b + 1) → ℝ) :
    ∃ a r, brkPtFit (scaled x y err).xf (scaled x y err).yf (some (diagonal (scaled x y err).w))
        (nlbpBreaks (limits (scaled x y err).xf).1 (limits (scaled x y err).xf).2 u) = .ok (a, r) ∧
      (∀ l, SoughtBreaks x u l → Determined (Fin.cons (x 0) l : Fin (b + 2) → ℝ) (fun _ => 1) x →
        IsLeast {d | ∃ slope g, IsBrokenLine (Fin.cons (x 0) l : Fin (b + 2) → ℝ) slope g ∧ d = deviation (fun i => 1 / err i ^ 2) x y g}
          (rssOf (scaled x y err) r)) ∧
      ∀ l, SoughtBreaks x u l → ¬ Determined (Fin.cons (x 0) l : Fin (b + 2) → ℝ) (fun _ => 1) x →
        rssOf (scaled x y err) r = deviation (fun i => 1 / err i ^ 2) x y fun _ => (∑ i, y i) / ((n : ℝ) + 1) := by
  rw [← sc_soughtOf x y err hx]
  have hk := sought_mono x y err hx hx0 u
  by_cases hD : Determined (Fin.cons (x 0) (soughtOf x y err u) : Fin (b + 2) → ℝ) (fun _ => 1) x
  · obtain ⟨a, r, hfit, hrss, hmin⟩ := fit_back x y err hx he _ hk (scaled_det x y err _ hx he hk hD)
    refine ⟨a, r, hfit, ?_, ?_⟩
    · intro l hl _
      rw [sought_iff x y err hx hx0] at hl
      subst hl
      rw [hrss]
      refine ⟨⟨_, _, lineOf_isBroken _ hk _, rfl⟩, ?_⟩
      rintro d ⟨slope, g, hg, rfl⟩
      exact hmin slope g hg
    · intro l hl hn
      rw [sought_iff x y err hx hx0] at hl
      subst hl
      exact absurd hD hn
  · have hdet : ((trends (scaled x y err).xf (sc x (soughtOf x y err u)))ᵀ * diagonal (scaled x y err).w *
        trends (scaled x y err).xf (sc x (soughtOf x y err u))).det = 0 := by
      by_contra h
      exact hD (scaled_det_conv x y err hx hx0 he _ hk h)
    refine ⟨_, _, brkPtFit_singular _ _ _ _ _ (Or.inl rfl) hdet, ?_, ?_⟩
    · intro l hl hn
      rw [sought_iff x y err hx hx0] at hl
      subst hl
      exact absurd hn hD
    · intro l _ _
      unfold rssOf deviation
      refine Finset.sum_congr rfl fun i _ => ?_
      have em : (∑ i, y i) / ((n : ℝ) + 1) = mean y := by unfold mean; push_cast; rfl
      rw [em]
      show ((y i - mean y) / yScale y) ^ 2 / (err i / yScale y) ^ 2 = _
      have hs := (yScale_pos y).ne'
      have := (he i).ne'
      field_simp

/-- The sums of squares exist. -/
theorem residuals_exist (he : ∀ i, 0 < err i) (search : (b : ℕ) → Fin (b + 1) → ℝ) : ∃ chi, Residuals x y err search chi := by
  obtain ⟨a, c, s, -, -, -, hmin⟩ := linear_candidate x y err hx he hx0 0 0 (freeOpts 0) 0 (plan none 0 (-1) 0) ⟨fun _ => (fun _ => 0, fun _ => 0), fun _ _ => 0⟩
  choose a r h1 h2 h3 using fun b => sought_rss x y err hx hx0 he (search b)
  refine ⟨fun nbr => if nbr = -1 then deviation (fun i => 1 / err i ^ 2) x y fun _ => weightedMean y err
    else if nbr = 0 then deviation (fun i => 1 / err i ^ 2) x y (fun t => c + s * (t - x 0))
    else rssOf (scaled x y err) (r (nbr - 1).toNat), by simp, ?_, ?_, ?_⟩
  · refine ⟨⟨c - s * x 0, s, ?_⟩, ?_⟩
    · simp only [Int.reduceNeg]
      rw [if_neg (by decide), if_pos trivial]
      congr 1
      funext t
      ring
    · rintro d ⟨u, v, rfl⟩
      exact hmin u v
  · intro b l hl hD
    have := h2 b l hl hD
    rw [if_neg (by omega), if_neg (by omega), show ((b : ℤ) + 1 - 1).toNat = b by omega]
    exact this
  · intro b l hl hD
    have := h3 b l hl hD
    rw [if_neg (by omega), if_neg (by omega), show ((b : ℤ) + 1 - 1).toNat = b by omega]
    exact this

/-- The Akaike criterion of a candidate. -/
theorem candidate_aic (he : ∀ i, 0 < err i) (cov : Matrix (Fin (n + 1)) (Fin (n + 1)) ℝ) (hc : IsPosCorrelation cov) (k : ℤ) (opt : Externals)
    (chi : ℤ → ℝ) (hchi : Residuals x y err (fun b => (opt.search b).2) chi) (nbr : ℤ) (hn : MayBreak k (effectiveNumber cov) nbr) (g : Fitted)
    (hg : tryModel (scaled x y err) (limits (scaled x y err).xf).1 (limits (scaled x y err).xf).2 (freeOpts k) k (plan none k (-1) (ndfOf cov)) opt nbr = .ok g) :
    aic (ndfOf cov) (n + 1) g = akaike (effectiveNumber cov) (n + 1) (parameterCount nbr) (chi nbr) := by
  have hE : effectiveNumber cov = ndfOf cov := rfl
  rw [hE] at hn ⊢
  obtain ⟨hn1, hnk, hn5⟩ := hn
  by_cases e1 : nbr = -1
  · subst e1
    rw [tryModel_offset _ (scaled_w_sum x y err he).ne', offset_rss x y err he] at hg
    rw [← Except.ok.inj hg, aic_eq_akaike_offset, hchi.offset]
    simp [parameterCount]
  by_cases e2 : nbr = 0
  · subst e2
    obtain ⟨a, c, s, -, -, hlin, hmin⟩ := linear_candidate x y err hx he hx0 (limits (scaled x y err).xf).1
      (limits (scaled x y err).xf).2 (freeOpts k) k (plan none k (-1) (ndfOf cov)) opt
    rw [hlin] at hg
    rw [← Except.ok.inj hg, aic_eq_akaike_line]
    have : deviation (fun i => 1 / err i ^ 2) x y (fun t => c + s * (t - x 0)) = chi 0 := by
      obtain ⟨⟨u, v, huv⟩, hlow⟩ := hchi.line
      refine le_antisymm (by rw [huv]; exact hmin u v) (hlow ⟨c - s * x 0, s, ?_⟩)
      congr 1
      funext t
      ring
    rw [this]
    simp [parameterCount]
  obtain ⟨b, rfl⟩ : ∃ b : ℕ, nbr = (b : ℤ) + 1 := ⟨(nbr - 1).toNat, by omega⟩
  have hn7 : (b : ℤ) + 1 ≤ n + 1 := by
    have h7 := (ndf_bounds cov hc).2
    rcases hn5 with h | h
    · omega
    · push_cast at h
      have : ((2 * (b + 1) + 5 : ℕ) : ℝ) ≤ ((n + 1 : ℕ) : ℝ) := by push_cast; linarith
      have : 2 * (b + 1) + 5 ≤ n + 1 := by exact_mod_cast this
      omega
  obtain ⟨a1, r1, h1⟩ := brkPtFit_ok (scaled x y err).xf (scaled x y err).yf (some (diagonal (scaled x y err).w))
    (nlbpBreaks (limits (scaled x y err).xf).1 (limits (scaled x y err).xf).2 (opt.search b).1)
  obtain ⟨a, r, hfit, hdet, hsing⟩ := sought_rss x y err hx hx0 he (opt.search b).2
  obtain ⟨hs, hns⟩ := tryModel_broken (scaled x y err) (limits (scaled x y err).xf).1 (limits (scaled x y err).xf).2 k (plan none k (-1) (ndfOf cov))
    (by rw [(plan_free_nbr1 k (-1) (ndfOf cov)).1]; norm_num) opt b hnk hn7 a1 a r1 r h1 hfit
  have hcand := hns fun h => by rw [hs h] at hg; cases hg
  rw [hcand] at hg
  rw [← Except.ok.inj hg, aic_eq_akaike_line]
  have hl := (sought_iff x y err hx hx0 (opt.search b).2 _).2 rfl
  have : rssOf (scaled x y err) r = chi ((b : ℤ) + 1) := by
    by_cases hD : Determined (Fin.cons (x 0) (soughtOf x y err (opt.search b).2) : Fin (b + 2) → ℝ) (fun _ => 1) x
    · exact (hdet _ hl hD).unique (hchi.broken b _ hl hD)
    · exact (hsing _ hl hD).trans (hchi.singular b _ hl hD).symm
  rw [this]
  congr 1

end

variable {n m : ℕ} (xfit : Fin (m + 1) → ℝ) (x y err : Fin (n + 1) → ℝ) (hx : Monotone x) (hx0 : x 0 < x (Fin.last n)) (he : ∀ i, 0 < err i)
  (cov : Matrix (Fin (n + 1)) (Fin (n + 1)) ℝ) (hc : IsPosCorrelation cov) (k : ℤ) (hk : -1 ≤ k) (opt : Externals) (chi : ℤ → ℝ)
  (hchi : Residuals x y err (fun b => (opt.search b).2) chi)

include hx hx0 he hc hk hchi

/-- C32. The number of coefficients tells which model is used: an offset, or a broken line with at most `max_no_breaks` break points and at most `(ndf - 5) / 2`. Its Akaike
criterion is least among those allowed, and smaller than that of every one with fewer break points. -/
theorem fit_chooses_least_aic (fit : Fit m) (hfit : fitCore xfit x y err cov [.str "max_no_breaks", .int k] opt = .ok fit) :
    ∃ nbr : ℤ, (fit.coef.length : ℤ) = nbr + 2 ∧ MayBreak k (effectiveNumber cov) nbr ∧ ∀ nbr', MayBreak k (effectiveNumber cov) nbr' →
      akaike (effectiveNumber cov) (n + 1) (parameterCount nbr) (chi nbr) ≤ akaike (effectiveNumber cov) (n + 1) (parameterCount nbr') (chi nbr') ∧
      (nbr' < nbr →
        akaike (effectiveNumber cov) (n + 1) (parameterCount nbr) (chi nbr) < akaike (effectiveNumber cov) (n + 1) (parameterCount nbr') (chi nbr')) := by
  obtain ⟨cand, f, hcand, -, hlen, h1, h2, h3⟩ := fit_chosen xfit x y err he cov hc k hk opt fit hfit
  refine ⟨nbrOf f, hlen, h1, fun nbr' hn' => ?_⟩
  obtain ⟨g, hg, -, hle, hlt⟩ := h3 nbr' hn'
  rw [hcand] at h2 hg
  rw [candidate_aic x y err hx hx0 he cov hc k opt chi hchi nbr' hn' g hg, candidate_aic x y err hx hx0 he cov hc k opt chi hchi _ h1 f h2] at hle hlt
  exact ⟨hle, hlt⟩

/-- C75, finding. If some allowed number of free break points has a smaller criterion than offset and straight line, `fit_cond` fails. -/
theorem fit_free_breaks_fail (nbr : ℤ) (hn : MayBreak k (effectiveNumber cov) nbr)
    (hbest : ∀ nbr' : ℤ, nbr' = -1 ∨ nbr' = 0 →
      akaike (effectiveNumber cov) (n + 1) (parameterCount nbr) (chi nbr) < akaike (effectiveNumber cov) (n + 1) (parameterCount nbr') (chi nbr')) :
    ∃ e, fitCore xfit x y err cov [.str "max_no_breaks", .int k] opt = .error e := by
  cases hfit : fitCore xfit x y err cov [.str "max_no_breaks", .int k] opt with
  | error e => exact ⟨e, rfl⟩
  | ok fit =>
    exfalso
    obtain ⟨nbr₀, hlen, hn₀, hmin⟩ := fit_chooses_least_aic xfit x y err hx hx0 he cov hc k hk opt chi hchi fit hfit
    have hsm : nbr₀ = -1 ∨ nbr₀ = 0 := by
      obtain ⟨cand, f, -, -, -, -, h4⟩ := choice xfit x y err he cov hc k hk opt (.of_ok he hc hk hfit)
      rw [h4] at hfit
      split_ifs at hfit with hd
      have : fit.coef.length ≤ 2 := by
        cases f with
        | offset a r => rw [← Except.ok.inj hfit]; simp [finish]
        | line b br co r =>
          cases b with
          | zero => rw [← Except.ok.inj hfit]; simp [finish]
          | succ b => simp at hfit
      have := hn₀.1
      omega
    exact absurd (hbest nbr₀ hsm) (not_lt.2 (hmin nbr hn).1)

omit hchi hk in
/-- C75, finding. Data on a broken line that is not straight, enough degrees of freedom, enough break points allowed, and an optimiser that finds the break points: `fit_cond`
fails. -/
theorem fit_broken_line_fails {b : ℕ} (hkb : ((b + 1 : ℕ) : ℤ) ≤ k) (hndf : 2 * ((b + 1 : ℕ) : ℝ) + 5 ≤ effectiveNumber cov)
    (l : Fin (b + 1) → ℝ) (hl : SoughtBreaks x (opt.search b).2 l) (hD : Determined (Fin.cons (x 0) l : Fin (b + 2) → ℝ) (fun _ => 1) x)
    (slope : Fin (b + 2) → ℝ) (g : ℝ → ℝ) (hg : IsBrokenLine (Fin.cons (x 0) l : Fin (b + 2) → ℝ) slope g) (hy : ∀ i, y i = g (x i))
    (hns : ¬ ∃ p q : ℝ, ∀ i, y i = p + q * x i) :
    ∃ e, fitCore xfit x y err cov [.str "max_no_breaks", .int k] opt = .error e := by
  obtain ⟨chi, hchi⟩ := residuals_exist x y err hx hx0 he (fun b => (opt.search b).2)
  refine fit_free_breaks_fail xfit x y err hx hx0 he cov hc k (by omega) opt chi hchi ((b : ℤ) + 1)
    ⟨by omega, by push_cast at hkb; exact hkb, Or.inr (by push_cast at hndf ⊢; exact hndf)⟩ ?_
  have hz : chi ((b : ℤ) + 1) = 0 := by
    obtain ⟨⟨s', g', -, he'⟩, hlow⟩ := hchi.broken b l hl hD
    refine le_antisymm ((hlow ⟨slope, g, hg, rfl⟩).trans_eq ((deviation_eq_zero x y err he g).2 hy)) ?_
    rw [he']
    exact Finset.sum_nonneg fun i _ => by have := he i; positivity
  have hnz : ∀ p q : ℝ, deviation (fun i => 1 / err i ^ 2) x y (fun t => p + q * t) ≠ 0 := fun p q h =>
    hns ⟨p, q, (deviation_eq_zero x y err he _).1 h⟩
  rintro nbr' (rfl | rfl)
  · rw [hz, hchi.offset, akaike, akaike, if_pos rfl, if_neg]
    · exact WithBot.bot_lt_coe _
    · have := hnz (weightedMean y err) 0
      simpa using this
  · obtain ⟨⟨u, v, huv⟩, -⟩ := hchi.line
    rw [hz, huv, akaike, akaike, if_pos rfl, if_neg (hnz u v)]
    exact WithBot.bot_lt_coe _

end Verif.Props
