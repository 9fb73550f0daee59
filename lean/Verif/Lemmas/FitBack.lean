import Verif.Lemmas.FitCond
import Mathlib.Algebra.BigOperators.Field

/-!
# `fit_cond` in the original units
-/

set_option linter.unusedSectionVars false

namespace Verif.FitCond

open Verif.Np Verif.Utilities Verif.BreakFit Verif.Spec Matrix

theorem seg_scale {b : ℕ} (knot : Fin (b + 1) → ℝ) (j : Fin (b + 1)) (t x0 xs : ℝ) (hs : 0 < xs) :
    seg (fun i => (knot i - x0) / xs) j ((t - x0) / xs) = seg knot j t / xs := by
  have h : ∀ u v : ℝ, (u - x0) / xs < (v - x0) / xs ↔ u < v := fun u v => by
    rw [div_lt_div_iff_of_pos_right hs]; constructor <;> intro h <;> linarith
  unfold seg
  simp only [h]
  split_ifs <;> ring

/-- The coefficients in original units. -/
noncomputable def back {b : ℕ} (x0 xs y0 ys : ℝ) (a : Fin (b + 2) → ℝ) : Fin (b + 2) → ℝ :=
  Fin.cons (a 0 * ys + y0) (fun j => a j.succ * ys / xs)

theorem lineOf_back {b : ℕ} (knot : Fin (b + 1) → ℝ) (a : Fin (b + 2) → ℝ) (t x0 xs y0 ys : ℝ) (hs : 0 < xs) :
    lineOf (fun i => (knot i - x0) / xs) a ((t - x0) / xs) * ys + y0 = lineOf knot (back x0 xs y0 ys a) t := by
  unfold lineOf back
  simp only [Fin.cons_zero, Fin.cons_succ]
  rw [add_mul, Finset.sum_mul]
  have : ∀ j, a j.succ * seg (fun i => (knot i - x0) / xs) j ((t - x0) / xs) * ys = a j.succ * ys / xs * seg knot j t := fun j => by
    rw [seg_scale knot j t x0 xs hs]; field_simp
  simp only [this]
  ring

/-- Every broken line in original units comes from scaled coefficients. -/
theorem exists_back {b : ℕ} (c : Fin (b + 2) → ℝ) (x0 xs y0 ys : ℝ) (hs : 0 < xs) (hy : 0 < ys) :
    ∃ a : Fin (b + 2) → ℝ, back x0 xs y0 ys a = c := by
  refine ⟨Fin.cons ((c 0 - y0) / ys) (fun j => c j.succ * xs / ys), ?_⟩
  ext j
  refine Fin.cases ?_ (fun j => ?_) j
  · simp [back]; field_simp; ring
  · simp [back]; field_simp

section

variable {n b : ℕ} (x y err : Fin (n + 1) → ℝ) (hx : Monotone x) (he : ∀ i, 0 < err i) (l : Fin b → ℝ)
  (hk : Monotone (Fin.cons (x 0) l : Fin (b + 1) → ℝ))

/-- The scaled break points. -/
noncomputable def sc (x : Fin (n + 1) → ℝ) (l : Fin b → ℝ) : Fin b → ℝ := fun j => (l j - xCentre x) / xScale x

theorem cons_scale : (Fin.cons ((scaled x y err).xf 0) (sc x l) : Fin (b + 1) → ℝ) =
    fun i => ((Fin.cons (x 0) l : Fin (b + 1) → ℝ) i - xCentre x) / xScale x := by
  funext i
  refine Fin.cases ?_ (fun j => ?_) i
  · rfl
  · rfl

include hx in
theorem xf_mono : Monotone (scaled x y err).xf := fun i j hij => by
  show (x i - xCentre x) / xScale x ≤ (x j - xCentre x) / xScale x
  have := xScale_pos x hx
  have := hx hij
  gcongr

include hx hk in
theorem knots_mono : Monotone (Fin.cons ((scaled x y err).xf 0) (sc x l) : Fin (b + 1) → ℝ) := by
  rw [cons_scale]
  intro i j hij
  have := xScale_pos x hx
  have := hk hij
  simp only
  gcongr

include hx hk in
theorem trends_back (a : Fin (b + 2) → ℝ) (i : Fin (n + 1)) :
    (trends (scaled x y err).xf (sc x l) *ᵥ a) i * yScale y + mean y =
      lineOf (Fin.cons (x 0) l : Fin (b + 1) → ℝ) (back (xCentre x) (xScale x) (mean y) (yScale y) a) (x i) := by
  rw [trends_apply _ (xf_mono x y err hx) _ (knots_mono x y err hx l hk), cons_scale]
  exact lineOf_back _ a (x i) _ _ _ _ (xScale_pos x hx)

include hx he hk

/-- The residual sum of squares of the code is the deviation weighted by the inverse error variances in original units. -/
theorem rss_back (a : Fin (b + 2) → ℝ) :
    rssOf (scaled x y err) (fun i => (scaled x y err).yf i - (trends (scaled x y err).xf (sc x l) *ᵥ a) i) =
      deviation (fun i => 1 / err i ^ 2) x y
        (lineOf (Fin.cons (x 0) l : Fin (b + 1) → ℝ) (back (xCentre x) (xScale x) (mean y) (yScale y) a)) := by
  unfold rssOf deviation
  refine Finset.sum_congr rfl fun i _ => ?_
  rw [← trends_back x y err hx l hk a i]
  show ((y i - mean y) / yScale y - _) ^ 2 / (err i / yScale y) ^ 2 = _
  have hs := (yScale_pos y).ne'
  have := (he i).ne'
  field_simp
  ring

/-- The fit in original units: with the coefficients scaled back it is a broken line of least deviation. -/
theorem fit_back (hdet : ((trends (scaled x y err).xf (sc x l))ᵀ * diagonal (scaled x y err).w * trends (scaled x y err).xf (sc x l)).det ≠ 0) :
    ∃ (a : Fin (b + 2) → ℝ) (r : Fin (n + 1) → ℝ),
      brkPtFit (scaled x y err).xf (scaled x y err).yf (some (diagonal (scaled x y err).w)) (sc x l) = .ok (a, r) ∧
      rssOf (scaled x y err) r = deviation (fun i => 1 / err i ^ 2) x y
        (lineOf (Fin.cons (x 0) l : Fin (b + 1) → ℝ) (back (xCentre x) (xScale x) (mean y) (yScale y) a)) ∧
      ∀ (slope : Fin (b + 1) → ℝ) (g : ℝ → ℝ), IsBrokenLine (Fin.cons (x 0) l : Fin (b + 1) → ℝ) slope g →
        deviation (fun i => 1 / err i ^ 2) x y
          (lineOf (Fin.cons (x 0) l : Fin (b + 1) → ℝ) (back (xCentre x) (xScale x) (mean y) (yScale y) a)) ≤
        deviation (fun i => 1 / err i ^ 2) x y g := by
  refine ⟨_, _, Props.brkPtFit_eq _ _ _ _ _ (Or.inl rfl) hdet, rss_back x y err hx he l hk _, fun slope g hg => ?_⟩
  rw [← rss_back x y err hx he l hk]
  obtain ⟨c, hc⟩ := exists_back (Fin.cons (g ((Fin.cons (x 0) l : Fin (b + 1) → ℝ) 0)) slope : Fin (b + 2) → ℝ)
    (xCentre x) (xScale x) (mean y) (yScale y) (xScale_pos x hx) (yScale_pos y)
  have e : deviation (fun i => 1 / err i ^ 2) x y g =
      rssOf (scaled x y err) (fun i => (scaled x y err).yf i - (trends (scaled x y err).xf (sc x l) *ᵥ c) i) := by
    rw [rss_back x y err hx he l hk, hc]
    unfold deviation
    refine Finset.sum_congr rfl fun i _ => ?_
    rw [isBroken_lineOf _ slope hk g hg (x i) (by rw [Fin.cons_zero]; exact hx (Fin.zero_le i))]
  rw [e]
  have h := normal_minimal (trends (scaled x y err).xf (sc x l)) (scaled x y err).w (scaled x y err).yf
    (fun i => (scaled_w_pos x y err he i).le) hdet c
  have hM := mean_pos _ (scaled_errVar_pos x y err he)
  have e2 : ∀ r : Fin (n + 1) → ℝ, rssOf (scaled x y err) r =
      (∑ i, (scaled x y err).w i * r i ^ 2) / mean (scaled x y err).errVar := fun r => by
    unfold rssOf
    rw [Finset.sum_div]
    refine Finset.sum_congr rfl fun i _ => ?_
    show _ = mean (scaled x y err).errVar / (scaled x y err).errVar i * _ / _
    have := (scaled_errVar_pos x y err he i).ne'
    field_simp
  rw [e2, e2]
  gcongr

end

/-- The offset fit in original units. -/
theorem offset_rss {n : ℕ} (x y err : Fin (n + 1) → ℝ) (he : ∀ i, 0 < err i) :
    rssOf (scaled x y err) (fun i => (scaled x y err).yf i -
      (∑ i, (scaled x y err).w i * (scaled x y err).yf i) / ∑ i, (scaled x y err).w i) =
    deviation (fun i => 1 / err i ^ 2) x y (fun _ => weightedMean y err) := by
  unfold rssOf deviation
  refine Finset.sum_congr rfl fun i _ => ?_
  rw [← offset_back x y err he]
  show ((y i - mean y) / yScale y - _) ^ 2 / (err i / yScale y) ^ 2 = _
  have hs := (yScale_pos y).ne'
  have := (he i).ne'
  field_simp
  ring

/-- The weighted mean has the least deviation among all constants. -/
theorem weightedMean_minimal {n : ℕ} (x y err : Fin (n + 1) → ℝ) (he : ∀ i, 0 < err i) (c : ℝ) :
    deviation (fun i => 1 / err i ^ 2) x y (fun _ => weightedMean y err) ≤ deviation (fun i => 1 / err i ^ 2) x y (fun _ => c) := by
  have hS : 0 < ∑ i, 1 / err i ^ 2 := Finset.sum_pos (fun i _ => by have := he i; positivity) ⟨0, Finset.mem_univ _⟩
  have h0 : ∑ i, 1 / err i ^ 2 * (y i - weightedMean y err) = 0 := by
    have : ∑ i, 1 / err i ^ 2 * (y i - weightedMean y err) = ∑ i, y i / err i ^ 2 - weightedMean y err * ∑ i, 1 / err i ^ 2 := by
      rw [Finset.mul_sum, ← Finset.sum_sub_distrib]
      exact Finset.sum_congr rfl fun i _ => by ring
    rw [this]; unfold weightedMean; field_simp; ring
  have e : deviation (fun i => 1 / err i ^ 2) x y (fun _ => c) = deviation (fun i => 1 / err i ^ 2) x y (fun _ => weightedMean y err) +
      2 * (weightedMean y err - c) * ∑ i, 1 / err i ^ 2 * (y i - weightedMean y err) +
      (∑ i, 1 / err i ^ 2) * (weightedMean y err - c) ^ 2 := by
    unfold deviation
    rw [Finset.mul_sum, Finset.sum_mul, ← Finset.sum_add_distrib, ← Finset.sum_add_distrib]
    exact Finset.sum_congr rfl fun i _ => by ring
  rw [e, h0]
  have : 0 ≤ (∑ i, 1 / err i ^ 2) * (weightedMean y err - c) ^ 2 := by positivity
  linarith

/-! ## What is chosen -/

/-- What the first of the best of the models tried is. -/
theorem best_choice {n : ℕ} (x y err : Fin (n + 1) → ℝ) (he : ∀ i, 0 < err i)
    (cov : Matrix (Fin (n + 1)) (Fin (n + 1)) ℝ) (hc : IsPosCorrelation cov) (k : ℤ) (hk : -1 ≤ k) (opt : Externals)
    (hnd : NoneDegenerate x y err cov k opt) (cand : ℤ → Except PyErr Fitted)
    (hcand : cand = tryModel (scaled x y err) (limits (scaled x y err).xf).1
        (limits (scaled x y err).xf).2 (freeOpts k) k (plan none k (-1) (ndfOf cov)) opt) (tried : List Fitted) (f : Fitted)
    (htried : (plan none k (-1) (ndfOf cov)).pbrk.mapM cand = .ok tried) (hf : firstBest (aic (ndfOf cov) (n + 1)) tried = some f) :
      (-1 ≤ nbrOf f ∧ nbrOf f ≤ k ∧ (nbrOf f = -1 ∨ 2 * (nbrOf f : ℝ) + 5 ≤ ndfOf cov)) ∧ cand (nbrOf f) = .ok f ∧
      (∀ nbr, -1 ≤ nbr ∧ nbr ≤ k ∧ (nbr = -1 ∨ 2 * (nbr : ℝ) + 5 ≤ ndfOf cov) → ∃ g, cand nbr = .ok g ∧ nbrOf g = nbr ∧
        aic (ndfOf cov) (n + 1) f ≤ aic (ndfOf cov) (n + 1) g ∧
        (nbr < nbrOf f → aic (ndfOf cov) (n + 1) f < aic (ndfOf cov) (n + 1) g)) := by
  obtain ⟨hn, _⟩ := plan_free_nbr1 k (-1) (ndfOf cov)
  have hok : ∀ nbr, -1 ≤ nbr ∧ nbr ≤ k ∧ (nbr = -1 ∨ 2 * (nbr : ℝ) + 5 ≤ ndfOf cov) → ∃ g, cand nbr = .ok g ∧ nbrOf g = nbr := by
    intro nbr h
    rw [hcand]
    obtain ⟨g, hg, hgn, -⟩ := (tryModel_free (scaled x y err) (scaled_w_sum x y err he).ne' (limits (scaled x y err).xf).1
      (limits (scaled x y err).xf).2 k _ (by rw [hn]; norm_num) opt nbr h.1 h.2.1 (free_few cov hc nbr h.2.2)).2 (hnd nbr h)
    exact ⟨g, hg, hgn⟩
  obtain ⟨hlen, hget⟩ := mapM_getElem htried
  have hmap : tried.map nbrOf = (plan none k (-1) (ndfOf cov)).pbrk := by
    apply List.ext_getElem?
    intro i
    rw [List.getElem?_map]
    by_cases hi : i < (plan none k (-1) (ndfOf cov)).pbrk.length
    · obtain ⟨g, hg1, hg2⟩ := hget i _ (List.getElem?_eq_getElem hi)
      obtain ⟨g', hg1', hg2'⟩ := hok _ ((mem_plan_free k hk _ _).1 (List.getElem_mem hi))
      rw [hg1, List.getElem?_eq_getElem hi]
      rw [hg2] at hg1'
      obtain rfl := Except.ok.inj hg1'
      simp [hg2']
    · rw [List.getElem?_eq_none (by omega), List.getElem?_eq_none (by omega)]; rfl
  have hall : ∀ g ∈ tried, (-1 ≤ nbrOf g ∧ nbrOf g ≤ k ∧ (nbrOf g = -1 ∨ 2 * (nbrOf g : ℝ) + 5 ≤ ndfOf cov)) ∧ cand (nbrOf g) = .ok g := by
    intro g hg
    have hm : nbrOf g ∈ (plan none k (-1) (ndfOf cov)).pbrk := by rw [← hmap]; exact List.mem_map_of_mem hg
    refine ⟨(mem_plan_free k hk _ _).1 hm, ?_⟩
    obtain ⟨i, hi, rfl⟩ := List.mem_iff_getElem.1 hg
    have hi' : i < (plan none k (-1) (ndfOf cov)).pbrk.length := by omega
    obtain ⟨g', hg1, hg2⟩ := hget i _ (List.getElem?_eq_getElem hi')
    rw [List.getElem?_eq_getElem hi] at hg1
    obtain rfl := Option.some.inj hg1
    have : (plan none k (-1) (ndfOf cov)).pbrk[i] = nbrOf tried[i] := by
      have := congrArg (fun l => l[i]?) hmap
      simp only [List.getElem?_map, List.getElem?_eq_getElem hi, List.getElem?_eq_getElem hi'] at this
      exact (Option.some.inj this).symm
    rw [← this]; exact hg2
  obtain ⟨l1, l2, hl, h1, h2⟩ := firstBest_some hf
  have hsorted : tried.Pairwise fun f g => nbrOf f < nbrOf g := by
    rw [← List.pairwise_map (f := nbrOf), hmap]; exact plan_free_sorted _ _ _
  have hfm : f ∈ tried := by rw [hl]; simp
  refine ⟨(hall f hfm).1, (hall f hfm).2, ?_⟩
  intro nbr hnbr
  obtain ⟨g, hg, hgn⟩ := hok nbr hnbr
  refine ⟨g, hg, hgn, ?_⟩
  have hmem : nbr ∈ tried.map nbrOf := by rw [hmap]; exact (mem_plan_free k hk _ _).2 hnbr
  obtain ⟨g', hg', hgn'⟩ := List.mem_map.1 hmem
  have : g' = g := by
    have := (hall g' hg').2
    rw [hgn', hg] at this
    exact (Except.ok.inj this).symm
  subst this
  rw [hl] at hg' hsorted
  rw [List.pairwise_append, List.pairwise_cons] at hsorted
  simp only [List.mem_append, List.mem_cons] at hg'
  rcases hg' with hg' | rfl | hg'
  · exact ⟨(h1 g' hg').le, fun _ => h1 g' hg'⟩
  · exact ⟨le_refl _, fun h => absurd h (by omega)⟩
  · refine ⟨h2 g' hg', fun h => ?_⟩
    have := hsorted.2.1.1 g' hg'
    omega

/-- The choice between free models: the chosen one is one of those allowed, none is better, none with fewer break points as good. -/
theorem choice {n m : ℕ} (xfit : Fin (m + 1) → ℝ) (x y err : Fin (n + 1) → ℝ) (he : ∀ i, 0 < err i)
    (cov : Matrix (Fin (n + 1)) (Fin (n + 1)) ℝ) (hc : IsPosCorrelation cov) (k : ℤ) (hk : -1 ≤ k) (opt : Externals)
    (hnd : NoneDegenerate x y err cov k opt) :
    ∃ (cand : ℤ → Except PyErr Fitted) (f : Fitted),
      cand = tryModel (scaled x y err) (limits (scaled x y err).xf).1
        (limits (scaled x y err).xf).2 (freeOpts k) k (plan none k (-1) (ndfOf cov)) opt ∧
      (-1 ≤ nbrOf f ∧ nbrOf f ≤ k ∧ (nbrOf f = -1 ∨ 2 * (nbrOf f : ℝ) + 5 ≤ ndfOf cov)) ∧ cand (nbrOf f) = .ok f ∧
      (∀ nbr, -1 ≤ nbr ∧ nbr ≤ k ∧ (nbr = -1 ∨ 2 * (nbr : ℝ) + 5 ≤ ndfOf cov) → ∃ g, cand nbr = .ok g ∧ nbrOf g = nbr ∧
        aic (ndfOf cov) (n + 1) f ≤ aic (ndfOf cov) (n + 1) g ∧
        (nbr < nbrOf f → aic (ndfOf cov) (n + 1) f < aic (ndfOf cov) (n + 1) g)) ∧
      fitCore xfit x y err cov [.str "max_no_breaks", .int k] opt =
        if normalDet (scaled x y err) f = 0 then .error .linAlgError
        else match f with
          | .line (_ + 1) _ _ _ => .error .typeError
          | f => .ok (finish 200 opt x y (scaled x y err) cov xfit f) := by
  obtain ⟨tried, f, htried, hf, hfit⟩ := fitCore_free xfit x y err he cov hc k hk opt hnd
  obtain ⟨h1, h2, h3⟩ := best_choice x y err he cov hc k hk opt hnd _ rfl tried f htried hf
  exact ⟨_, f, rfl, h1, h2, h3, hfit⟩

end Verif.FitCond
