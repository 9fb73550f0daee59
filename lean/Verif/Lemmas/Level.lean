import Verif.Spec.Level
import Verif.Lemmas.Helper
import Verif.Props.Mapping
import Verif.Props.Variance

/-!
# Lemmas for the mapping of one level
-/

set_option linter.unusedSectionVars false

namespace Verif.Level

open Verif.Np Verif.Spec Verif.Stats Verif.Mapping Verif.Helper Verif.Props

/-! ## Outliers -/

section Deviations

/-- Chebyshev: many large deviations need a large sum of squares. -/
theorem count_mul_le (vs : List ℝ) (m t : ℝ) (_ht : 0 ≤ t) :
    t * ((vs.countP fun s => decide (t < (s - m) ^ 2) : ℕ) : ℝ) ≤ (vs.map fun v => (v - m) ^ 2).sum ∧
    (0 < (vs.countP fun s => decide (t < (s - m) ^ 2)) →
      t * ((vs.countP fun s => decide (t < (s - m) ^ 2) : ℕ) : ℝ) < (vs.map fun v => (v - m) ^ 2).sum) := by
  induction vs with
  | nil => simp
  | cons a l ih =>
    simp only [List.countP_cons, List.map_cons, List.sum_cons]
    have hsq := sq_nonneg (a - m)
    by_cases h : t < (a - m) ^ 2
    · simp only [h, decide_true, if_true]
      push_cast
      refine ⟨by nlinarith [ih.1], fun _ => by nlinarith [ih.1]⟩
    · simp only [h, decide_false, Bool.false_eq_true, if_false, add_zero]
      refine ⟨by linarith [ih.1], fun hp => by linarith [ih.2 hp]⟩

theorem sum_sq_ge (l : List ℝ) : l.sum ^ 2 ≤ (l.length : ℝ) * (l.map fun v => v ^ 2).sum := by
  induction l with
  | nil => simp
  | cons a l ih =>
    simp only [List.sum_cons, List.map_cons, List.length_cons]
    push_cast
    by_cases hl : l = []
    · subst hl; simp
    · set k := (l.length : ℝ) with hk
      have hk0 : 0 < k := by rw [hk]; exact_mod_cast List.length_pos_of_ne_nil hl
      set S := l.sum
      set Q := (l.map fun v => v ^ 2).sum
      have h1 : 2 * k * a * S ≤ k ^ 2 * a ^ 2 + S ^ 2 := by nlinarith [sq_nonneg (k * a - S)]
      have h2 : 2 * a * S ≤ k * a ^ 2 + Q := by
        have : k * (2 * a * S) ≤ k * (k * a ^ 2 + Q) := by nlinarith
        exact le_of_mul_le_mul_left this hk0
      nlinarith

theorem sum_sub_mean (vs : List ℝ) (hne : vs ≠ []) : (vs.map fun v => v - meanOf vs).sum = 0 := by
  have hl : (vs.length : ℝ) ≠ 0 := by
    have := List.length_pos_of_ne_nil hne
    exact_mod_cast this.ne'
  have e := sum_map_add_const vs (-meanOf vs)
  simp only [← sub_eq_add_neg] at e
  rw [e]
  unfold meanOf
  field_simp
  ring

/-- Samuelson: no value is further from the mean than `sqrt (n - 1)` standard deviations. -/
theorem samuelson (vs : List ℝ) (s : ℝ) (hs : s ∈ vs) :
    (s - meanOf vs) ^ 2 ≤ ((vs.length : ℝ) - 1) * populationVariance vs := by
  have hne : vs ≠ [] := List.ne_nil_of_mem hs
  obtain ⟨a, b, rfl⟩ := List.append_of_mem hs
  set vs := a ++ s :: b with hvs
  set m := meanOf vs with hm
  have h0 := sum_sub_mean vs hne
  rw [← hm] at h0
  have hsum : (((a ++ b).map fun v => v - m)).sum = -(s - m) := by
    rw [hvs] at h0
    simp only [List.map_append, List.map_cons, List.sum_append, List.sum_cons] at h0 ⊢
    linarith
  have hsq : (vs.map fun v => (v - m) ^ 2).sum = ((a ++ b).map fun v => (v - m) ^ 2).sum + (s - m) ^ 2 := by
    rw [hvs]
    simp only [List.map_append, List.map_cons, List.sum_append, List.sum_cons]
    ring
  have hcs := sum_sq_ge ((a ++ b).map fun v => v - m)
  rw [hsum, List.length_map, List.map_map] at hcs
  have hlen : (vs.length : ℝ) = ((a ++ b).length : ℝ) + 1 := by
    rw [hvs]; simp only [List.length_append, List.length_cons]; push_cast; ring
  have hpos : (0 : ℝ) < vs.length := by
    have := List.length_pos_of_ne_nil hne
    exact_mod_cast this
  have hvar : (vs.length : ℝ) * populationVariance vs = (vs.map fun v => (v - m) ^ 2).sum := by
    unfold populationVariance
    rw [mul_div_cancel₀ _ hpos.ne']
    rfl
  have hcomp : ((fun v : ℝ => v ^ 2) ∘ fun v => v - m) = fun v => (v - m) ^ 2 := rfl
  rw [hcomp] at hcs
  have hfin : (vs.length : ℝ) * (s - m) ^ 2 ≤ (vs.length : ℝ) * (((vs.length : ℝ) - 1) * populationVariance vs) := by
    have e : (vs.length : ℝ) * (((vs.length : ℝ) - 1) * populationVariance vs) =
        ((vs.length : ℝ) - 1) * ((vs.length : ℝ) * populationVariance vs) := by ring
    rw [e, hvar, hsq, hlen]
    nlinarith
  exact le_of_mul_le_mul_left hfin hpos

end Deviations

theorem signal_known (sal : List ℝ) (h : sal ≠ []) : signalVariance (sal.map some) = .ok (populationVariance sal) := by
  have hk : known (sal.map some) = sal := by unfold known; simp
  rcases signal_variance_value (sal.map some) with ⟨h1, -⟩ | ⟨-, h2⟩
  · rw [hk] at h1; exact absurd h1 h
  · rw [hk] at h2; exact h2

theorem mem_outliers (sal : List ℝ) (j : ℕ) : j ∈ outliers sal (populationVariance sal) ↔ IsOutlier sal j := by
  unfold outliers IsOutlier
  rw [argwhere_mem]
  have hmean : sal.sum / (sal.length : ℝ) = meanOf sal := rfl
  simp only [hmean]
  refine exists_congr fun s => and_congr_right fun hs => ?_
  have hmem : s ∈ sal := List.mem_of_getElem? hs
  have hv0 := populationVariance_nonneg sal
  unfold npDiv
  by_cases hz : Real.sqrt (populationVariance sal) = 0
  · rw [if_pos hz, hz]
    have hv : populationVariance sal = 0 := by rwa [Real.sqrt_eq_zero hv0] at hz
    have h1 := samuelson sal s hmem
    rw [hv, mul_zero] at h1
    have h2 : s - meanOf sal = 0 := by
      have := le_antisymm h1 (sq_nonneg _)
      exact pow_eq_zero_iff (two_ne_zero) |>.1 this
    simp [h2]
  · rw [if_neg hz]
    have hp : 0 < Real.sqrt (populationVariance sal) := lt_of_le_of_ne (Real.sqrt_nonneg _) (Ne.symm hz)
    simp only [decide_eq_true_eq]
    rw [lt_div_iff₀ hp]

theorem outliers_lt (sal : List ℝ) (v : ℝ) (j : ℕ) (h : j ∈ outliers sal v) : j < sal.length := argwhere_lt _ _ _ h

theorem lt_abs_iff_sq (t x : ℝ) (ht : 0 ≤ t) : 3 * Real.sqrt t < |x| ↔ 9 * t < x ^ 2 := by
  have e : 9 * t = (3 * Real.sqrt t) ^ 2 := by rw [mul_pow, Real.sq_sqrt ht]; norm_num
  rw [e, sq_lt_sq, abs_of_nonneg (by positivity : 0 ≤ 3 * Real.sqrt t)]

theorem outliers_length (sal : List ℝ) :
    (outliers sal (populationVariance sal)).length =
      sal.countP fun s => decide (9 * populationVariance sal < (s - meanOf sal) ^ 2) := by
  have hperm : (outliers sal (populationVariance sal)).Perm
      (argwhere (fun s => decide (9 * populationVariance sal < (s - meanOf sal) ^ 2)) sal) := by
    rw [List.perm_ext_iff_of_nodup (by unfold outliers; exact argwhere_nodup _ _) (argwhere_nodup _ _)]
    intro j
    rw [mem_outliers, argwhere_mem]
    unfold IsOutlier
    refine exists_congr fun s => and_congr_right fun _ => ?_
    rw [lt_abs_iff_sq _ _ (populationVariance_nonneg sal), decide_eq_true_eq]
  rw [hperm.length_eq, argwhere_length]

theorem outliers_few (sal : List ℝ) (hne : sal ≠ []) : 9 * (outliers sal (populationVariance sal)).length < sal.length := by
  rw [outliers_length]
  set v := populationVariance sal with hv
  have hv0 : 0 ≤ v := populationVariance_nonneg sal
  have hpos : (0 : ℝ) < sal.length := by
    have := List.length_pos_of_ne_nil hne
    exact_mod_cast this
  have hvar : (sal.length : ℝ) * v = (sal.map fun x => (x - meanOf sal) ^ 2).sum := by
    rw [hv]; unfold populationVariance; rw [mul_div_cancel₀ _ hpos.ne']; rfl
  obtain ⟨-, h2⟩ := count_mul_le sal (meanOf sal) (9 * v) (by positivity)
  set k := sal.countP fun s => decide (9 * v < (s - meanOf sal) ^ 2) with hk
  by_cases hk0 : 0 < k
  · have h3 := h2 hk0
    rw [← hvar] at h3
    have hv1 : 0 < v := by
      rcases hv0.eq_or_lt with h | h
      · rw [← h] at h3; simp at h3
      · exact h
    have : (9 * (k : ℝ)) * v < (sal.length : ℝ) * v := by nlinarith
    have h4 := lt_of_mul_lt_mul_right this hv1.le
    exact_mod_cast h4
  · have hn : 0 < sal.length := List.length_pos_of_ne_nil hne
    omega

theorem outliers_none (sal : List ℝ) (h : sal.length ≤ 10) : outliers sal (populationVariance sal) = [] := by
  rw [List.eq_nil_iff_forall_not_mem]
  intro j hj
  rw [mem_outliers] at hj
  obtain ⟨s, hs, hlt⟩ := hj
  rw [lt_abs_iff_sq _ _ (populationVariance_nonneg sal)] at hlt
  have h1 := samuelson sal s (List.mem_of_getElem? hs)
  have h2 : (sal.length : ℝ) ≤ 10 := by exact_mod_cast h
  nlinarith [populationVariance_nonneg sal]

/-! ## The casts after the removal -/

theorem columnStack_ok (n : ℕ) : ∀ a b c d : List ℝ, a.length = n → b.length = n → c.length = n → d.length = n →
    ∃ pos, columnStack a b c d = .ok pos ∧ pos.length = n ∧ ∀ (i : ℕ) (p : Pos), pos[i]? = some p →
      a[i]? = some p.c0 ∧ b[i]? = some p.c1 ∧ c[i]? = some p.c2 ∧ d[i]? = some p.c3 := by
  induction n with
  | zero =>
    intro a b c d ha hb hc hd
    rw [List.length_eq_zero_iff] at ha hb hc hd
    subst ha hb hc hd
    exact ⟨[], rfl, rfl, by simp⟩
  | succ n ih =>
    intro a b c d ha hb hc hd
    obtain ⟨x, a, rfl⟩ := List.exists_cons_of_length_eq_add_one ha
    obtain ⟨y, b, rfl⟩ := List.exists_cons_of_length_eq_add_one hb
    obtain ⟨z, c, rfl⟩ := List.exists_cons_of_length_eq_add_one hc
    obtain ⟨w, d, rfl⟩ := List.exists_cons_of_length_eq_add_one hd
    simp only [List.length_cons, Nat.add_right_cancel_iff] at ha hb hc hd
    obtain ⟨pos, h1, h2, h3⟩ := ih a b c d ha hb hc hd
    refine ⟨⟨x, y, z, w⟩ :: pos, ?_, by simp [h2], ?_⟩
    · simp [columnStack, h1, bind, Except.bind, pure, Except.pure]
    · intro i p hp
      cases i with
      | zero =>
        simp only [List.getElem?_cons_zero, Option.some.injEq] at hp
        subst hp
        simp
      | succ i =>
        rw [List.getElem?_cons_succ] at hp
        simpa using h3 i p hp

/-- The position as a row of the code's arrays. -/
def toPos (f : FloatPos) : Pos := ⟨f.lat, f.long, f.date, f.z⟩

theorem correlation_large (c : MapConfig) (p q : FloatPos) : correlation (largeScales c) (toPos p) (toPos q) =
    fieldCorrelation c.latLarge c.longLarge c.ageLarge c.phiLarge c.usePv p q := rfl

theorem correlation_small (c : MapConfig) (p q : FloatPos) : correlation (smallScales c) (toPos p) (toPos q) =
    fieldCorrelation c.latSmall c.longSmall c.ageSmall c.phiSmall c.usePv p q := rfl

theorem mse_large (c : MapConfig) {n : ℕ} (s noise : ℝ) (data : Fin n → FloatPos) (g : FloatPos) (l : Fin n → ℝ) :
    meanSquaredError (largeScales c) s noise (fun i => toPos (data i)) (toPos g) l =
      mseOf (fieldCorrelation c.latLarge c.longLarge c.ageLarge c.phiLarge c.usePv) s noise data g l := rfl

theorem mse_small (c : MapConfig) {n : ℕ} (s noise : ℝ) (data : Fin n → FloatPos) (g : FloatPos) (l : Fin n → ℝ) :
    meanSquaredError (smallScales c) s noise (fun i => toPos (data i)) (toPos g) l =
      mseOf (fieldCorrelation c.latSmall c.longSmall c.ageSmall c.phiSmall c.usePv) s noise data g l := rfl

theorem best_large (c : MapConfig) {n : ℕ} (s noise : ℝ) (data : Fin n → FloatPos) (g : FloatPos) (l : Fin n → ℝ) :
    IsBestWeights (largeScales c) s noise (fun i => toPos (data i)) (toPos g) l ↔
      BestWeights (fieldCorrelation c.latLarge c.longLarge c.ageLarge c.phiLarge c.usePv) s noise data g l := Iff.rfl

theorem best_small (c : MapConfig) {n : ℕ} (s noise : ℝ) (data : Fin n → FloatPos) (g : FloatPos) (l : Fin n → ℝ) :
    IsBestWeights (smallScales c) s noise (fun i => toPos (data i)) (toPos g) l ↔
      BestWeights (fieldCorrelation c.latSmall c.longSmall c.ageSmall c.phiSmall c.usePv) s noise data g l := Iff.rfl

theorem observations_eq (h : HistData ℝ) : observations h = histObs h := rfl

theorem mapM_id_some {α : Type} {n : ℕ} (f : Fin n → α) :
    (List.ofFn fun i => some (f i)).mapM id = some (List.ofFn f) := by
  have e : (List.ofFn fun i => some (f i)) = (List.ofFn f).map some := by rw [List.map_ofFn]; rfl
  rw [e]
  generalize List.ofFn f = l
  induction l with
  | nil => rfl
  | cons a l ih => rw [List.map_cons, List.mapM_cons, ih]; rfl

theorem getD_ofFn {n : ℕ} (f : Fin n → ℝ) : (fun i : Fin n => (List.ofFn f).getD i 0) = f := by
  funext i
  simp [List.getD_eq_getElem?_getD]

/-! ## The two mappings -/

section Stages

variable {n : ℕ} (c : MapConfig) (hc : ProperConfig c) (g : Pos) (data : Fin n → Pos)
  (hpv : c.usePv = 1 → g.c3 ≠ 0 ∧ ∀ i, (data i).c3 ≠ 0) (hn : 0 < n)

theorem proper_large (hc : ProperConfig c) : ProperScales (largeScales c) := ⟨hc.longLarge, hc.latLarge, fun h => (hc.phi h).1⟩

theorem proper_small (hc : ProperConfig c) : ProperScales (smallScales c) := ⟨hc.longSmall, hc.latSmall, fun h => (hc.phi h).2⟩

include hc hpv hn

/-- With noise the two stages succeed. -/
theorem mapStages_pos (signal noise : ℝ) (hs : 0 ≤ signal) (hnoise : 0 < noise) :
    ∃ (w1 : Fin n → ℝ) (W : Fin n → Fin n → ℝ) (e1 : ℝ), IsBestWeights (largeScales c) signal noise data g w1 ∧
      (∀ i, IsBestWeights (largeScales c) signal noise data (data i) (W i)) ∧ 0 ≤ e1 ∧
      e1 ^ 2 = meanSquaredError (largeScales c) signal noise data g w1 ∧
      ∀ (sal res : Fin n → ℝ), (∀ i, res i = sal i - ∑ j, W i j * sal j) →
        ∃ (w2 : Fin n → ℝ) (e2 : ℝ), IsBestWeights (smallScales c) (populationVariance (List.ofFn res)) noise data g w2 ∧
          0 ≤ e2 ∧ e2 ^ 2 = meanSquaredError (smallScales c) (populationVariance (List.ofFn res)) noise data g w2 ∧
          mapStages c g sal data signal noise = .ok
            ⟨some (∑ j, w1 j * sal j + ∑ j, w2 j * res j), some (Real.sqrt (e1 ^ 2 + e2 ^ 2)), some noise, signal⟩ := by
  obtain ⟨w1, W, e1, ed, h1, h2, h3, h4, h5⟩ := map_is_best_estimate (largeScales c) (proper_large c hc) signal noise hs hnoise hn g data hpv
  refine ⟨w1, W, e1, h1, fun i => (h4 i).1, h2, h3, fun sal res hres => ?_⟩
  obtain ⟨w2, W2, e2, ed2, i1, i2, i3, i4, i5⟩ := map_is_best_estimate (smallScales c) (proper_small c hc)
    (populationVariance (List.ofFn res)) noise (populationVariance_nonneg _) hnoise hn g data hpv
  refine ⟨w2, e2, i1, i2, i3, ?_⟩
  unfold mapStages
  rw [h5 sal]
  simp only [bind, Except.bind, Option.map_some]
  have hr : (fun i => some (sal i - ∑ j, W i j * sal j)) = fun i => some (res i) := by funext i; rw [hres]
  rw [hr, mapM_id_some]
  simp only
  have hne : List.ofFn res ≠ [] := by
    intro h0
    have := congrArg List.length h0
    simp at this
    omega
  rw [signal_known _ hne]
  simp only [getD_ofFn]
  rw [i5 res]
  simp only [pure, Except.pure, addOpt, combineErr, bind, Option.bind]
  rw [npSqrt_of_nonneg _ (by positivity)]
  simp only [pow_two]

omit hc in
/-- Without noise the two stages fail. -/
theorem mapStages_zero (hc : ProperConfig c) (signal : ℝ) (hs : 0 ≤ signal) (sal : Fin n → ℝ) :
    mapStages c g sal data signal 0 = .error .linAlgError := by
  have h1 : covarXytPv data data (largeScales c) = .ok (Matrix.of fun i j => covarEntry (largeScales c) (data i) (data j)) := by
    unfold covarXytPv
    rw [if_neg (by omega), if_neg (by rintro ⟨hp, i, hi⟩; exact (hpv hp).2 i hi), if_neg (by omega),
      if_neg (by rintro ⟨hp, i, hi⟩; exact (hpv hp).2 i hi)]
  by_cases hdet : (signal • (Matrix.of fun i j => covarEntry (largeScales c) (data i) (data j))).det = 0
  · unfold mapStages mapDataGrid
    rw [h1]
    simp only [bind, Except.bind]
    rw [if_pos (by rw [zero_smul, add_zero]; exact hdet)]
  · have hne : signal ≠ 0 := by
      rintro rfl
      apply hdet
      have : Nonempty (Fin n) := ⟨⟨0, hn⟩⟩
      rw [zero_smul, Matrix.det_zero]
    have hdet' : (Matrix.of fun i j => correlation (largeScales c) (data i) (data j)).det ≠ 0 := by
      intro h0
      apply hdet
      rw [Matrix.det_smul]
      have e : (Matrix.of fun i j => covarEntry (largeScales c) (data i) (data j)) =
          Matrix.of fun i j => correlation (largeScales c) (data i) (data j) := by ext i j; simp [correlation_eq]
      rw [e, h0, mul_zero]
    obtain ⟨r, hr, hd, -⟩ := map_interpolates (largeScales c) (proper_large c hc) signal (lt_of_le_of_ne hs (Ne.symm hne)) sal g data hpv
      hdet' hn
    unfold mapStages
    rw [hr]
    simp only [bind, Except.bind]
    have hres : (fun i => (r.dataSal i).map fun v => sal i - v) = fun _ => some (0 : ℝ) := by
      funext i; rw [(hd i).1]; simp
    rw [hres, mapM_id_some]
    simp only
    have hne2 : (List.ofFn fun _ : Fin n => (0 : ℝ)) ≠ [] := by
      intro h0
      have := congrArg List.length h0
      simp at this
      omega
    have hv : populationVariance (List.ofFn fun _ : Fin n => (0 : ℝ)) = 0 := by
      unfold populationVariance
      simp
    rw [signal_known _ hne2, hv]
    simp only [getD_ofFn]
    rw [map_constant_salinity_fails (smallScales c) (fun _ => 0) g data hn (fun hp => (hpv hp).2)]

end Stages

end Verif.Level
