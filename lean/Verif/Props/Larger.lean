import Verif.Spec.Larger
import Verif.Props.Besthist

/-!
# C179: a larger ellipse loses no cast
-/

set_option linter.unusedSectionVars false

namespace Verif.Props

open Verif.Np Verif.Spec Verif.Finders Verif.Utilities

theorem sq_div_le (d s s' : ℝ) (h0 : 0 < s) (h : s ≤ s') : (d / (3 * s')) ^ 2 ≤ (d / (3 * s)) ^ 2 := by
  rw [div_pow, div_pow]
  exact div_le_div_of_nonneg_left (sq_nonneg d) (by positivity) (pow_le_pow_left₀ (by linarith) (by linarith) 2)

theorem inEllipse_larger (A A' : BesthistArgs) (h : LargerEllipse A A') (c : Cast) (hc : InEllipse A c) : InEllipse A' c := by
  obtain ⟨x, y, hx, hy, hc⟩ := hc
  have h1 := sq_div_le (x - A.long) _ _ h.longLarge.1 h.longLarge.2
  have h2 := sq_div_le (y - A.lat) _ _ h.latLarge.1 h.latLarge.2
  refine ⟨x, y, hx, hy, ?_⟩
  rw [h.lat, h.long, h.z]
  by_cases hpv : A'.mapPvUse = 1
  · obtain ⟨p1, p2, p3⟩ := h.vorticity hpv
    rw [if_pos p1] at hc
    rw [if_pos hpv]
    obtain ⟨w, w1, w2, w3, hc⟩ := hc
    refine ⟨w, w1, w2, w3, lt_of_le_of_lt ?_ hc⟩
    refine add_le_add (add_le_add h1 h2) ?_
    exact div_le_div_of_nonneg_left (div_nonneg (sq_nonneg _) (add_nonneg (sq_nonneg _) (sq_nonneg _))) (by positivity) (pow_le_pow_left₀ p2.le p3 2)
  · rw [if_neg hpv]
    split_ifs at hc
    · obtain ⟨w, -, -, -, hc⟩ := hc
      refine lt_of_le_of_lt ?_ hc
      have := div_nonneg (div_nonneg (sq_nonneg (potentialVorticity A.lat A.z - potentialVorticity y w))
        (add_nonneg (sq_nonneg (potentialVorticity A.lat A.z)) (sq_nonneg (potentialVorticity y w)))) (sq_nonneg A.phiLarge)
      linarith
    · linarith

/-- C179: with larger scales, or without `MAP_USE_PV`, `find_besthist` returns all casts it returned before (as long as it may use all casts in the larger
ellipse), and it does not start to fail. -/
theorem larger_keeps (A A' : BesthistArgs) (h : LargerEllipse A A') (argsort argsort' : List (Option ℝ) → List ℕ) (hsort : IsArgsort argsort)
    (rand rand' : ℕ → ℕ → List ℝ) (hrand : ValidRand rand) (casts : List Cast) (h1 : 1 ≤ A.maxCasts) (hm : numInside A' casts ≤ A'.maxCasts) (out : List ℕ)
    (hout : findBesthist A argsort rand casts = .ok out) :
    ∃ out', findBesthist A' argsort' rand' casts = .ok out' ∧ ∀ i ∈ out, i ∈ out' := by
  have hne : casts ≠ [] := by
    rintro rfl
    unfold findBesthist at hout
    simp at hout
  have hz : A'.mapPvUse = 1 → ∀ c ∈ casts, c.z ≠ some 0 := by
    intro hpv c hc h0
    rw [besthist_zero_depth_fails A argsort rand casts (h.vorticity hpv).1 c hc h0] at hout
    exact absurd hout (by simp)
  obtain ⟨out', g1, -, g2⟩ := besthist_few_returns_all A' argsort' rand' casts hne hz hm
  refine ⟨out', g1, fun i hi => ?_⟩
  obtain ⟨c, c1, c2⟩ := besthist_only_inside A argsort hsort rand hrand casts h1 out hout i hi
  exact (g2 i).2 ⟨c, c1, inEllipse_larger A A' h c c2⟩

/-- Nine casts, seven of them in the ellipse: the five chosen stay chosen with twice the scale of longitude. -/
theorem larger_five (rand : ℕ → ℕ → List ℝ) (hrand : ValidRand rand) : ∃ out out',
    findBesthist (exArgs 5 0) (fun l => stableArgsort (K := WithTop ℝ) l) rand exCasts = .ok out ∧ out.length = 5 ∧
    findBesthist { exArgs 300 0 with longLarge := 16 } (fun l => stableArgsort (K := WithTop ℝ) l) rand exCasts = .ok out' ∧ ∀ i ∈ out, i ∈ out' := by
  obtain ⟨out, h1, h2, -⟩ := besthist_many_exact_size (exArgs 5 0) _ isArgsort_stable rand hrand exCasts (fun h => absurd h (by simp [exArgs])) (by simp [exArgs])
    (by rw [exCasts_numInside]; simp [exArgs])
  obtain ⟨out', g1, g2⟩ := larger_keeps (exArgs 5 0) { exArgs 300 0 with longLarge := 16 }
    ⟨rfl, rfl, rfl, by norm_num [exArgs], by norm_num [exArgs], fun h => absurd h (by simp [exArgs])⟩ _ (fun l => stableArgsort (K := WithTop ℝ) l)
    isArgsort_stable rand rand hrand exCasts (by simp [exArgs]) (by
      unfold numInside
      exact List.countP_le_length.trans (by simp [exCasts, exArgs])) out h1
  exact ⟨out, out', h1, h2, g1, g2⟩

end Verif.Props
