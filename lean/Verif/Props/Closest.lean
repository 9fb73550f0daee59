import Verif.Spec.Draws
import Verif.Props.Besthist

/-!
# C178: the closest third is always chosen
-/

set_option linter.unusedSectionVars false

namespace Verif.Props

open Verif.Np Verif.Spec Verif.Finders

/-- C178: without `MAP_USE_PV`, a cast in the ellipse with fewer than a third of `max_casts` others at least as close is chosen, whatever the draws and the
sort. -/
theorem closest_third_chosen (A : BesthistArgs) (hpv : A.mapPvUse ≠ 1) (argsort : List (Option ℝ) → List ℕ) (hsort : IsArgsort argsort)
    (rand : ℕ → ℕ → List ℝ) (hrand : ValidRand rand) (casts : List Cast) (hmc : A.maxCasts = 3 ∨ 5 ≤ A.maxCasts) (i : ℕ)
    (hi : ∃ c, casts[i]? = some c ∧ InEllipse A c) (hr : (rivals A casts i).card < (A.maxCasts + 2) / 3) :
    ∃ out, findBesthist A argsort rand casts = .ok out ∧ i ∈ out := by
  have hne : casts ≠ [] := by rintro rfl; simp at hi
  rcases le_or_gt (numInside A casts) A.maxCasts with hm | hm
  · obtain ⟨out, h1, -, h2⟩ := besthist_few_returns_all A argsort rand casts hne (fun h => absurd h hpv) hm
    exact ⟨out, h1, (h2 i).2 hi⟩
  obtain ⟨R, L, S, h1, -, h3, h4, -, h5, -⟩ := besthist_closest_partial A hpv argsort hsort rand hrand casts hmc hm
  obtain ⟨out, g1, -, g2⟩ := besthist_many_exact_size A argsort hsort rand hrand casts (fun h => absurd h hpv) hmc hm
  rw [h1] at g1
  obtain rfl := Except.ok.inj g1
  refine ⟨_, h1, ?_⟩
  by_contra hc
  simp only [List.mem_append, not_or] at hc
  obtain ⟨⟨cR, cL⟩, -⟩ := hc
  obtain ⟨c', hc', hin⟩ := hi
  have hLn : L.Nodup := (List.nodup_append.1 (List.nodup_append.1 g2).1).2.1
  classical
  have hsub : L.toFinset ⊆ rivals A casts i := by
    intro k hk
    rw [List.mem_toFinset] at hk
    have hk' : k ∈ R ++ L ++ S := by simp [hk]
    obtain ⟨c, hcl, hce⟩ := besthist_only_inside A argsort hsort rand hrand casts (by omega) _ h1 k hk'
    obtain ⟨hlt, hval⟩ := List.getElem?_eq_some_iff.1 hcl
    unfold rivals
    rw [Finset.mem_filter, Finset.mem_range]
    refine ⟨hlt, fun e => cL (e ▸ hk), c, c', hcl, hc', hce, ?_⟩
    have := h5 k hk i c' hc' hin cR cL
    rwa [getElem!_pos casts k hlt, hval] at this
  have := Finset.card_le_card hsub
  rw [List.toFinset_card_of_nodup hLn] at this
  omega

/-- Seven casts in the ellipse, five asked for: a cast with one rival is chosen. -/
theorem second_chosen (argsort : List (Option ℝ) → List ℕ) (hsort : IsArgsort argsort) (rand : ℕ → ℕ → List ℝ) (hrand : ValidRand rand) :
    ∃ out, findBesthist (exArgs 5 0) argsort rand exCasts = .ok out ∧ 2 ∈ out := by
  classical
  refine closest_third_chosen (exArgs 5 0) (by simp [exArgs]) argsort hsort rand hrand exCasts (by simp [exArgs]) 2
    ⟨_, rfl, by unfold InEllipse exArgs; norm_num⟩ ?_
  have h : rivals (exArgs 5 0) exCasts 2 ⊆ {0} := by
    intro k hk
    unfold rivals at hk
    rw [Finset.mem_filter, Finset.mem_range] at hk
    obtain ⟨h1, h2, c, c', h3, h4, h5, h6⟩ := hk
    have h1 : k < 9 := h1
    obtain rfl := Option.some.inj h4
    interval_cases k
    · simp
    all_goals
      first
      | exact absurd rfl h2
      | (exfalso
         obtain rfl := Option.some.inj h3
         obtain ⟨x, hx, hle⟩ := h6 _ rfl
         simp only [distance, exArgs, bind, Option.bind, Option.some.injEq, reduceCtorEq] at hx
         all_goals
           subst hx
           norm_num [exArgs] at hle)
  calc _ ≤ ({0} : Finset ℕ).card := Finset.card_le_card h
    _ < _ := by simp [exArgs]

end Verif.Props
