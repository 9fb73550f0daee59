import Verif.Spec.Chance
import Verif.Props.NoEffect

/-!
# C176: when random numbers have no influence
-/

set_option linter.unusedSectionVars false

namespace Verif.Props

open Verif.Np Verif.Helper Verif.Region Verif.Profile Verif.Update Verif.Spec Verif.Spec.Profile Verif.Level Verif.Finders
open Verif.Lemmas.Profile Verif.Utilities Verif.Saf Verif.Topo

theorem findBesthist_chance (A : BesthistArgs) (k : ℕ) (argsort : List (Option ℝ) → List ℕ) (rand rand' : ℕ → ℕ → List ℝ) (casts : List Cast)
    (h : numInside A casts ≤ A.maxCasts) (hk : numInside A casts ≤ k) :
    findBesthist { A with maxCasts := k } argsort rand' casts = findBesthist A argsort rand casts := by
  rw [numInside_eq] at h hk
  have e : indexEllipse { A with maxCasts := k } casts = indexEllipse A casts := rfl
  unfold findBesthist
  simp only [e, if_neg (show ¬ (indexEllipse A casts).length > A.maxCasts by omega), if_neg (show ¬ (indexEllipse A casts).length > k by omega)]
  rfl

/-- With `MAP_USE_PV`, too, the ellipse holds at most the casts in reach. -/
theorem numInside_le_reach (R : FloatRun) (casts : List (RefCast ℝ)) (lat long date z : ℝ) (gz : List ℝ) :
    numInside (besthistArgs R.env lat (matchLongitude (wrapLongitude (casts.map (·.long))) long) date z)
      (Verif.Profile.castsOf (casts.map (·.lat)) (wrapLongitude (casts.map (·.long))) (casts.map decimalDate) gz) ≤
      (nearCasts R.env.cfg lat long casts).length := by
  classical
  have hle := numInside_le { R with env := { R.env with cfg := { R.env.cfg with usePv := 0 } } } (by norm_num) casts lat long date z gz
  refine le_trans ?_ hle
  unfold numInside
  refine List.countP_mono_left fun v _ hv => ?_
  have hv := of_decide_eq_true hv
  refine decide_eq_true ?_
  unfold InEllipse besthistArgs at hv ⊢
  obtain ⟨x, y, hx, hy, h⟩ := hv
  refine ⟨x, y, hx, hy, ?_⟩
  rw [if_neg (by norm_num)]
  split_ifs at h
  · obtain ⟨w, -, -, -, h⟩ := h
    refine lt_of_le_of_lt ?_ h
    exact le_add_of_nonneg_right (div_nonneg (div_nonneg (sq_nonneg _) (add_nonneg (sq_nonneg _) (sq_nonneg _))) (sq_nonneg _))
  · exact h

theorem chosenCasts_chance (R : FloatRun) (hw : WellFormedDisk R.env.disk) (k : ℕ) (rand : ℕ → ℕ → List ℝ) (st : Setting → ℝ) (f : FloatProfile)
    (lat long z : ℝ) (h1 : (inReach R lat long).length ≤ R.env.maxCasts) (h2 : (inReach R lat long).length ≤ k) :
    chosenCasts (withChance R k rand st).env f lat long z = chosenCasts R.env f lat long z := by
  refine chosenCasts_congr R.env (withChance R k rand st).env f lat long z rfl rfl rfl rfl rfl rfl rfl rfl rfl ?_
  intro boxes h gz hbox hh
  have hne : refCasts R.env.disk R.env.name boxes ≠ [] := by
    intro h0
    have := (hist_locations_spec R.env.disk hw R.env.name boxes).1 h0
    rw [hh] at this
    exact absurd this (by simp)
  have hs := (hist_locations_spec R.env.disk hw R.env.name boxes).2 hne
  rw [hh] at hs
  obtain rfl := Except.ok.inj hs
  have hsur : surrounding R.env long lat = refCasts R.env.disk R.env.name boxes := by
    unfold surrounding
    rw [hbox]
  unfold inReach at h1 h2
  rw [hsur] at h1 h2
  have le := numInside_le_reach R (refCasts R.env.disk R.env.name boxes) lat long f.date z gz
  exact findBesthist_chance (besthistArgs R.env lat _ f.date z) k _ R.env.rand rand _ (le.trans h1) (le.trans h2)

theorem profileOf_chance (R : FloatRun) (hw : WellFormedDisk R.env.disk) (k : ℕ) (rand : ℕ → ℕ → List ℝ) (st : Setting → ℝ) (f : FloatProfile)
    (hk : ∀ lat long, f.lat = some lat → f.long = some long → (inReach R lat long).length ≤ R.env.maxCasts ∧ (inReach R lat long).length ≤ k) :
    profileOf (withChance R k rand st).env f = profileOf R.env f := by
  refine profileOf_congr R.env (withChance R k rand st).env f ?_ rfl
  intro lat long hlat hlong
  exact prepare_congr R.env (withChance R k rand st).env f lat long rfl fun z =>
    chosenCasts_chance R hw k rand st f lat long z (hk lat long hlat hlong).1 (hk lat long hlat hlong).2

/-- C176: with or without `MAP_USE_PV` and `MAP_USE_SAF`, if no profile has more than `MAX_CASTS` casts in reach, nothing a run does depends on random numbers
or on `MAX_CASTS`, if it is not less than the number of casts in reach of any profile: it ends with the same exception or ends normally in both cases, and
what it stores differs at most in the recorded settings. -/
theorem chance_idle (R : FloatRun) (fs : Fs ℝ) (hw : WellFormedDisk R.env.disk) (k : ℕ) (rand : ℕ → ℕ → List ℝ) (st : Setting → ℝ)
    (hk : ∀ f ∈ R.source, ∀ lat long, f.lat = some lat → f.long = some long →
      (inReach R lat long).length ≤ R.env.maxCasts ∧ (inReach R lat long).length ≤ k) :
    (updateMapping (withChance R k rand st).args fs).1 = (updateMapping R.args fs).1 ∧
      ((finalFs (withChance R k rand st).args fs = fs ∧ finalFs R.args fs = fs) ∨
        ∃ file file' : MapFile ℝ, finalFs R.args fs = Function.update fs R.args.savePath (some (.whole file)) ∧
          finalFs (withChance R k rand st).args fs = Function.update fs R.args.savePath (some (.whole file')) ∧ SameButRecord file file') := by
  have e : (withChance R k rand st).args = { R.args with cfg := st } := by
    have := profilesOf_congr R.env (withChance R k rand st).env R.source fun f hm => profileOf_chance R hw k rand st f (hk f hm)
    unfold FloatRun.args
    rw [show (withChance R k rand st).source = R.source from rfl, this]
    rfl
  rw [e]
  exact record_no_effect R.args st fs

/-- C176: with the same settings, a run stores the very same whatever the random numbers. -/
theorem chance_same (R : FloatRun) (fs : Fs ℝ) (hw : WellFormedDisk R.env.disk) (rand : ℕ → ℕ → List ℝ)
    (hk : ∀ f ∈ R.source, ∀ lat long, f.lat = some lat → f.long = some long → (inReach R lat long).length ≤ R.env.maxCasts) :
    updateMapping (withChance R R.env.maxCasts rand R.settings).args fs = updateMapping R.args fs := by
  have e : (withChance R R.env.maxCasts rand R.settings).args = R.args := by
    have := profilesOf_congr R.env (withChance R R.env.maxCasts rand R.settings).env R.source fun f hm =>
      profileOf_chance R hw R.env.maxCasts rand R.settings f fun lat long h1 h2 => ⟨hk f hm lat long h1 h2, hk f hm lat long h1 h2⟩
    unfold FloatRun.args
    rw [show (withChance R R.env.maxCasts rand R.settings).source = R.source from rfl, this]
    rfl
  rw [e]

end Verif.Props
