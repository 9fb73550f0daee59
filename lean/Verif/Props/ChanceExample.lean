import Verif.Props.Chance
import Verif.Props.EndsExample
import Verif.Props.CleanExample

/-!
# Concrete cases for C176
-/

set_option linter.unusedSectionVars false

namespace Verif.Props

open Verif.Np Verif.Helper Verif.Region Verif.Profile Verif.Update Verif.Spec Verif.Spec.Profile Verif.Level Verif.Finders
open Verif.Lemmas.Profile Verif.Utilities Verif.Saf Verif.Topo

/-- The run with seven casts in reach ends normally and stores the same whatever the random numbers. -/
theorem chance_seven (rand : ℕ → ℕ → List ℝ) :
    (updateMapping (withChance (endsRun voidLast) 100 rand (endsRun voidLast).settings).args fun _ => none).1 = none ∧
      finalFs (withChance (endsRun voidLast) 100 rand (endsRun voidLast).settings).args (fun _ => none) = finalFs (endsRun voidLast).args fun _ => none := by
  have h := chance_same (endsRun voidLast) (fun _ => none) void_wellFormed rand (by
    intro f hf lat long hlat hlong
    rcases void_source f hf with rfl | rfl
    · cases hlat
    · obtain rfl := Option.some.inj hlat
      obtain rfl := Option.some.inj hlong
      exact void_within.few)
  have e : (100 : ℕ) = (endsRun voidLast).env.maxCasts := rfl
  rw [e]
  unfold finalFs
  rw [h]
  exact ⟨void_last_ends, rfl⟩

/-- A run with seven casts in reach, `MAX_CASTS` 7 and any use of the potential vorticity. -/
theorem chance_vorticity (pv : ℤ) (C : MapConfig) (hC : SevenConfig C) (fs : Fs ℝ) (rand : ℕ → ℕ → List ℝ) :
    updateMapping (withChance (sevenRun { C with usePv := pv } 7) 7 rand (sevenRun { C with usePv := pv } 7).settings).args fs =
      updateMapping (sevenRun { C with usePv := pv } 7).args fs := by
  refine chance_same (sevenRun { C with usePv := pv } 7) fs (seven_wellFormed _ _) rand ?_
  intro f hf lat long hlat hlong
  rcases seven_source _ _ f hf with rfl | rfl
  · cases hlat
  · obtain rfl := Option.some.inj hlat
    obtain rfl := Option.some.inj hlong
    rw [show inReach (sevenRun { C with usePv := pv } 7) 5 105 = inReach (sevenRun C 7) 5 105 from rfl, seven_reach C 7 hC]
    exact (by simp [sevenCasts] : sevenCasts.length ≤ 7)

end Verif.Props
