import Verif.Props.NoEffect
import Verif.Props.EndsExample

/-!
# A concrete case for C172

A run with seven casts in reach.
-/

set_option linter.unusedSectionVars false

namespace Verif.Props

open Verif.Np Verif.Helper Verif.Region Verif.Profile Verif.Update Verif.Spec Verif.Spec.Profile Verif.Level Verif.Finders
open Verif.Lemmas.Profile Verif.Utilities Verif.Saf Verif.Topo

/-- The run ends normally and stores the same for every `MAX_CASTS` from seven on and all scales of the potential vorticity. -/
theorem idle_seven (k : ℕ) (hk : 7 ≤ k) (a b : ℝ) (st : Setting → ℝ) :
    (updateMapping (withIdle (endsRun voidLast) k a b st).args fun _ => none).1 = none ∧
      ∃ file file' : MapFile ℝ, finalFs (endsRun voidLast).args (fun _ => none) = Function.update (fun _ => none) (endsRun voidLast).args.savePath (some (.whole file)) ∧
        finalFs (withIdle (endsRun voidLast) k a b st).args (fun _ => none) =
          Function.update (fun _ => none) (endsRun voidLast).args.savePath (some (.whole file')) ∧ SameButRecord file file' := by
  obtain ⟨h1, h2⟩ := idle_settings (endsRun voidLast) (fun _ => none) void_wellFormed (by change (0 : ℤ) ≠ 1; norm_num) k a b st (by
    refine .inr ?_
    intro f hf lat long hlat hlong
    rcases void_source f hf with rfl | rfl
    · cases hlat
    · obtain rfl := Option.some.inj hlat
      obtain rfl := Option.some.inj hlong
      exact ⟨void_within.few, by rw [void_reach_last]; exact hk⟩)
  refine ⟨by rw [h1]; exact void_last_ends, ?_⟩
  rcases h2 with ⟨-, h2⟩ | h2
  · exfalso
    obtain ⟨file, h3, -⟩ := fresh_run_saved (endsRun voidLast) (fun _ => none) isArgsort_stable (by change List.Pairwise _ [(1 : ℝ), 2]; norm_num) rfl void_last_ends
    rw [h2] at h3
    have := congrFun h3 (endsRun voidLast).savePath
    simp at this
  · exact h2

end Verif.Props
