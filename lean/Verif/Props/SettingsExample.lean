import Verif.Props.Settings
import Verif.Props.CleanExample

/-!
# A concrete case for C167

The seven casts of `CleanExample`, with another directory and the numbers as they are loaded.
-/

set_option linter.unusedSectionVars false

namespace Verif.Props

open Verif.Np Verif.Configuration Verif.Spec Verif.Helper Verif.Region Verif.Profile Verif.Update Verif.Spec.Profile Verif.Level Verif.Finders
open Verif.Lemmas.Profile Verif.Utilities Verif.Saf Verif.Topo

noncomputable def loadedConfig : MapConfig := ⟨8, 4, 4, 2, 0.1, 0.02, 20, 10, 0, 250, 100⟩

/-- A run with another directory for the reference data, and a misspelt name. -/
example : (updateMapping (sevenRun loadedConfig 300).args fun _ => none).1 = none := by
  have hC : SevenConfig loadedConfig := ⟨rfl, rfl, rfl, rfl, by norm_num [loadedConfig]⟩
  have hups : ∀ u ∈ [("HISTORICAL_DIRECTORY", Value.text "/data/ref/"), ("MAX_CASTS", .int 5)], ¬ ForMapping u.1 := by
    intro u hu
    simp only [List.mem_cons, List.not_mem_nil, or_false] at hu
    rcases hu with rfl | rfl <;> simp [ForMapping]
  exact default_clean_run_ends (sevenRun loadedConfig 300) [("HISTORICAL_DIRECTORY", .text "/data/ref/"), ("MAX_CASTS", .int 5)] hups (default_numbers _ hups)
    (fun _ => none) Verif.Lemmas.Depth.grid2_isInterp2d (wEnv_topo 91 108 170 186) (seven_wellFormed _ _) isArgsort_stable (wEnv_rand 91 108 170 186) rfl rfl
    (seven_shape _ _) (seven_all_clean _ _ hC) (seven_some_covered _ _ hC)

end Verif.Props
