import Verif.Props.ErrorBounds
import Verif.Props.SavedExample
import Verif.Props.ExcludeExample

/-!
# A concrete case for C173
-/

set_option linter.unusedSectionVars false
set_option maxRecDepth 4000

namespace Verif.Props

open Verif.Np Verif.Utilities Verif.Helper Verif.Region Verif.Profile Verif.Spec Verif.Spec.Profile Verif.Topo Verif.Finders Verif.Level Verif.Stats
open Verif.Lemmas.Profile Verif.Lemmas.Depth Verif.Update

/-- C173 on a run over two profiles: an error is saved at the second level of the second profile, and the saved variances limit it. -/
theorem world_error : ∃ (file : MapFile ℝ) (e nv V : ℝ), finalFs worldRun.args (fun _ => none) "out" = some (.whole file) ∧
    storedAt file .mapErrors 1 1 = some (some e) ∧ storedAt file .noise 1 1 = some (some nv) ∧ storedAt file .signal 1 1 = some (some V) ∧
    0 < e ∧ e ^ 2 ≤ 4 * V + 2 * nv ∧ nv ≤ 50 * e ^ 2 := by
  obtain ⟨file, h1, -, -, -, -, -, e, -, -, -, -, he⟩ := world_saved
  have hcfg : ProperConfig wConfig := by constructor <;> norm_num [wConfig]
  have hsur : surrounding (wEnv 91 108 170 186) 105 5 = wSix 91 ++ wTwo 108 := by
    unfold surrounding
    rw [world_open.boxes]
    exact world_open.casts
  obtain ⟨file', g1, -, g3⟩ := saved_error_bounds worldRun (fun _ => none) grid2_isInterp2d (wEnv_topo _ _ _ _)
    (wDisk_wellFormed _ _ _ _) isArgsort_stable (wEnv_rand _ _ _ _) hcfg
    (by change 100 = 3 ∨ 5 ≤ 100; norm_num) worldRun_no rfl rfl worldRun_ends
  have hfile : file = file' := by
    have g2 : finalFs worldRun.args (fun _ => none) "out" = some (.whole file') := by
      rw [g1]
      exact Function.update_self ..
    have := h1.symm.trans g2
    cases this
    rfl
  subst hfile
  obtain ⟨nv, V, a1, a2, -, -, a3, a4, a5⟩ := g3 1 (wFloat 105) 5 105 rfl rfl rfl (by norm_num) (by norm_num) rfl rfl rfl (by
      rw [show worldRun.env = wEnv 91 108 170 186 from rfl, hsur]
      intro c hc y x hy hx
      simp only [wSix, wTwo, List.cons_append, List.nil_append, List.mem_cons, List.not_mem_nil, or_false] at hc
      rcases hc with rfl | rfl | rfl | rfl | rfl | rfl | rfl | rfl <;>
        (obtain rfl := Option.some.inj hy
         obtain rfl := Option.some.inj hx
         norm_num)) 1 e (by change 1 < 2; norm_num) he
  refine ⟨file, e, nv, V, h1, he, a1, a2, a3, a4, ?_⟩
  have : (worldRun.env.maxCasts : ℝ) = 100 := by
    change ((100 : ℕ) : ℝ) = 100
    norm_num
  rw [this] at a5
  linarith

end Verif.Props
