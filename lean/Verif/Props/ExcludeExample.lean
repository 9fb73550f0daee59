import Verif.Props.Exclude
import Verif.Props.Unseen

/-!
# Concrete cases for C171

The run of `ProfileWorld`, whose limit is 600 dbar, with levels at 500 and 1000 dbar.
-/

set_option linter.unusedSectionVars false

namespace Verif.Props

open Verif.Np Verif.Helper Verif.Region Verif.Profile Verif.Update Verif.Spec Verif.Spec.Profile Verif.Level Verif.Finders
open Verif.Lemmas.Profile Verif.Utilities Verif.Saf Verif.Topo

noncomputable def worldRun : FloatRun := wRun (wEnv 91 108 170 186) [wLost, wFloat 105] [1, 2]

theorem worldRun_ends : (updateMapping worldRun.args (fun _ => none)).1 = none :=
  world_runs 91 108 108 105 170 186 10 world_open [wLost, wFloat 105] [1, 2] rfl (by simp) (by simp) (fun _ => none) rfl

theorem worldRun_pres (f : FloatProfile) (hf : f ∈ worldRun.source) (n : ℕ) (q : ℝ) (h : f.pres[n]? = some (some q)) : q = 500 ∨ q = 1000 := by
  have hf : f = wLost ∨ f = wFloat 105 := by simpa [worldRun, wRun] using hf
  have hq := List.mem_of_getElem? h
  rcases hf with rfl | rfl <;> simpa [wLost, wFloat] using hq

theorem worldRun_shape : ∀ f ∈ worldRun.source, f.sal.length = worldRun.levels := by
  intro f hf
  have hf : f = wLost ∨ f = wFloat 105 := by simpa [worldRun, wRun] using hf
  rcases hf with rfl | rfl <;> rfl

theorem worldRun_no : worldRun.no.Pairwise (· < ·) := by change List.Pairwise _ [(1 : ℝ), 2]; norm_num

theorem withExclude_same (R : FloatRun) : withExclude R R.env.cfg.pExclude R.settings = R := rfl

/-- With the limit at 800 dbar the run still ends normally. -/
theorem exclude_some (st : Setting → ℝ) : (updateMapping (withExclude worldRun 800 st).args (fun _ => none)).1 = none := by
  obtain ⟨file, h1, h⟩ := raise_exclude worldRun (fun _ => none) 800 st (by change (600 : ℝ) ≤ 800; norm_num) isArgsort_stable worldRun_no rfl rfl worldRun_shape worldRun_ends
  rcases h with ⟨-, h, -⟩ | ⟨hno, -⟩
  · exact h
  · exfalso
    obtain ⟨file', h1', h'⟩ := raise_exclude worldRun (fun _ => none) worldRun.env.cfg.pExclude worldRun.settings le_rfl isArgsort_stable worldRun_no rfl rfl worldRun_shape worldRun_ends
    rw [h1] at h1'
    have e := congrFun h1' worldRun.savePath
    simp only [Function.update_self, Option.some.injEq, FileState.whole.injEq] at e
    subst e
    rcases h' with ⟨⟨i, f, n, q, col, v, a1, a2, a3, a4, a5⟩, -⟩ | ⟨-, h'⟩
    · rcases worldRun_pres f (List.mem_of_getElem? a1) n q a2 with rfl | rfl
      · change (600 : ℝ) ≤ 500 at a3
        norm_num at a3
      · exact hno ⟨i, f, n, 1000, col, v, a1, a2, by norm_num, a4, a5⟩
    · rw [withExclude_same, worldRun_ends] at h'
      cases h'

/-- With the limit at 1001 dbar, deeper than the float, it fails. -/
theorem exclude_all (st : Setting → ℝ) : (updateMapping (withExclude worldRun 1001 st).args (fun _ => none)).1 = some .nameError := by
  obtain ⟨file, -, h⟩ := raise_exclude worldRun (fun _ => none) 1001 st (by change (600 : ℝ) ≤ 1001; norm_num) isArgsort_stable worldRun_no rfl rfl worldRun_shape worldRun_ends
  rcases h with ⟨⟨i, f, n, q, col, v, a1, a2, a3, -⟩, -⟩ | ⟨-, h⟩
  · rcases worldRun_pres f (List.mem_of_getElem? a1) n q a2 with rfl | rfl <;> norm_num at a3
  · exact h

end Verif.Props
