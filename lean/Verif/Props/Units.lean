import Verif.Spec.Units
import Verif.Lemmas.AffineRun
import Verif.Props.ProfileExamples

/-!
# C155: reference salinities with another unit or an offset
-/

set_option linter.unusedSectionVars false

namespace Verif.Props

open Verif.Np Verif.Helper Verif.Region Verif.Profile Verif.Update Verif.Spec Verif.Spec.Profile Verif.Level Verif.Lemmas.Affine

/-- C155. Without the Subantarctic Front, all reference salinities `s` replaced by `a * s + b` with `a ≠ 0`: every run ends in the same way, goes through as many states of the
directory, and each state is either the same or differs in the saved file only. The file has the same casts, sizes, temperatures and settings, errors times `|a|`, variances times `a ^ 2`,
and mapped salinities that are replaced in the same way, as far as both values are in the range of 30 to 40. -/
theorem mapping_in_units (R : FloatRun) (a b : ℝ) (ha : a ≠ 0) (hs : R.env.useSaf ≠ 1) (fs : Fs ℝ) :
    (updateMapping (R.inUnits a b).args fs).1 = (updateMapping R.args fs).1 ∧
      List.Forall₂ (fun s s' => s' = s ∨ ∃ file file', s = Function.update fs R.savePath (some (.whole file)) ∧
        s' = Function.update fs R.savePath (some (.whole file')) ∧ SameInUnits a b file file') (updateMapping R.args fs).2 (updateMapping (R.inUnits a b).args fs).2 := by
  have hP : ∀ i, profilesOf (unitEnv a b R.env) R.source i = (profilesOf R.env R.source i).map (Option.map fun f n => (f n).map (Option.map (scaleOut a b))) := by
    intro i
    unfold profilesOf
    cases item R.source i with
    | error e => rfl
    | ok f => exact profileOf_affine a b ha R.env hs f
  have h := updateMapping_unit a b ha R.args _ (scaleOut a b) (fun o => ⟨fun m => rfl, rfl, rfl⟩) hP fs
  exact ⟨h.1, h.2.2⟩

/-- A run that saves its numbers, with all reference salinities 0.01 higher: it saves them as well. -/
example : (updateMapping ((wRun (wEnv 91 108 170 186) [wLost, wFloat 105] [1, 2]).inUnits 1 0.01).args (fun _ => none)).1 = none := by
  rw [(mapping_in_units _ 1 0.01 one_ne_zero (by simp [wRun, wEnv]) _).1]
  exact world_runs 91 108 108 105 170 186 10 world_open [wLost, wFloat 105] [1, 2] rfl (by simp) (by simp) (fun _ => none) rfl

end Verif.Props
