import Verif.Props.SelectedRun
import Verif.Props.SixCastsExample

/-!
# Concrete case for C182
-/

set_option linter.unusedSectionVars false

namespace Verif.Props

open Verif.Np Verif.Helper Verif.Region Verif.Profile Verif.Update Verif.Spec Verif.Spec.Profile Verif.Level Verif.Finders
open Verif.Lemmas.Profile Verif.Utilities Verif.Saf Verif.Topo

/-- The run over two profiles saves selected points, all of them with the number of one of the profiles. -/
theorem seven_selected : ∃ f : MapFile ℝ, finalFs (sevenRun wConfig 6).args (fun _ => none) (sevenRun wConfig 6).savePath = some (.whole f) ∧
    f.selected ≠ [] ∧ WellSeparated f.selected ∧ ∀ s ∈ f.selected, s.profileNo = 1 ∨ s.profileNo = 2 := by
  obtain ⟨f, h1, h0, h2, -, h3⟩ := selected_of_float (sevenRun wConfig 6) (fun _ => none) rfl six_of_seven.1
  refine ⟨f, h1, h0, h2, ?_⟩
  intro s hs
  obtain ⟨i, hi, hno, -⟩ := h3 s hs
  have hno' : ([1, 2] : List ℝ)[i]? = some s.profileNo := hno
  have hi' : i < 2 := hi
  interval_cases i
  · exact Or.inl (Option.some.inj hno').symm
  · exact Or.inr (Option.some.inj hno').symm

end Verif.Props
