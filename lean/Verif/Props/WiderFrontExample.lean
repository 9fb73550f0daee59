import Verif.Props.WiderFront
import Verif.Props.EndsFrontExample

/-!
# A concrete case for C175 with the frontal criterion on
-/

set_option linter.unusedSectionVars false

namespace Verif.Props

open Verif.Np Verif.Helper Verif.Region Verif.Profile Verif.Update Verif.Spec Verif.Spec.Profile Verif.Level Verif.Finders
open Verif.Lemmas.Profile Verif.Utilities Verif.Saf Verif.Topo Verif.Spec.Saf

theorem contributions_saf (R : FloatRun) (u : ℤ) (st : Setting → ℝ) (f : FloatProfile) (lat long : ℝ) (n : ℕ) (q : ℝ) :
    contributions (withSaf R u st) f lat long n q = contributions R f lat long n q := rfl

/-- With `MAP_USE_SAF` the run over two profiles saves a value at the second level of the second profile. -/
theorem front_mapped (st : Setting → ℝ) : ∃ file : MapFile ℝ,
    finalFs (withSaf (endsRun voidLast) 1 st).args (fun _ => none) = Function.update (fun _ => none) (endsRun voidLast).savePath (some (.whole file)) ∧
    ∃ v, storedAt file .signal 1 1 = some (some v) := by
  have hcfg : ProperConfig wConfig := by constructor <;> norm_num [wConfig]
  have hno : (endsRun voidLast).no.Pairwise (· < ·) := by
    change ([1, 2] : List ℝ).Pairwise (· < ·)
    norm_num
  obtain ⟨file, h1, h2⟩ := mapped_iff_front (withSaf (endsRun voidLast) 1 st) (fun _ => none) Verif.Lemmas.Depth.grid2_isInterp2d
    scan_isInterp (wEnv_topo 91 108 170 186) void_wellFormed (fun f hf _ => front_noSide voidLast f hf) (by change (0 : ℤ) ≠ 1; norm_num) isArgsort_stable
    (wEnv_rand 91 108 170 186) hcfg (by change 1 ≤ 100; norm_num) hno rfl rfl void_shape (by
      intro f hf hpl lat long hla hlo
      rcases void_source f hf with rfl | rfl
      · exact absurd hpl wLost_not_placed
      · obtain rfl := Option.some.inj hla
        obtain rfl := Option.some.inj hlo
        exact (within_saf ..).2 void_within) (front_ends st).1
  refine ⟨file, h1, (h2 1 (wFloat 105) 1 rfl (by change 1 < 2; norm_num)).2 ⟨wFloat_placed 105, 5, 105, 1000, rfl, rfl, ⟨35, rfl⟩, rfl,
    by change (600 : ℝ) ≤ 1000; norm_num, ?_⟩⟩
  rw [contributions_saf, (void_contributions 1 1000 rfl (by change (600 : ℝ) ≤ 1000; norm_num)).2.2]
  simp [wSamples]

end Verif.Props
