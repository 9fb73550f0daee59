import Verif.Props.EndsFront
import Verif.Props.SafIdleExample
import Verif.Props.FailureExample

/-!
# Concrete cases for C163 and C168 with the frontal criterion on
-/

set_option linter.unusedSectionVars false

namespace Verif.Props

open Verif.Np Verif.Helper Verif.Region Verif.Profile Verif.Update Verif.Spec Verif.Spec.Profile Verif.Level Verif.Finders
open Verif.Lemmas.Profile Verif.Utilities Verif.Saf Verif.Topo Verif.Spec.Saf

theorem front_noSide (l : List (RefCast ℝ)) (f : FloatProfile) (hf : f ∈ (endsRun l).source) (lat long : ℝ) (hlat : f.lat = some lat)
    (_hlong : f.long = some long) : NoSide (endsRun l).env.interp (endsRun l).env.saf ⟨lat, f.pres.zip (f.tmp.zip f.sal)⟩ := by
  change f ∈ [wLost, wFloat 105] at hf
  simp only [List.mem_cons, List.not_mem_nil, or_false] at hf
  rcases hf with rfl | rfl
  · cases hlat
  · obtain rfl := Option.some.inj hlat
    left
    change (-30 : ℝ) ≤ 5
    norm_num

/-- With `MAP_USE_SAF` the run over two profiles with seven casts, of which the last has no pressure, ends normally, and C163 gives its conditions. -/
theorem front_ends (st : Setting → ℝ) : (updateMapping (withSaf (endsRun voidLast) 1 st).args fun _ => none).1 = none ∧
    ∃ n q, Mappable (withSaf (endsRun voidLast) 1 st) (wFloat 105) 5 105 n q := by
  have hcfg : ProperConfig wConfig := by constructor <;> norm_num [wConfig]
  have h := (idle_saf_north 1 st).1
  refine ⟨h, ?_⟩
  obtain ⟨-, f, hf, hpl, lat, long, hla, hlo, hm⟩ := (run_ends_iff_front (withSaf (endsRun voidLast) 1 st) (fun _ => none) Verif.Lemmas.Depth.grid2_isInterp2d
    scan_isInterp (wEnv_topo 91 108 170 186) void_wellFormed (fun f hf _ => front_noSide voidLast f hf) (by change (0 : ℤ) ≠ 1; norm_num) isArgsort_stable
    (wEnv_rand 91 108 170 186) hcfg (by change 1 ≤ 100; norm_num) rfl rfl void_shape (by
      intro f hf hpl lat long hla hlo
      rcases void_source f hf with rfl | rfl
      · exact absurd hpl wLost_not_placed
      · obtain rfl := Option.some.inj hla
        obtain rfl := Option.some.inj hlo
        exact (within_saf ..).2 void_within)).1 h
  rcases void_source f hf with rfl | rfl
  · exact absurd hpl wLost_not_placed
  · obtain rfl := Option.some.inj hla
    obtain rfl := Option.some.inj hlo
    exact hm

/-- With `MAP_USE_SAF` and without reference data the run fails with `ValueError`. -/
theorem front_nothing (st : Setting → ℝ) : (updateMapping (withSaf (endsRun []) 1 st).args fun _ => none).1 = some .valueError := by
  rw [(idle_saf (endsRun []) (fun _ => none) (fail_wellFormed [] (by intro c hc; cases hc)) scan_isInterp 1 st fun f hf _ => front_noSide [] f hf).1]
  exact fail_nothing

end Verif.Props
