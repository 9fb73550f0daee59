import Verif.Props.SafIdle
import Verif.Props.EndsExample
import Verif.Props.SafExamples

/-!
# Concrete cases for C174
-/

set_option linter.unusedSectionVars false

namespace Verif.Props

open Verif.Np Verif.Helper Verif.Region Verif.Profile Verif.Update Verif.Spec Verif.Spec.Profile Verif.Level Verif.Finders
open Verif.Lemmas.Profile Verif.Utilities Verif.Saf Verif.Topo Verif.Spec.Saf

/-- The run of a float at 5 N ends normally and stores the same whatever `MAP_USE_SAF`. One of its casts has no data. -/
theorem idle_saf_north (u : ℤ) (st : Setting → ℝ) :
    (updateMapping (withSaf (endsRun voidLast) u st).args fun _ => none).1 = none ∧
      ∃ file file' : MapFile ℝ, finalFs (endsRun voidLast).args (fun _ => none) = Function.update (fun _ => none) (endsRun voidLast).args.savePath (some (.whole file)) ∧
        finalFs (withSaf (endsRun voidLast) u st).args (fun _ => none) =
          Function.update (fun _ => none) (endsRun voidLast).args.savePath (some (.whole file')) ∧ SameButRecord file file' := by
  obtain ⟨h1, h2⟩ := idle_saf (endsRun voidLast) (fun _ => none) void_wellFormed scan_isInterp u st (by
    intro f hf _ lat long hlat hlong
    rcases void_source f hf with rfl | rfl
    · cases hlat
    · obtain rfl := Option.some.inj hlat
      left
      change (-30 : ℝ) ≤ 5
      norm_num)
  refine ⟨by rw [h1]; exact void_last_ends, ?_⟩
  rcases h2 with ⟨-, h2⟩ | h2
  · exfalso
    obtain ⟨file, h3, -⟩ := fresh_run_saved (endsRun voidLast) (fun _ => none) isArgsort_stable (by change List.Pairwise _ [(1 : ℝ), 2]; norm_num) rfl void_last_ends
    rw [h2] at h3
    have := congrFun h3 (endsRun voidLast).savePath
    simp at this
  · exact h2

/-- The criterion says nothing about a profile at 50 S that ends at 250 dbar. -/
theorem noSide_shallow (interp : Interp ℝ) (s : SafProfiles ℝ) :
    NoSide interp s ⟨-50, [(some 50, some 6, some 34), (some 150, some 5, some 34), (some 250, some 4, some 34)]⟩ := by
  refine .inr ⟨?_, .inl ?_⟩
  · simp [Ascending, floatProfile]
    norm_num
  · rintro ⟨-, -, q, hq, h⟩
    simp [floatProfile] at hq
    rcases hq with rfl | rfl | rfl <;> norm_num at h

/-- It says nothing about a profile at 50 S with 4 degrees at 300 dbar either, when there are no typical profiles to compare it with. -/
theorem noSide_between (interp : Interp ℝ) (s : SafProfiles ℝ) (hs : s.deph = []) :
    NoSide interp s ⟨-50, [(some 100, some 6, some 34), (some 200, some 5, some 34), (some 400, some 3, some 34)]⟩ := by
  refine .inr ⟨?_, .inr ⟨4, ⟨200, 5, 400, 3, ⟨[(100, 6)], [], ?_⟩, by norm_num, by norm_num, ?_⟩, by norm_num, by norm_num, ?_⟩⟩
  · simp [Ascending, floatProfile]
    norm_num
  · simp [floatProfile]
  · norm_num [lineAt]
  · rintro ⟨d, a, b, n1, n2, s1, s2, h⟩
    have := h.depth_mem
    rw [hs] at this
    simp at this

end Verif.Props
