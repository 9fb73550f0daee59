import Verif.Props.SixCasts
import Verif.Props.Unconstrained
import Verif.Props.CleanExample

/-!
# Concrete cases for C180 and C181

A run over two profiles with seven casts in reach, six of which are chosen, partly at random.
-/

set_option linter.unusedSectionVars false

namespace Verif.Props

open Verif.Np Verif.Helper Verif.Region Verif.Profile Verif.Update Verif.Spec Verif.Spec.Profile Verif.Level Verif.Finders
open Verif.Lemmas.Profile Verif.Utilities Verif.Saf Verif.Topo

/-- The run ends normally and saves no number for the profile without a position, and none above `MAP_P_EXCLUDE`. -/
theorem six_of_seven : (updateMapping (sevenRun wConfig 6).args fun _ => none).1 = none ∧
    ∃ file : MapFile ℝ, finalFs (sevenRun wConfig 6).args (fun _ => none) = Function.update (fun _ => none) (sevenRun wConfig 6).savePath (some (.whole file)) ∧
      (∀ (m : Mat) (n : ℕ) (v : ℝ), n < (sevenRun wConfig 6).levels → storedAt file m 0 n ≠ some (some v)) ∧
      ∀ (m : Mat) (n : ℕ) (v : ℝ), n < (sevenRun wConfig 6).levels → storedAt file m 1 n = some (some v) →
        ∃ q, (wFloat 105).pres[n]? = some (some q) ∧ wConfig.pExclude ≤ q ∧ 5 < (contributions (sevenRun wConfig 6) (wFloat 105) 5 105 n q).length := by
  have hC : SevenConfig wConfig := ⟨rfl, rfl, rfl, rfl, by norm_num [wConfig]⟩
  have hend := clean_run_ends (sevenRun wConfig 6) (fun _ => none) Verif.Lemmas.Depth.grid2_isInterp2d (wEnv_topo 91 108 170 186) (seven_wellFormed _ _)
    (by change (0 : ℤ) ≠ 1; norm_num) isArgsort_stable (wEnv_rand 91 108 170 186) (by constructor <;> norm_num [sevenRun, wConfig]) (by change 6 ≤ 6; norm_num) rfl rfl
    (seven_shape _ _) (seven_all_clean _ _ hC) (seven_some_covered _ _ hC)
  refine ⟨hend, ?_⟩
  obtain ⟨file, h1, h2⟩ := value_needs_casts (sevenRun wConfig 6) (fun _ => none) Verif.Lemmas.Depth.grid2_isInterp2d (wEnv_topo 91 108 170 186)
    (seven_wellFormed _ _) isArgsort_stable (wEnv_rand 91 108 170 186) (by constructor <;> norm_num [sevenRun, wConfig]) (by change 1 ≤ 6; norm_num)
    (by change List.Pairwise _ [(1 : ℝ), 2]; norm_num) rfl rfl (seven_shape _ _) (by
      intro f hf hpl lat long hla hlo
      rcases seven_source _ _ f hf with rfl | rfl
      · exact absurd hpl wLost_not_placed
      · obtain rfl := Option.some.inj hla
        obtain rfl := Option.some.inj hlo
        refine ⟨by norm_num, by norm_num, ?_⟩
        intro c hc y x hy hx
        rw [seven_surrounding] at hc
        obtain ⟨x', s, rfl, a, b⟩ := seven_mem c hc
        obtain rfl := Option.some.inj hy
        obtain rfl := Option.some.inj hx
        refine ⟨by norm_num, by linarith, by linarith⟩) hend
  refine ⟨file, h1, ?_, ?_⟩
  · intro m n v hn hv
    exact wLost_not_placed (h2 m 0 wLost n rfl hn ⟨v, hv⟩).1
  · intro m n v hn hv
    obtain ⟨-, lat, long, q, hla, hlo, -, hq, hx, h5⟩ := h2 m 1 (wFloat 105) n rfl hn ⟨v, hv⟩
    obtain rfl := Option.some.inj hla
    obtain rfl := Option.some.inj hlo
    exact ⟨q, hq, hx, h5⟩

theorem unconstrained_of (R : FloatRun) (C : MapConfig) (l k : ℕ) (hC : C.usePv = 0) (hs : R.env.useSaf = 0) :
    unconstrained { R with env := { R.env with cfg := C, maxCasts := l } } k R.settings = { R with env := { R.env with cfg := C, maxCasts := k } } := by
  obtain ⟨E, _, _, _, _, _⟩ := R
  cases E
  cases C
  subst hC
  subst hs
  rfl

theorem unconstrained_seven (l k : ℕ) : unconstrained (sevenRun wConfig l) k (sevenRun wConfig l).settings = sevenRun wConfig k :=
  unconstrained_of (endsRun sevenCasts) wConfig l k rfl rfl

/-- The levels for which this run saves a number have a signal variance in the run that may use all seven casts. -/
theorem six_kept : ∃ file file' : MapFile ℝ,
    finalFs (sevenRun wConfig 6).args (fun _ => none) = Function.update (fun _ => none) (sevenRun wConfig 6).savePath (some (.whole file)) ∧
    finalFs (sevenRun wConfig 7).args (fun _ => none) = Function.update (fun _ => none) (sevenRun wConfig 6).savePath (some (.whole file')) ∧
    ∀ (m : Mat) (i n : ℕ), i < (sevenRun wConfig 6).source.length → n < (sevenRun wConfig 6).levels → (∃ v, storedAt file m i n = some (some v)) →
      ∃ v, storedAt file' .signal i n = some (some v) := by
  have hC : SevenConfig wConfig := ⟨rfl, rfl, rfl, rfl, by norm_num [wConfig]⟩
  have hend := clean_run_ends (sevenRun wConfig 7) (fun _ => none) Verif.Lemmas.Depth.grid2_isInterp2d (wEnv_topo 91 108 170 186) (seven_wellFormed _ _)
    (by change (0 : ℤ) ≠ 1; norm_num) isArgsort_stable (wEnv_rand 91 108 170 186) (by constructor <;> norm_num [sevenRun, wConfig]) (by change 6 ≤ 7; norm_num) rfl rfl
    (seven_shape _ _) (seven_all_clean _ _ hC) (seven_some_covered _ _ hC)
  have main := unconstrained_keeps (sevenRun wConfig 6) (fun _ => none) 7 (sevenRun wConfig 6).settings Verif.Lemmas.Depth.grid2_isInterp2d (wEnv_topo 91 108 170 186)
    (seven_wellFormed _ _) isArgsort_stable (wEnv_rand 91 108 170 186) (by constructor <;> norm_num [sevenRun, wConfig]) (by change 1 ≤ 6; norm_num) (by norm_num)
    (by change List.Pairwise _ [(1 : ℝ), 2]; norm_num) rfl rfl (seven_shape _ _) (by
      intro f hf hpl lat long hla hlo
      rcases seven_source _ _ f hf with rfl | rfl
      · exact absurd hpl wLost_not_placed
      · obtain rfl := Option.some.inj hla
        obtain rfl := Option.some.inj hlo
        refine ⟨by norm_num, by norm_num, ?_, ?_⟩
        · intro c hc y x hy hx
          rw [unconstrained_seven, seven_surrounding] at hc
          obtain ⟨x', s, rfl, a, b⟩ := seven_mem c hc
          obtain rfl := Option.some.inj hy
          obtain rfl := Option.some.inj hx
          refine ⟨by norm_num, by linarith, by linarith⟩
        · rw [unconstrained_seven, seven_reach _ _ hC]
          exact (by simp [sevenCasts] : sevenCasts.length ≤ 7)) six_of_seven.1 (by rw [unconstrained_seven]; exact hend)
  rw [unconstrained_seven] at main
  exact main

end Verif.Props
