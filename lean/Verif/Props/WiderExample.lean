import Verif.Props.Wider
import Verif.Props.DeltaExample

/-!
# A concrete case for C175 with several settings changed
-/

set_option linter.unusedSectionVars false
set_option maxRecDepth 4000

namespace Verif.Props

open Verif.Np Verif.Helper Verif.Region Verif.Profile Verif.Update Verif.Spec Verif.Spec.Profile Verif.Level Verif.Finders
open Verif.Lemmas.Profile Verif.Utilities Verif.Saf Verif.Topo

/-- Larger scales, 400 dbar instead of 250, 550 dbar instead of 600, and other time scales. -/
noncomputable def broadConfig : MapConfig := ⟨9, 3, 5, 2, 0.1, 0.02, 30, 6, 0, 400, 550⟩

noncomputable def broadRun : FloatRun := reconfigured (endsRun voidLast) broadConfig 200 (endsRun voidLast).settings

theorem broad_wider : Wider (endsRun voidLast).env.cfg broadConfig := by
  change Wider wConfig broadConfig
  constructor <;> norm_num [wConfig, broadConfig]

theorem broad_reach : inReach broadRun 5 105 = voidLast := by
  classical
  change nearCasts broadConfig 5 105 (surrounding (endsRun voidLast).env 105 5) = voidLast
  rw [void_surrounding_last]
  have h : nearCasts wConfig 5 105 voidLast = voidLast := void_near _ fun c hc => void_mem c (.inl hc)
  unfold nearCasts at h ⊢
  rw [List.filter_eq_self] at h ⊢
  intro c hc
  have := h c hc
  rw [decide_eq_true_eq] at this ⊢
  exact near_wider wConfig broadConfig broad_wider 5 105 _ c this

theorem broad_within : Within broadRun 5 105 := by
  refine ⟨void_within.1, void_within.2, void_within.3, ?_⟩
  rw [broad_reach]
  change _ ≤ 200
  simp [voidLast]

theorem broad_contributions (n : ℕ) (q : ℝ) (hq : (wFloat 105).pres[n]? = some (some q)) (hex : broadRun.env.cfg.pExclude ≤ q) :
    contributions broadRun (wFloat 105) 5 105 n q = wSamples := by
  have hex' : (endsRun voidLast).env.cfg.pExclude ≤ q := by
    change (550 : ℝ) ≤ q at hex
    change (600 : ℝ) ≤ q
    rcases n with _ | _ | n
    · obtain rfl := Option.some.inj (Option.some.inj hq)
      norm_num at hex
    · obtain rfl := Option.some.inj (Option.some.inj hq)
      norm_num
    · simp [wFloat] at hq
  rw [← wide_contributions n q hq hex']
  unfold contributions
  rw [broad_reach, show inReach wideRun 5 105 = voidLast from void_reach_last]
  rfl

theorem broad_ends : (updateMapping broadRun.args fun _ => none).1 = none := by
  have hcfg : ProperConfig broadConfig := by constructor <;> norm_num [broadConfig]
  refine (run_ends_iff broadRun (fun _ => none) Verif.Lemmas.Depth.grid2_isInterp2d (wEnv_topo 91 108 170 186) void_wellFormed (by change (0 : ℤ) ≠ 1; norm_num)
    (by change (0 : ℤ) ≠ 1; norm_num) isArgsort_stable (wEnv_rand 91 108 170 186) hcfg (by change 1 ≤ 200; norm_num) rfl rfl void_shape ?_).2 ⟨?_, ?_⟩
  · intro f hf hpl lat long hla hlo
    rcases void_source f hf with rfl | rfl
    · exact absurd hpl wLost_not_placed
    · obtain rfl := Option.some.inj hla
      obtain rfl := Option.some.inj hlo
      exact broad_within
  · intro f hf hpl lat long hla hlo
    rcases void_source f hf with rfl | rfl
    · exact absurd hpl wLost_not_placed
    · obtain rfl := Option.some.inj hla
      obtain rfl := Option.some.inj hlo
      have h := wide_suffices
      have hr : inReach wideRun 5 105 = inReach broadRun 5 105 := by rw [broad_reach]; exact void_reach_last
      refine ⟨h.known, ?_, ?_, ?_, ?_⟩
      · have := h.first
        rw [hr] at this
        exact this
      · have := h.data
        rw [hr] at this
        exact this
      · have := h.temperatures
        rw [hr] at this
        exact this
      · rintro n q ⟨-, hq, hex, -⟩
        rw [broad_contributions n q hq hex]
        exact wSamples_noise
  · refine ⟨wFloat 105, by change _ ∈ [wLost, wFloat 105]; simp, wFloat_placed 105, 5, 105, rfl, rfl, 1, 1000, ⟨35, rfl⟩, rfl, ?_, ?_⟩
    · change (550 : ℝ) ≤ 1000
      norm_num
    · rw [broad_contributions 1 1000 rfl (by change (550 : ℝ) ≤ 1000; norm_num)]
      simp [wSamples]

/-- C175 on a run over two profiles, of which the second has a value at its second level with both configurations. -/
theorem broad_kept : ∃ file file' : MapFile ℝ,
    finalFs (endsRun voidLast).args (fun _ => none) = Function.update (fun _ => none) (endsRun voidLast).savePath (some (.whole file)) ∧
    finalFs broadRun.args (fun _ => none) = Function.update (fun _ => none) (endsRun voidLast).savePath (some (.whole file')) ∧
    (∃ v, storedAt file .signal 1 1 = some (some v)) ∧ ∃ v', storedAt file' .signal 1 1 = some (some v') := by
  have hcfg : ProperConfig wConfig := by constructor <;> norm_num [wConfig]
  have hcfg' : ProperConfig broadConfig := by constructor <;> norm_num [broadConfig]
  have hno : (endsRun voidLast).no.Pairwise (· < ·) := by
    change ([1, 2] : List ℝ).Pairwise (· < ·)
    norm_num
  obtain ⟨file, file', h1, h2, h3⟩ := wider_keeps (endsRun voidLast) (fun _ => none) broadConfig 200 (endsRun voidLast).settings broad_wider
    Verif.Lemmas.Depth.grid2_isInterp2d (wEnv_topo 91 108 170 186) void_wellFormed (by change (0 : ℤ) ≠ 1; norm_num)
    (by change (0 : ℤ) ≠ 1; norm_num) (by change (0 : ℤ) ≠ 1; norm_num) isArgsort_stable (wEnv_rand 91 108 170 186) hcfg hcfg' (by change 1 ≤ 100; norm_num)
    (by norm_num) hno rfl rfl void_shape (by
      intro f hf hpl lat long hla hlo
      rcases void_source f hf with rfl | rfl
      · exact absurd hpl wLost_not_placed
      · obtain rfl := Option.some.inj hla
        obtain rfl := Option.some.inj hlo
        exact ⟨void_within, broad_within, fun c hc => void_downwards c (by rw [← void_reach_last]; exact hc)⟩) void_last_ends broad_ends
  obtain ⟨fileA, -, a1, -, hv, -⟩ := wide_kept
  have hsame : file = fileA := by
    have := congrFun (h1.symm.trans a1) (endsRun voidLast).savePath
    simp only [Function.update_self, Option.some.injEq] at this
    simpa using this
  subst hsame
  obtain ⟨v, hv⟩ := hv
  exact ⟨file, file', h1, h2, ⟨v, hv⟩, h3 1 1 v (by change 1 < 2; norm_num) (by change 1 < 2; norm_num) hv⟩

end Verif.Props
