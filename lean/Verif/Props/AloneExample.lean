import Verif.Props.Alone
import Verif.Props.EndsExample

/-!
# A concrete case for C169

The deep level of the profile of `ProfileWorld`, and the same level in a profile with another one in between.
-/

set_option linter.unusedSectionVars false
set_option maxRecDepth 4000

namespace Verif.Props

open Verif.Np Verif.Helper Verif.Region Verif.Profile Verif.Update Verif.Spec Verif.Spec.Profile Verif.Level Verif.Finders
open Verif.Lemmas.Profile Verif.Utilities Verif.Saf Verif.Topo

/-- The profile `wFloat 105` with another salinity, other shallow values and one more level. -/
noncomputable def wMore : FloatProfile :=
  ⟨some 5, some 105, 2010, [some 35, none, some 34.5], [some 9, some 7, some 5], [some 9, some 7, some 5], [some 400, some 700, some 1000]⟩

noncomputable def moreRun : FloatRun := { endsRun voidLast with source := [wMore], no := [7], levels := 3 }

theorem wMore_limit : pressureLimit wMore.pres 250 = some 1250 := by
  have h1 : max (400 : ℝ) 700 = 700 := max_eq_right (by norm_num)
  have h2 : max (700 : ℝ) 1000 = 1000 := max_eq_right (by norm_num)
  simp [pressureLimit, wMore, List.max?_cons, h1, h2]
  norm_num

theorem wMore_placed : Placed wMore := ⟨by simp [wMore], by simp [wMore], 1, 700, by norm_num, rfl⟩

theorem more_station : SameStation (wFloat 105) wMore := by
  refine ⟨rfl, rfl, rfl, ?_, fun _ => wMore_placed, fun _ => wFloat_placed 105⟩
  have h2 : max (700 : ℝ) 1000 = 1000 := max_eq_right (by norm_num)
  have h3 : max (500 : ℝ) 1000 = 1000 := max_eq_right (by norm_num)
  simp [deepest, wMore, wFloat, List.max?_cons, h2, h3]
  norm_num

theorem more_level : SameLevel (wFloat 105) 1 wMore 2 := ⟨rfl, rfl, by simp [wFloat, wMore]⟩

theorem more_mappable (n : ℕ) (q : ℝ) (h : (∃ s, wMore.sal[n]? = some (some s)) ∧ wMore.pres[n]? = some (some q) ∧ moreRun.env.cfg.pExclude ≤ q) :
    n = 2 ∧ q = 1000 ∧ contributions moreRun wMore 5 105 n q = wSamples := by
  obtain ⟨⟨s, hs⟩, hq, hex⟩ := h
  rcases n with _ | _ | _ | n
  · obtain rfl := Option.some.inj (Option.some.inj hq)
    change (600 : ℝ) ≤ 400 at hex
    norm_num at hex
  · cases Option.some.inj hs
  · obtain rfl := Option.some.inj (Option.some.inj hq)
    refine ⟨rfl, rfl, ?_⟩
    have := (void_contributions 1 1000 rfl (by change (600 : ℝ) ≤ 1000; norm_num)).2.2
    rw [← this]
    unfold contributions
    rw [show pressureLimit wMore.pres moreRun.env.cfg.pDelta = some 1250 from wMore_limit,
      show pressureLimit (wFloat 105).pres (endsRun voidLast).env.cfg.pDelta = some 1250 from wLimit 105]
    rfl
  · simp [wMore] at hq

theorem more_ends : (updateMapping moreRun.args fun _ => none).1 = none := by
  have hcfg : ProperConfig wConfig := by constructor <;> norm_num [wConfig]
  have hsrc : ∀ f ∈ moreRun.source, f = wMore := by
    intro f hf
    change f ∈ [wMore] at hf
    simpa using hf
  refine (run_ends_iff moreRun (fun _ => none) Verif.Lemmas.Depth.grid2_isInterp2d (wEnv_topo 91 108 170 186) void_wellFormed (by change (0 : ℤ) ≠ 1; norm_num)
    (by change (0 : ℤ) ≠ 1; norm_num) isArgsort_stable (wEnv_rand 91 108 170 186) hcfg (by change 1 ≤ 100; norm_num) rfl rfl
    (by intro f hf; rw [hsrc f hf]; exact ⟨rfl, rfl, rfl⟩) ?_).2 ⟨?_, ?_⟩
  · intro f hf hpl lat long hla hlo
    rw [hsrc f hf] at hla hlo
    obtain rfl := Option.some.inj hla
    obtain rfl := Option.some.inj hlo
    exact ⟨void_within.latitude, void_within.longitude, void_within.casts, void_within.few⟩
  · intro f hf hpl lat long hla hlo
    obtain rfl := hsrc f hf
    obtain rfl := Option.some.inj hla
    obtain rfl := Option.some.inj hlo
    have h := void_suffices
    rw [show pressureLimit (wFloat 105).pres (endsRun voidLast).env.cfg.pDelta = some 1250 from wLimit 105] at h
    rw [show pressureLimit wMore.pres moreRun.env.cfg.pDelta = some 1250 from wMore_limit]
    refine ⟨h.known, h.first, h.data, ?_, ?_⟩
    · intro n s v q _ _ _
      change (∃ c ∈ inReach (endsRun voidLast) 5 105, _) ∧ ∀ c ∈ inReach (endsRun voidLast) 5 105, _
      rw [void_reach_last]
      refine ⟨⟨wCast 91 5 35, by simp [voidLast], by rw [wComplete]; simp⟩, ?_⟩
      intro c hc h2
      rcases void_mem c (.inl hc) with rfl | ⟨x', s, rfl, -⟩
      · unfold completeLevels at h2
        rw [void_usable] at h2
        simp at h2
      · rw [wComplete]
        by_cases hv : v = 0
        · exact ⟨⟨s, 10, 900⟩, by simp, by rw [hv]; norm_num⟩
        · exact ⟨⟨s, 0, 1100⟩, by simp, Ne.symm hv⟩
    · rintro n q ⟨h1, h2, h3, -⟩
      rw [(more_mappable n q ⟨h1, h2, h3⟩).2.2]
      exact wSamples_noise
  · have hex : moreRun.env.cfg.pExclude ≤ 1000 := by change (600 : ℝ) ≤ 1000; norm_num
    refine ⟨wMore, by change _ ∈ [wMore]; simp, wMore_placed, 5, 105, rfl, rfl, 2, 1000, ⟨34.5, rfl⟩, rfl, hex, ?_⟩
    rw [(more_mappable 2 1000 ⟨⟨34.5, rfl⟩, rfl, hex⟩).2.2]
    simp [wSamples]

/-- C169 on two concrete runs: level 1 of profile 1 of the first and level 2 of profile 0 of the second get the same values. -/
theorem more_same : ∃ file file' : MapFile ℝ, finalFs (endsRun voidLast).args (fun _ => none) = Function.update (fun _ => none) "out" (some (.whole file)) ∧
    finalFs moreRun.args (fun _ => none) = Function.update (fun _ => none) "out" (some (.whole file')) ∧
    ∀ m, ∃ col col' v, (file.mats m)[1]? = some col ∧ (file'.mats m)[0]? = some col' ∧ col[1]? = some v ∧ col'[2]? = some v := by
  obtain ⟨file, file', h1, h2, h3⟩ := level_alone (endsRun voidLast) moreRun (fun _ => none) (fun _ => none) rfl isArgsort_stable
    (by change List.Pairwise _ [(1 : ℝ), 2]; norm_num) (by change List.Pairwise _ [(7 : ℝ)]; norm_num) rfl rfl rfl rfl void_shape
    (by
      intro f hf
      change f ∈ [wMore] at hf
      rw [List.mem_singleton] at hf
      rw [hf]
      exact ⟨rfl, rfl, rfl⟩) (.inl (by change (0 : ℤ) ≠ 1; norm_num)) void_last_ends more_ends
  exact ⟨file, file', h1, h2, h3 1 0 _ _ 1 2 rfl rfl more_station (by change 1 < 2; norm_num) (by change 2 < 3; norm_num) more_level⟩

end Verif.Props
