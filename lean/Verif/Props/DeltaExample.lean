import Verif.Props.Delta
import Verif.Props.EndsExample

/-!
# A concrete case for C175

The run of `EndsExample` with `MAP_P_DELTA` raised from 250 to 400 dbar.
-/

set_option linter.unusedSectionVars false
set_option maxRecDepth 4000

namespace Verif.Props

open Verif.Np Verif.Helper Verif.Region Verif.Profile Verif.Update Verif.Spec Verif.Spec.Profile Verif.Level Verif.Finders
open Verif.Lemmas.Profile Verif.Utilities Verif.Saf Verif.Topo

/-- The run with 400 dbar. -/
noncomputable def wideRun : FloatRun := withDelta (endsRun voidLast) 400 (endsRun voidLast).settings

theorem wide_limit : pressureLimit (wFloat 105).pres 400 = some 1400 := by
  have : max (500 : ℝ) 1000 = 1000 := max_eq_right (by norm_num)
  simp [pressureLimit, wFloat, List.max?_cons, this]
  norm_num

theorem wide_usable (c : RefCast ℝ) (hc : c ∈ voidLast) : usableLevels (some 1400) c = usableLevels (some 1250) c := by
  rcases void_mem c (.inl hc) with rfl | ⟨x, s, rfl, -⟩
  · rw [void_usable]
    unfold usableLevels
    rw [List.filter_eq_nil_iff]
    intro l hl
    simp only [levelsOf, wVoid, List.zip_cons_cons, List.zip_nil_left, List.mem_cons, List.not_mem_nil, or_false] at hl
    rcases hl with rfl | rfl <;> simp [UsableLevel]
  · rw [wUsable]
    unfold usableLevels
    change List.filter _ (levelsOf (wCast x 5 s)) = levelsOf (wCast x 5 s)
    rw [List.filter_eq_self]
    intro l hl
    simp only [levelsOf, wCast, List.zip_cons_cons, List.zip_nil_left, List.mem_cons, List.not_mem_nil, or_false] at hl
    simp only [decide_eq_true_eq]
    rcases hl with rfl | rfl
    · exact ⟨900, rfl, fun m hm => by rw [← Option.some.inj hm]; norm_num⟩
    · exact ⟨1100, rfl, fun m hm => by rw [← Option.some.inj hm]; norm_num⟩

theorem wide_complete (c : RefCast ℝ) (hc : c ∈ voidLast) : completeLevels (some 1400) c = completeLevels (some 1250) c := by
  unfold completeLevels
  rw [wide_usable c hc]

theorem wide_meets (c : RefCast ℝ) (hc : c ∈ voidLast) (s : ℝ) : Meets (some 1400) c 5 1000 400 s ↔ Meets (some 1250) c 5 1000 250 s := by
  constructor
  · rintro ⟨k, w, p, hn, -⟩
    rw [wide_complete c hc] at hn
    rcases void_mem c (.inl hc) with rfl | ⟨x, s', rfl, -⟩
    · obtain ⟨⟨a, b, ha, -⟩, -⟩ := hn
      unfold completeLevels at ha
      rw [void_usable] at ha
      cases ha
    · obtain ⟨k', w', p', hn', hp'⟩ := (wMeets x 5 s' s').2 rfl
      have := (nearest_unique _ _ _ _ _ _ _ _ _ _ _ hn hn').2
      exact ⟨k, w, p, hn, by rw [this]; exact hp'⟩
  · rintro ⟨k, w, p, hn, hp⟩
    rw [← wide_complete c hc] at hn
    exact ⟨k, w, p, hn, hp.trans (by norm_num)⟩

theorem wide_contributions (n : ℕ) (q : ℝ) (hq : (wFloat 105).pres[n]? = some (some q)) (hex : (endsRun voidLast).env.cfg.pExclude ≤ q) :
    contributions wideRun (wFloat 105) 5 105 n q = wSamples := by
  obtain ⟨rfl, rfl, h⟩ := void_contributions n q hq hex
  rw [← h]
  unfold contributions
  change samplesAt (pressureLimit (wFloat 105).pres 400) 400 (inReach (endsRun voidLast) 5 105) (some 5) 1000 =
    samplesAt (pressureLimit (wFloat 105).pres 250) 250 (inReach (endsRun voidLast) 5 105) (some 5) 1000
  rw [void_reach_last, wide_limit, wLimit]
  unfold samplesAt
  dsimp only
  refine List.filterMap_congr fun c hc => ?_
  have hp : (fun s => Meets (some 1400) c 5 1000 400 s) = fun s => Meets (some 1250) c 5 1000 250 s := funext fun s => propext (wide_meets c hc s)
  classical
  have key : ∀ P P' : ℝ → Prop, P = P' → ∀ G : ℝ → Sample,
      (if h : ∃ s, P s then some (G h.choose) else none) = if h : ∃ s, P' s then some (G h.choose) else none := by
    rintro P _ rfl G
    rfl
  unfold sampleOf
  convert key _ _ hp fun s => ⟨s, c.lat.getD 0, amongCasts voidLast (c.long.getD 0), decimalDate c, 0⟩

theorem wide_suffices : Suffices wideRun (wFloat 105) 5 105 (pressureLimit (wFloat 105).pres wideRun.env.cfg.pDelta) := by
  have h := void_suffices
  rw [show pressureLimit (wFloat 105).pres wideRun.env.cfg.pDelta = some 1400 from wide_limit]
  rw [show pressureLimit (wFloat 105).pres (endsRun voidLast).env.cfg.pDelta = some 1250 from wLimit 105] at h
  refine ⟨h.known, ?_, ?_, ?_, ?_⟩
  · obtain ⟨c, cs, h1, h2⟩ := h.first
    refine ⟨c, cs, h1, ?_⟩
    rw [wide_usable c (by rw [← void_reach_last, h1]; simp)]
    exact h2
  · obtain ⟨c, h1, h2⟩ := h.data
    refine ⟨c, h1, ?_⟩
    unfold HasData at h2 ⊢
    rw [wide_usable c (by rw [← void_reach_last]; exact h1)]
    exact h2
  · intro n s v q e1 e2 e3
    obtain ⟨⟨c, h1, h2⟩, h3⟩ := h.temperatures n s v q e1 e2 e3
    refine ⟨⟨c, h1, ?_⟩, ?_⟩
    · rw [wide_complete c (by rw [← void_reach_last]; exact h1)]
      exact h2
    · intro c hc
      rw [wide_complete c (by rw [← void_reach_last]; exact hc)]
      exact h3 c hc
  · rintro n q ⟨-, hq, hex, -⟩
    rw [wide_contributions n q hq hex]
    exact wSamples_noise

theorem wide_within : Within wideRun 5 105 := ⟨void_within.1, void_within.2, void_within.3, void_within.4⟩

theorem void_downwards (c : RefCast ℝ) (hc : c ∈ voidLast) : Downwards c := by
  rcases void_mem c (.inl hc) with rfl | ⟨x, s, rfl, -⟩
  · unfold Downwards
    simp [levelsOf, wVoid]
  · unfold Downwards
    simp [levelsOf, wCast]
    norm_num

theorem wide_ends : (updateMapping wideRun.args fun _ => none).1 = none := by
  have hcfg : ProperConfig wideRun.env.cfg := by constructor <;> norm_num [wideRun, withDelta, endsRun, runWith, wRun, wEnv, wConfig]
  refine (run_ends_iff wideRun (fun _ => none) Verif.Lemmas.Depth.grid2_isInterp2d (wEnv_topo 91 108 170 186) void_wellFormed (by change (0 : ℤ) ≠ 1; norm_num)
    (by change (0 : ℤ) ≠ 1; norm_num) isArgsort_stable (wEnv_rand 91 108 170 186) hcfg (by change 1 ≤ 100; norm_num) rfl rfl void_shape ?_).2 ⟨?_, ?_⟩
  · intro f hf hpl lat long hla hlo
    rcases void_source f hf with rfl | rfl
    · exact absurd hpl wLost_not_placed
    · obtain rfl := Option.some.inj hla
      obtain rfl := Option.some.inj hlo
      exact wide_within
  · intro f hf hpl lat long hla hlo
    rcases void_source f hf with rfl | rfl
    · exact absurd hpl wLost_not_placed
    · obtain rfl := Option.some.inj hla
      obtain rfl := Option.some.inj hlo
      exact wide_suffices
  · refine ⟨wFloat 105, by change _ ∈ [wLost, wFloat 105]; simp, wFloat_placed 105, 5, 105, rfl, rfl, 1, 1000, ⟨35, rfl⟩, rfl, ?_, ?_⟩
    · change (600 : ℝ) ≤ 1000
      norm_num
    · rw [wide_contributions 1 1000 rfl (by change (600 : ℝ) ≤ 1000; norm_num)]
      simp [wSamples]

/-- C175 on a run over two profiles: at the second level of the second profile there is a value with 250 dbar and with 400 dbar, at its first level, which is
above `MAP_P_EXCLUDE`, there is none. -/
theorem wide_kept : ∃ file file' : MapFile ℝ,
    finalFs (endsRun voidLast).args (fun _ => none) = Function.update (fun _ => none) (endsRun voidLast).savePath (some (.whole file)) ∧
    finalFs wideRun.args (fun _ => none) = Function.update (fun _ => none) (endsRun voidLast).savePath (some (.whole file')) ∧
    (∃ v, storedAt file .signal 1 1 = some (some v)) ∧ (∃ v', storedAt file' .signal 1 1 = some (some v')) ∧ ¬ ∃ v, storedAt file .signal 1 0 = some (some v) := by
  have hcfg : ProperConfig wConfig := by constructor <;> norm_num [wConfig]
  have hno : (endsRun voidLast).no.Pairwise (· < ·) := by
    change ([1, 2] : List ℝ).Pairwise (· < ·)
    norm_num
  have hW : ∀ f ∈ (endsRun voidLast).source, Placed f → ∀ lat long, f.lat = some lat → f.long = some long →
      Within (endsRun voidLast) lat long ∧ ∀ c ∈ inReach (endsRun voidLast) lat long, Downwards c := by
    intro f hf hpl lat long hla hlo
    rcases void_source f hf with rfl | rfl
    · exact absurd hpl wLost_not_placed
    · obtain rfl := Option.some.inj hla
      obtain rfl := Option.some.inj hlo
      exact ⟨void_within, fun c hc => void_downwards c (by rw [← void_reach_last]; exact hc)⟩
  obtain ⟨file, file', h1, h2, h3⟩ := raise_delta (endsRun voidLast) (fun _ => none) 400 (endsRun voidLast).settings (by change (250 : ℝ) ≤ 400; norm_num)
    Verif.Lemmas.Depth.grid2_isInterp2d (wEnv_topo 91 108 170 186) void_wellFormed (by change (0 : ℤ) ≠ 1; norm_num)
    (by change (0 : ℤ) ≠ 1; norm_num) isArgsort_stable (wEnv_rand 91 108 170 186) hcfg (by change 1 ≤ 100; norm_num) hno rfl rfl void_shape hW void_last_ends wide_ends
  obtain ⟨fileA, a1, a2⟩ := mapped_iff (endsRun voidLast) (fun _ => none)
    Verif.Lemmas.Depth.grid2_isInterp2d (wEnv_topo 91 108 170 186) void_wellFormed (by change (0 : ℤ) ≠ 1; norm_num)
    (by change (0 : ℤ) ≠ 1; norm_num) isArgsort_stable (wEnv_rand 91 108 170 186) hcfg (by change 1 ≤ 100; norm_num) hno rfl rfl void_shape
    (fun f hm hp lat long hla hlo => (hW f hm hp lat long hla hlo).1) void_last_ends
  have hsame : file = fileA := by
    have := congrFun (h1.symm.trans a1) (endsRun voidLast).savePath
    simp only [Function.update_self, Option.some.injEq] at this
    simpa using this
  subst hsame
  obtain ⟨v, hv⟩ := (a2 1 (wFloat 105) 1 rfl (by change 1 < 2; norm_num)).2 ⟨wFloat_placed 105, 5, 105, 1000, rfl, rfl, ⟨35, rfl⟩, rfl,
    by change (600 : ℝ) ≤ 1000; norm_num, by
      rw [(void_contributions 1 1000 rfl (by change (600 : ℝ) ≤ 1000; norm_num)).2.2]
      simp [wSamples]⟩
  refine ⟨file, file', h1, h2, ⟨v, hv⟩, h3 1 1 v (by change 1 < 2; norm_num) (by change 1 < 2; norm_num) hv, ?_⟩
  intro hn
  obtain ⟨-, lat, long, q, -, -, -, hq, hex, -⟩ := (a2 1 (wFloat 105) 0 rfl (by change 0 < 2; norm_num)).1 hn
  have := (void_contributions 0 q hq hex).1
  omega

end Verif.Props
