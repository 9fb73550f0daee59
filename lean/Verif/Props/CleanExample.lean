import Verif.Props.Clean
import Verif.Props.EndsExample

/-!
# A concrete case for C165

Seven casts of different salinities in one file, of which at most six are used.
-/

set_option linter.unusedSectionVars false
set_option maxRecDepth 4000

namespace Verif.Props

open Verif.Np Verif.Helper Verif.Region Verif.Profile Verif.Update Verif.Spec Verif.Spec.Profile Verif.Level Verif.Finders
open Verif.Lemmas.Profile Verif.Utilities Verif.Saf Verif.Topo

noncomputable def sevenCasts : List (RefCast ℝ) :=
  [wCast 91 5 35, wCast 92 5 35.01, wCast 93 5 35.02, wCast 94 5 35.03, wCast 95 5 35.04, wCast 96 5 35.05, wCast 97 5 35.06]

/-- A run over two profiles with these casts. -/
noncomputable def sevenRun (C : MapConfig) (limit : ℕ) : FloatRun :=
  { endsRun sevenCasts with env := { (endsRun sevenCasts).env with cfg := C, maxCasts := limit } }

/-- The settings of the example are those of `wConfig`, where it matters. -/
structure SevenConfig (C : MapConfig) : Prop where
  long : C.longLarge = 8
  lat : C.latLarge = 4
  pv : C.usePv = 0
  delta : C.pDelta = 250
  exclude : C.pExclude ≤ 1000

theorem seven_mem (c : RefCast ℝ) (h : c ∈ sevenCasts) : ∃ x s, c = wCast x 5 s ∧ 91 ≤ x ∧ x ≤ 97 := by
  simp only [sevenCasts, List.mem_cons, List.not_mem_nil, or_false] at h
  rcases h with rfl | rfl | rfl | rfl | rfl | rfl | rfl <;> exact ⟨_, _, rfl, by norm_num, by norm_num⟩

theorem seven_surrounding (C : MapConfig) (limit : ℕ) : surrounding (sevenRun C limit).env 105 5 = sevenCasts := by
  unfold surrounding
  rw [show boxesAt (sevenRun C limit).env 105 5 = boxesAt (wEnv 91 108 170 186) 105 5 from rfl, world_open.boxes]
  rfl

theorem seven_reach (C : MapConfig) (limit : ℕ) (hC : SevenConfig C) : inReach (sevenRun C limit) 5 105 = sevenCasts := by
  unfold inReach
  rw [seven_surrounding]
  change nearCasts C 5 105 _ = _
  refine Eq.trans ?_ (void_near sevenCasts fun c hc => .inr (seven_mem c hc))
  unfold nearCasts Near
  rw [hC.long, hC.lat]
  rfl

theorem seven_among (x : ℝ) (h3 : 91 ≤ x) (h4 : x ≤ 97) : amongCasts sevenCasts x = x := by
  have he : ∀ x : ℝ, 91 ≤ x ∧ x ≤ 97 → eastward x = x := fun x hx => if_neg (by linarith)
  unfold amongCasts
  rw [if_neg, he x ⟨h3, h4⟩]
  rintro ⟨⟨c', hc', x', hx', h5⟩, -⟩
  obtain ⟨x'', s, rfl, g3⟩ := seven_mem c' hc'
  obtain rfl := Option.some.inj hx'
  rw [he _ g3] at h5
  linarith

theorem seven_reached (C : MapConfig) (limit : ℕ) (hC : SevenConfig C) : reached (sevenRun C limit).env (wFloat 105) 5 105 = sevenCasts := by
  classical
  unfold reached
  rw [seven_surrounding, List.filter_eq_self]
  intro c hc
  obtain ⟨x, s, rfl, h1, h2⟩ := seven_mem c hc
  simp only [decide_eq_true_eq]
  refine ⟨x, 5, rfl, rfl, ?_⟩
  intro z d _ _
  refine ⟨x, 5, by rw [seven_among x h1 h2], rfl, ?_⟩
  rw [if_neg (by change ¬ C.usePv = 1; rw [hC.pv]; norm_num)]
  rw [show floatAmong (amongCasts sevenCasts) sevenCasts 105 = 105 from wFloatAmong _ _]
  change ((x - 105) / (3 * C.longLarge)) ^ 2 + ((5 - 5) / (3 * C.latLarge)) ^ 2 < (1 : ℝ)
  rw [hC.long, hC.lat]
  norm_num
  rw [abs_lt]
  constructor <;> linarith

theorem wMeets_sal (x y s v q δ s' : ℝ) (h : Meets (some 1250) (wCast x y s) v q δ s') : s' = s := by
  obtain ⟨k, w, p, ⟨⟨a, b, ha, hb, -, -, -, -, hs, -⟩, -⟩, -⟩ := h
  rw [wComplete] at ha hb
  have h1 : a.sal = s := by
    have := List.mem_of_getElem? ha
    simp only [List.mem_cons, List.not_mem_nil, or_false] at this
    rcases this with rfl | rfl <;> rfl
  have h2 : b.sal = s := by
    have := List.mem_of_getElem? hb
    simp only [List.mem_cons, List.not_mem_nil, or_false] at this
    rcases this with rfl | rfl <;> rfl
  rw [hs, h1, h2]
  ring

theorem seven_pair (C : MapConfig) (limit : ℕ) (i j a b : ℝ) (h1 : 91 ≤ i ∧ i ≤ 97) (h2 : 91 ≤ j ∧ j ≤ 97) (hij : i ≠ j) (hab : a ≠ b) :
    (∀ (m : ℤ) (y x x' : ℝ), (wCast i 5 a).lat = some y → (wCast j 5 b).lat = some y → (wCast i 5 a).long = some x → (wCast j 5 b).long = some x' →
      x' ≠ x + 360 * m) ∧
    ∀ (n : ℕ) (v q s : ℝ), (wFloat 105).ptmp[n]? = some (some v) → (wFloat 105).pres[n]? = some (some q) →
      Meets (some 1250) (wCast i 5 a) v q (sevenRun C limit).env.cfg.pDelta s → ¬ Meets (some 1250) (wCast j 5 b) v q (sevenRun C limit).env.cfg.pDelta s := by
  refine ⟨?_, ?_⟩
  · intro m y x x' _ _ hx hx' h
    obtain rfl := Option.some.inj hx
    obtain rfl := Option.some.inj hx'
    have hm1 : (m : ℝ) < 1 := by linarith
    have hm2 : (-1 : ℝ) < m := by linarith
    have hm : m = 0 := by
      have e1 : m < 1 := by exact_mod_cast hm1
      have e2 : -1 < m := by exact_mod_cast hm2
      omega
    rw [hm] at h
    apply hij
    rw [h]
    norm_num
  · intro n v q s _ _ k1 k2
    exact hab ((wMeets_sal _ _ _ _ _ _ _ k1).symm.trans (wMeets_sal _ _ _ _ _ _ _ k2))

theorem seven_clean (C : MapConfig) (limit : ℕ) (hC : SevenConfig C) : Clean (sevenRun C limit) (wFloat 105) 5 105 := by
  have hlim : pressureLimit (wFloat 105).pres (sevenRun C limit).env.cfg.pDelta = some 1250 := by
    change pressureLimit _ C.pDelta = _
    rw [hC.delta]
    exact wLimit 105
  refine ⟨by norm_num, by norm_num, ?_, ?_, ?_, ?_, ?_⟩
  · rw [seven_surrounding]
    intro c hc
    obtain ⟨x, s, rfl, h1, h2⟩ := seven_mem c hc
    exact ⟨5, x, rfl, rfl, by norm_num, by linarith, by linarith⟩
  · intro h
    change C.usePv = 1 at h
    rw [hC.pv] at h
    norm_num at h
  · rw [seven_reached C limit hC]
    simp [sevenCasts]
  · rw [seven_reach C limit hC, hlim]
    intro c hc
    obtain ⟨x, s, rfl, -⟩ := seven_mem c hc
    rw [wComplete]
    exact ⟨⟨s, 10, 900⟩, by simp, ⟨s, 0, 1100⟩, by simp, by norm_num⟩
  · rw [seven_reach C limit hC, hlim]
    unfold sevenCasts
    simp only [List.pairwise_cons, List.mem_cons, List.not_mem_nil, or_false, forall_eq_or_imp, forall_eq, List.Pairwise.nil, and_true, IsEmpty.forall_iff,
      implies_true]
    refine ⟨⟨?_, ?_, ?_, ?_, ?_, ?_⟩, ⟨?_, ?_, ?_, ?_, ?_⟩, ⟨?_, ?_, ?_, ?_⟩, ⟨?_, ?_, ?_⟩, ⟨?_, ?_⟩, ?_⟩ <;>
      exact seven_pair C limit _ _ _ _ (by norm_num) (by norm_num) (by norm_num) (by norm_num)

theorem seven_covered (C : MapConfig) (limit : ℕ) (hC : SevenConfig C) : Covered (sevenRun C limit) (wFloat 105) 5 105 1 := by
  refine ⟨35, 5, 1000, rfl, rfl, rfl, hC.exclude, ?_, ?_⟩
  · rw [seven_reach C limit hC, show (sevenRun C limit).env.cfg.pDelta = 250 from hC.delta, wLimit 105]
    intro c hc
    obtain ⟨x, s, rfl, -⟩ := seven_mem c hc
    exact ⟨s, (wMeets x 5 s s).2 rfl⟩
  · rw [seven_reached C limit hC]
    simp [sevenCasts]

theorem seven_source (C : MapConfig) (limit : ℕ) (f : FloatProfile) (hf : f ∈ (sevenRun C limit).source) : f = wLost ∨ f = wFloat 105 := by
  change f ∈ [wLost, wFloat 105] at hf
  simpa using hf

theorem seven_wellFormed (C : MapConfig) (limit : ℕ) : WellFormedDisk (sevenRun C limit).env.disk := by
  intro t n f h
  change oneFile sevenCasts t n = some f at h
  unfold oneFile at h
  split_ifs at h
  obtain rfl := Option.some.inj h
  simp [sevenCasts, wCast]

theorem seven_shape (C : MapConfig) (limit : ℕ) : ∀ f ∈ (sevenRun C limit).source,
    f.sal.length = (sevenRun C limit).levels ∧ f.ptmp.length = (sevenRun C limit).levels ∧ f.pres.length = (sevenRun C limit).levels := by
  intro f hf
  rcases seven_source C limit f hf with rfl | rfl <;> exact ⟨rfl, rfl, rfl⟩

theorem seven_all_clean (C : MapConfig) (limit : ℕ) (hC : SevenConfig C) : ∀ f ∈ (sevenRun C limit).source, Placed f → ∀ lat long,
    f.lat = some lat → f.long = some long → Clean (sevenRun C limit) f lat long := by
  intro f hf hpl lat long hla hlo
  rcases seven_source C limit f hf with rfl | rfl
  · exact absurd hpl wLost_not_placed
  · obtain rfl := Option.some.inj hla
    obtain rfl := Option.some.inj hlo
    exact seven_clean C limit hC

theorem seven_some_covered (C : MapConfig) (limit : ℕ) (hC : SevenConfig C) : ∃ f ∈ (sevenRun C limit).source, Placed f ∧ ∃ lat long n,
    f.lat = some lat ∧ f.long = some long ∧ Covered (sevenRun C limit) f lat long n :=
  ⟨wFloat 105, by change _ ∈ [wLost, wFloat 105]; simp, wFloat_placed 105, 5, 105, 1, rfl, rfl, seven_covered C limit hC⟩

/-- C165 on a run over two profiles with seven casts, of which at most six are used. -/
example : (updateMapping (sevenRun wConfig 6).args fun _ => none).1 = none := by
  have hC : SevenConfig wConfig := ⟨rfl, rfl, rfl, rfl, by norm_num [wConfig]⟩
  exact clean_run_ends (sevenRun wConfig 6) (fun _ => none) Verif.Lemmas.Depth.grid2_isInterp2d (wEnv_topo 91 108 170 186) (seven_wellFormed _ _)
    (by change (0 : ℤ) ≠ 1; norm_num) isArgsort_stable (wEnv_rand 91 108 170 186) (by constructor <;> norm_num [sevenRun, wConfig]) (by change 6 ≤ 6; norm_num) rfl rfl
    (seven_shape _ _) (seven_all_clean _ _ hC) (seven_some_covered _ _ hC)

end Verif.Props
