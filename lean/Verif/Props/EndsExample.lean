import Verif.Props.Ends
import Verif.Props.OrderExample

/-!
# Concrete cases for C163 and C164

The six casts of `ProfileWorld` and one without any pressure.
-/

set_option linter.unusedSectionVars false
set_option maxRecDepth 4000

namespace Verif.Props

open Verif.Np Verif.Helper Verif.Region Verif.Profile Verif.Update Verif.Spec Verif.Spec.Profile Verif.Level Verif.Finders
open Verif.Lemmas.Profile Verif.Utilities Verif.Saf Verif.Topo

/-- A cast without any pressure. -/
noncomputable def wVoid : RefCast ℝ :=
  ⟨some 5, some 97, "20100615120000".toList, [], [none, none], [some 35, some 35], [some 10, some 0]⟩

/-- The casts `l` in one file. -/
noncomputable def oneFile (l : List (RefCast ℝ)) : Disk ℝ := fun t n => if t = 1 ∧ n = 170 then some ⟨l, 2⟩ else none

noncomputable def voidLast : List (RefCast ℝ) :=
  [wCast 91 5 35, wCast (91 + 1) 5 35.01, wCast (91 + 2) 5 35, wCast (91 + 3) 5 35.01, wCast (91 + 4) 5 35, wCast (91 + 5) 5 35.01, wVoid]

noncomputable def voidFirst : List (RefCast ℝ) :=
  [wVoid, wCast 91 5 35, wCast (91 + 1) 5 35.01, wCast (91 + 2) 5 35, wCast (91 + 3) 5 35.01, wCast (91 + 4) 5 35, wCast (91 + 5) 5 35.01]

/-- A run over two profiles with the casts `l`. -/
noncomputable def endsRun (l : List (RefCast ℝ)) : FloatRun :=
  runWith (wRun (wEnv 91 108 170 186) [wLost, wFloat 105] [1, 2]) (oneFile l)

theorem void_mem (c : RefCast ℝ) (h : c ∈ voidLast ∨ c ∈ voidFirst) : c = wVoid ∨ ∃ x s, c = wCast x 5 s ∧ 91 ≤ x ∧ x ≤ 97 := by
  simp only [voidLast, voidFirst, List.mem_cons, List.not_mem_nil, or_false] at h
  rcases h with (rfl | rfl | rfl | rfl | rfl | rfl | rfl) | (rfl | rfl | rfl | rfl | rfl | rfl | rfl) <;>
    first
      | exact .inl rfl
      | exact .inr ⟨_, _, rfl, by norm_num, by norm_num⟩

theorem void_surrounding_last : surrounding (endsRun voidLast).env 105 5 = voidLast := by
  unfold surrounding
  rw [show boxesAt (endsRun voidLast).env 105 5 = boxesAt (wEnv 91 108 170 186) 105 5 from rfl, world_open.boxes]
  rfl

theorem void_surrounding_first : surrounding (endsRun voidFirst).env 105 5 = voidFirst := by
  unfold surrounding
  rw [show boxesAt (endsRun voidFirst).env 105 5 = boxesAt (wEnv 91 108 170 186) 105 5 from rfl, world_open.boxes]
  rfl

theorem void_near (l : List (RefCast ℝ)) (hl : ∀ c ∈ l, c = wVoid ∨ ∃ x s, c = wCast x 5 s ∧ 91 ≤ x ∧ x ≤ 97) : nearCasts wConfig 5 105 l = l := by
  classical
  have hx : ∀ c ∈ l, ∃ x, c.long = some x ∧ c.lat = some 5 ∧ 91 ≤ x ∧ x ≤ 97 := by
    intro c hc
    rcases hl c hc with rfl | ⟨x, s, rfl, h⟩
    · exact ⟨97, rfl, rfl, by norm_num, by norm_num⟩
    · exact ⟨x, rfl, rfl, h⟩
  unfold nearCasts
  rw [List.filter_eq_self]
  intro c hc
  obtain ⟨x, h1, h2, h3, h4⟩ := hx c hc
  simp only [decide_eq_true_eq]
  refine ⟨x, 5, h1, h2, ?_⟩
  rw [wFloatAmong]
  have : amongCasts l x = x := by
    have he : ∀ x : ℝ, 91 ≤ x ∧ x ≤ 97 → eastward x = x := fun x hx => if_neg (by linarith)
    unfold amongCasts
    rw [if_neg, he x ⟨h3, h4⟩]
    rintro ⟨⟨c', hc', x', hx', h5⟩, -⟩
    obtain ⟨x'', g1, -, g3⟩ := hx c' hc'
    rw [hx'] at g1
    obtain rfl := Option.some.inj g1
    rw [he _ g3] at h5
    linarith
  rw [this]
  norm_num [wConfig]
  rw [abs_lt]
  constructor <;> linarith

theorem void_usable : usableLevels (some 1250) wVoid = [] := by
  unfold usableLevels
  rw [List.filter_eq_nil_iff]
  intro l hl
  simp only [levelsOf, wVoid, List.zip_cons_cons, List.zip_nil_left, List.mem_cons, List.not_mem_nil, or_false] at hl
  rcases hl with rfl | rfl <;> simp [UsableLevel]

theorem void_reach_last : inReach (endsRun voidLast) 5 105 = voidLast := by
  unfold inReach
  rw [void_surrounding_last]
  exact void_near _ fun c hc => void_mem c (.inl hc)

theorem void_reach_first : inReach (endsRun voidFirst) 5 105 = voidFirst := by
  unfold inReach
  rw [void_surrounding_first]
  exact void_near _ fun c hc => void_mem c (.inr hc)

theorem void_within : Within (endsRun voidLast) 5 105 := by
  refine ⟨by norm_num, by norm_num, ?_, ?_⟩
  · rw [void_surrounding_last]
    intro c hc y x hy hx
    rcases void_mem c (.inl hc) with rfl | ⟨x', s, rfl, h1, h2⟩
    · obtain rfl := Option.some.inj hy
      obtain rfl := Option.some.inj hx
      norm_num
    · obtain rfl := Option.some.inj hy
      obtain rfl := Option.some.inj hx
      exact ⟨by norm_num, by linarith, by linarith⟩
  · rw [void_reach_last]
    change _ ≤ 100
    simp [voidLast]

theorem void_contributions (n : ℕ) (q : ℝ) (hq : (wFloat 105).pres[n]? = some (some q)) (hex : (endsRun voidLast).env.cfg.pExclude ≤ q) :
    n = 1 ∧ q = 1000 ∧ contributions (endsRun voidLast) (wFloat 105) 5 105 n q = wSamples := by
  rcases n with _ | _ | n
  · obtain rfl := Option.some.inj (Option.some.inj hq)
    change (600 : ℝ) ≤ 500 at hex
    norm_num at hex
  · obtain rfl := Option.some.inj (Option.some.inj hq)
    refine ⟨rfl, rfl, ?_⟩
    unfold contributions
    rw [void_reach_last]
    change samplesAt (pressureLimit (wFloat 105).pres 250) 250 voidLast (some 5) 1000 = _
    rw [wLimit]
    have hall : ∀ x : ℝ, 91 ≤ x ∧ x ≤ 97 → amongCasts voidLast x = x := by
      intro x hx
      have he : ∀ x : ℝ, 91 ≤ x ∧ x ≤ 97 → eastward x = x := fun x hx => if_neg (by linarith)
      unfold amongCasts
      rw [if_neg, he x hx]
      rintro ⟨⟨c, hc, x', hx', h5⟩, -⟩
      rcases void_mem c (.inl hc) with rfl | ⟨x'', s, rfl, h⟩
      · obtain rfl := Option.some.inj hx'
        rw [he _ (by norm_num)] at h5
        linarith
      · obtain rfl := Option.some.inj hx'
        rw [he _ h] at h5
        linarith
    have hs : ∀ x s, 91 ≤ x ∧ x ≤ 97 → sampleOf (some 1250) 250 5 1000 (amongCasts voidLast) (wCast x 5 s) = some ⟨s, 5, x, decimalDate (wCast 91 5 35), 0⟩ := by
      intro x s hx
      have hex : ∃ s', Meets (some 1250) (wCast x 5 s) 5 1000 250 s' := ⟨s, (wMeets x 5 s s).2 rfl⟩
      unfold sampleOf
      rw [dif_pos hex, (wMeets x 5 s _).1 hex.choose_spec]
      change some (⟨s, 5, amongCasts voidLast x, _, 0⟩ : Sample) = _
      rw [hall x hx]
      rfl
    have hv : sampleOf (some 1250) 250 5 1000 (amongCasts voidLast) wVoid = none := by
      unfold sampleOf
      rw [dif_neg]
      rintro ⟨s, h⟩
      obtain ⟨l, hl, -⟩ := meets_hasData _ _ _ _ _ _ h
      rw [void_usable] at hl
      cases hl
    unfold samplesAt
    dsimp only
    generalize hF : sampleOf (some 1250) 250 5 1000 (amongCasts voidLast) = F at *
    unfold voidLast wSamples
    simp only [List.filterMap_cons, List.filterMap_nil]
    rw [hs _ _ (by norm_num), hs _ _ (by norm_num), hs _ _ (by norm_num), hs _ _ (by norm_num), hs _ _ (by norm_num), hs _ _ (by norm_num), hv]
  · simp [wFloat] at hq

theorem wSamples_noise : ¬ IsNoiseVariance (sampleObs (inliers wSamples)) 0 := by
  rw [inliers_few _ (by simp [wSamples])]
  rintro (⟨h, -⟩ | ⟨-, p, p1, p2, -, p4⟩)
  · obtain ⟨la, lb, xa, xb, e1, e2, e3, e4, e5⟩ := h ⟨some 35, some 5, some 91⟩ (by simp [sampleObs, wSamples]) ⟨some 35.01, some 5, some (91 + 1)⟩
      (by simp [sampleObs, wSamples])
    simp only [Option.some.injEq] at e1 e2 e3 e4
    subst e1 e2 e3 e4
    norm_num at e5
  · rw [squares_neighbour wSamples (fun a => 70.01 - a.sal) wSamples_neighbour p p1 p2] at p4
    norm_num [wSamples] at p4

theorem void_suffices : Suffices (endsRun voidLast) (wFloat 105) 5 105 (pressureLimit (wFloat 105).pres (endsRun voidLast).env.cfg.pDelta) := by
  rw [show pressureLimit (wFloat 105).pres (endsRun voidLast).env.cfg.pDelta = some 1250 from wLimit 105]
  refine ⟨?_, ?_, ?_, ?_, ?_⟩
  · rw [void_surrounding_last]
    intro c hc
    rcases void_mem c (.inl hc) with rfl | ⟨x', s, rfl, -⟩ <;> simp [wVoid, wCast]
  · rw [void_reach_last]
    exact ⟨_, _, rfl, by rw [wUsable]; simp⟩
  · rw [void_reach_last]
    exact ⟨wCast 91 5 35, by simp [voidLast], wHasData _ _ _⟩
  · intro n s v q _ _ _
    rw [void_reach_last]
    refine ⟨⟨wCast 91 5 35, by simp [voidLast], by rw [wComplete]; simp⟩, ?_⟩
    intro c hc h2
    rcases void_mem c (.inl hc) with rfl | ⟨x', s, rfl, -⟩
    · unfold completeLevels at h2
      rw [void_usable] at h2
      simp at h2
    · rw [wComplete]
      by_cases hv : v = 0
      · exact ⟨⟨s, 10, 900⟩, by simp, by rw [hv]; norm_num⟩
      · exact ⟨⟨s, 0, 1100⟩, by simp, Ne.symm hv⟩
  · rintro n q ⟨-, hq, hex, -⟩
    rw [(void_contributions n q hq hex).2.2]
    exact wSamples_noise

theorem void_wellFormed : WellFormedDisk (oneFile voidLast) := by
  intro t n f h
  unfold oneFile at h
  split_ifs at h
  obtain rfl := Option.some.inj h
  simp [voidLast, wCast, wVoid]

theorem void_source (f : FloatProfile) (hf : f ∈ (endsRun voidLast).source) : f = wLost ∨ f = wFloat 105 := by
  change f ∈ [wLost, wFloat 105] at hf
  simpa using hf

theorem void_shape : ∀ f ∈ (endsRun voidLast).source,
    f.sal.length = (endsRun voidLast).levels ∧ f.ptmp.length = (endsRun voidLast).levels ∧ f.pres.length = (endsRun voidLast).levels := by
  intro f hf
  rcases void_source f hf with rfl | rfl <;> exact ⟨rfl, rfl, rfl⟩

/-- C163 on a run over two profiles with seven casts, of which the last has no pressure: it ends normally. -/
theorem void_last_ends : (updateMapping (endsRun voidLast).args fun _ => none).1 = none := by
  have hcfg : ProperConfig wConfig := by constructor <;> norm_num [wConfig]
  refine (run_ends_iff (endsRun voidLast) (fun _ => none) Verif.Lemmas.Depth.grid2_isInterp2d (wEnv_topo 91 108 170 186) void_wellFormed (by change (0 : ℤ) ≠ 1; norm_num)
    (by change (0 : ℤ) ≠ 1; norm_num) isArgsort_stable (wEnv_rand 91 108 170 186) hcfg (by change 1 ≤ 100; norm_num) rfl rfl void_shape ?_).2 ⟨?_, ?_⟩
  · intro f hf hpl lat long hla hlo
    rcases void_source f hf with rfl | rfl
    · exact absurd hpl wLost_not_placed
    · obtain rfl := Option.some.inj hla
      obtain rfl := Option.some.inj hlo
      exact void_within
  · intro f hf hpl lat long hla hlo
    rcases void_source f hf with rfl | rfl
    · exact absurd hpl wLost_not_placed
    · obtain rfl := Option.some.inj hla
      obtain rfl := Option.some.inj hlo
      exact void_suffices
  · refine ⟨wFloat 105, by change _ ∈ [wLost, wFloat 105]; simp, wFloat_placed 105, 5, 105, rfl, rfl, 1, 1000, ⟨35, rfl⟩, rfl, ?_, ?_⟩
    · change (600 : ℝ) ≤ 1000
      norm_num
    · rw [(void_contributions 1 1000 rfl (by change (600 : ℝ) ≤ 1000; norm_num)).2.2]
      simp [wSamples]

theorem void_clear : Clear (endsRun voidLast) (wFloat 105) 5 105 := by
  have h := void_within
  refine ⟨h.latitude, h.longitude, h.casts, h.few, ?_⟩
  intro n t q ht hq hex
  have hc := (void_contributions n q hq hex).2.2
  unfold contributions at hc
  rw [ht] at hc
  change ClearNeighbours (inliers (samplesAt _ _ (inReach (endsRun voidLast) 5 105) (some t).join q))
  rw [hc, inliers_few _ (by simp [wSamples])]
  exact wSamples_clear

theorem void_shuffled : Shuffled (oneFile voidLast) (oneFile voidFirst) := by
  intro t n
  unfold oneFile
  split_ifs
  · refine .inr ⟨_, _, rfl, rfl, rfl, ?_⟩
    exact List.perm_append_comm (l₁ := [_, _, _, _, _, _]) (l₂ := [wVoid])
  · exact .inl ⟨rfl, rfl⟩

/-- C164. The order of the casts can decide whether a run ends normally: with the cast without pressures at the end of the file it does, with this cast at the
beginning it does not. -/
theorem order_decides : Shuffled (oneFile voidLast) (oneFile voidFirst) ∧ (updateMapping (endsRun voidLast).args fun _ => none).1 = none ∧
    (updateMapping (endsRun voidFirst).args fun _ => none).1 ≠ none := by
  refine ⟨void_shuffled, void_last_ends, ?_⟩
  have hcfg : ProperConfig wConfig := by constructor <;> norm_num [wConfig]
  intro hrun'
  have key := (order_ends (endsRun voidLast) (fun _ => none) Verif.Lemmas.Depth.grid2_isInterp2d (wEnv_topo 91 108 170 186) void_wellFormed
    (by change (0 : ℤ) ≠ 1; norm_num) (by change (0 : ℤ) ≠ 1; norm_num) isArgsort_stable (wEnv_rand 91 108 170 186) hcfg (by change 1 ≤ 100; norm_num) rfl rfl
    void_shape (by
      intro f hf hpl lat long hla hlo
      rcases void_source f hf with rfl | rfl
      · exact absurd hpl wLost_not_placed
      · obtain rfl := Option.some.inj hla
        obtain rfl := Option.some.inj hlo
        exact void_clear)
    (oneFile voidFirst) void_shuffled void_last_ends).1 hrun' (wFloat 105) (by change _ ∈ [wLost, wFloat 105]; simp) (wFloat_placed 105) 5 105 rfl rfl
  obtain ⟨c, cs, h1, h2⟩ := key
  rw [show runWith (endsRun voidLast) (oneFile voidFirst) = endsRun voidFirst from rfl, void_reach_first] at h1
  obtain rfl := (List.cons.inj h1).1
  rw [show pressureLimit (wFloat 105).pres (endsRun voidLast).env.cfg.pDelta = some 1250 from wLimit 105] at h2
  exact h2 void_usable

end Verif.Props
