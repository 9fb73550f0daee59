import Verif.Props.Failure
import Verif.Props.EndsExample

/-!
# Concrete cases for C168

Runs over two profiles with one file of casts. They end with four different exceptions.
-/

set_option linter.unusedSectionVars false
set_option maxRecDepth 4000

namespace Verif.Props

open Verif.Np Verif.Helper Verif.Region Verif.Profile Verif.Update Verif.Spec Verif.Spec.Profile Verif.Level Verif.Finders
open Verif.Lemmas.Profile Verif.Utilities Verif.Saf Verif.Topo

/-- Casts in the sea of `ProfileWorld`. -/
def WorldCasts (l : List (RefCast ℝ)) : Prop := ∀ c ∈ l, c = wVoid ∨ ∃ x y s, c = wCast x y s ∧ (91 ≤ x ∧ x ≤ 97) ∧ -90 ≤ y ∧ y ≤ 90

theorem fail_file (l : List (RefCast ℝ)) (h1 : l.length ≠ 1) (n : ℤ) :
    fileCasts (oneFile l) "3901960".toList ⟨some n, 1, 0, 0⟩ 1 ++ fileCasts (oneFile l) "3901960".toList ⟨some n, 1, 0, 0⟩ 2 ++
      fileCasts (oneFile l) "3901960".toList ⟨some n, 1, 0, 0⟩ 3 = if n = 170 then l else [] := by
  unfold fileCasts oneFile
  by_cases hn : n = 170
  · by_cases hl : l.length < 2
    · have : l = [] := List.length_eq_zero_iff.1 (by omega)
      simp [hn, this]
    · simp [hn, hl]
  · simp [hn]

theorem fail_surrounding (l : List (RefCast ℝ)) (h1 : l.length ≠ 1) : surrounding (endsRun l).env 105 5 = l := by
  unfold surrounding
  rw [show boxesAt (endsRun l).env 105 5 = boxesAt (wEnv 91 108 170 186) 105 5 from rfl, world_open.boxes]
  change (wBoxes 10).flatMap (fun b => fileCasts (oneFile l) "3901960".toList b 1 ++ fileCasts (oneFile l) "3901960".toList b 2 ++
    fileCasts (oneFile l) "3901960".toList b 3) = l
  obtain ⟨ns, h2, h3⟩ : ∃ ns : List ℤ, wBoxes 10 = ns.map (fun n => ⟨some n, 1, 0, 0⟩) ∧ ns.filter (fun n => n = 170) = [170] :=
    ⟨(wBoxes 10).map fun b => b.number.getD 0, by decide +kernel, by decide +kernel⟩
  rw [h2, List.flatMap_map]
  simp only [fail_file l h1]
  have : ∀ ns : List ℤ, ns.flatMap (fun n => if n = 170 then l else []) = (ns.filter (fun n => n = 170)).flatMap fun _ => l := by
    intro ns
    induction ns with
    | nil => rfl
    | cons a ns ih =>
      by_cases ha : a = 170
      · simp [ha, ih]
      · simp [ha, ih]
  rw [this, h3]
  simp

theorem fail_within (l : List (RefCast ℝ)) (hl : WorldCasts l) (h1 : l.length ≠ 1) (hn : l.length ≤ 100) : Within (endsRun l) 5 105 := by
  refine ⟨by norm_num, by norm_num, ?_, ?_⟩
  · rw [fail_surrounding _ h1]
    intro c hc y x hy hx
    rcases hl c hc with rfl | ⟨x', y', s, rfl, h1, h2⟩
    · obtain rfl := Option.some.inj hy
      obtain rfl := Option.some.inj hx
      norm_num
    · obtain rfl := Option.some.inj hy
      obtain rfl := Option.some.inj hx
      exact ⟨h2, by linarith, by linarith⟩
  · unfold inReach
    rw [fail_surrounding _ h1]
    exact (List.length_filter_le _ _).trans hn

theorem fail_wellFormed (l : List (RefCast ℝ)) (hl : WorldCasts l) : WellFormedDisk (oneFile l) := by
  intro t n f h
  unfold oneFile at h
  split_ifs at h
  obtain rfl := Option.some.inj h
  refine ⟨le_rfl, fun c hc => ?_⟩
  rcases hl c hc with rfl | ⟨x', y', s, rfl, -⟩ <;> simp [wCast, wVoid]

theorem fail_iff (l : List (RefCast ℝ)) (hl : WorldCasts l) (h1 : l.length ≠ 1) (hn : l.length ≤ 100) (e : PyErr) :
    (updateMapping (endsRun l).args fun _ => none).1 = some e ↔ Fails (endsRun l) (wFloat 105) 5 105 (some 1250) e ∨
      e = .nameError ∧ Suffices (endsRun l) (wFloat 105) 5 105 (some 1250) ∧ ∀ n q, ¬ Mappable (endsRun l) (wFloat 105) 5 105 n q := by
  have hcfg : ProperConfig wConfig := by constructor <;> norm_num [wConfig]
  have hlim : pressureLimit (wFloat 105).pres (endsRun l).env.cfg.pDelta = some 1250 := wLimit 105
  have hsrc : ∀ f ∈ (endsRun l).source, f = wLost ∨ f = wFloat 105 := by
    intro f hf
    change f ∈ [wLost, wFloat 105] at hf
    simpa using hf
  rw [run_fails_iff (endsRun l) (fun _ => none) Verif.Lemmas.Depth.grid2_isInterp2d (wEnv_topo 91 108 170 186) rfl (fail_wellFormed l hl)
    (by change (0 : ℤ) ≠ 1; norm_num) (by change (0 : ℤ) ≠ 1; norm_num) isArgsort_stable (wEnv_rand 91 108 170 186) hcfg (by change 1 ≤ 100; norm_num) rfl rfl
    (by intro f hf; rcases hsrc f hf with rfl | rfl <;> exact ⟨rfl, rfl, rfl⟩)
    (by
      intro f hf hpl lat long hla hlo
      rcases hsrc f hf with rfl | rfl
      · exact absurd hpl wLost_not_placed
      · obtain rfl := Option.some.inj hla
        obtain rfl := Option.some.inj hlo
        exact ⟨fail_within l hl h1 hn, by norm_num, by norm_num⟩)]
  constructor
  · rintro (⟨i, f, lat, long, h1, h2, h3, h4, h5, -⟩ | ⟨rfl, h⟩)
    · rcases hsrc f (List.mem_of_getElem? h1) with rfl | rfl
      · exact absurd h2 wLost_not_placed
      · obtain rfl := Option.some.inj h3
        obtain rfl := Option.some.inj h4
        rw [hlim] at h5
        exact .inl h5
    · have := h (wFloat 105) (by change _ ∈ [wLost, wFloat 105]; simp) (wFloat_placed 105) 5 105 rfl rfl
      rw [hlim] at this
      exact .inr ⟨rfl, this⟩
  · rintro (h | ⟨rfl, h⟩)
    · refine .inl ⟨1, wFloat 105, 5, 105, rfl, wFloat_placed 105, rfl, rfl, by rw [hlim]; exact h, ?_⟩
      intro j g lat' long' hj hg hpl
      obtain rfl : j = 0 := by omega
      obtain rfl : wLost = g := Option.some.inj hg
      exact absurd hpl wLost_not_placed
    · refine .inr ⟨rfl, ?_⟩
      intro f hf hpl lat long hla hlo
      rcases hsrc f hf with rfl | rfl
      · exact absurd hpl wLost_not_placed
      · obtain rfl := Option.some.inj hla
        obtain rfl := Option.some.inj hlo
        rw [hlim]
        exact h

/-- C168: no casts. -/
theorem fail_nothing : (updateMapping (endsRun []).args fun _ => none).1 = some .valueError :=
  (fail_iff [] (by intro c hc; cases hc) (by simp) (by simp) _).2 (.inl (.nothing (fail_surrounding [] (by simp))))

/-- C168: the first cast has no pressure. -/
theorem fail_first : (updateMapping (endsRun voidFirst).args fun _ => none).1 = some .valueError := by
  refine (fail_iff voidFirst ?_ (by simp [voidFirst]) (by simp [voidFirst]) _).2 (.inl (.first ?_ wVoid _ void_reach_first void_usable))
  · intro c hc
    rcases void_mem c (.inr hc) with rfl | ⟨x, s, rfl, h⟩
    · exact .inl rfl
    · exact .inr ⟨x, 5, s, rfl, h, by norm_num, by norm_num⟩
  · intro c hc
    rw [void_surrounding_first] at hc
    rcases void_mem c (.inr hc) with rfl | ⟨x', s, rfl, -⟩ <;> simp [wVoid, wCast]

/-- Two casts far to the south. -/
noncomputable def farCasts : List (RefCast ℝ) := [wCast 96 (-60) 35, wCast 97 (-60) 35]

theorem far_mem (c : RefCast ℝ) (hc : c ∈ farCasts) : ∃ x, c = wCast x (-60) 35 ∧ 91 ≤ x ∧ x ≤ 97 := by
  simp only [farCasts, List.mem_cons, List.not_mem_nil, or_false] at hc
  rcases hc with rfl | rfl
  · exact ⟨96, rfl, by norm_num⟩
  · exact ⟨97, rfl, by norm_num⟩

/-- C168: casts, but none in reach. -/
theorem fail_reach : (updateMapping (endsRun farCasts).args fun _ => none).1 = some .runtimeError := by
  have hs : surrounding (endsRun farCasts).env 105 5 = farCasts := fail_surrounding _ (by simp [farCasts])
  refine (fail_iff _ ?_ (by simp [farCasts]) (by simp [farCasts]) _).2 (.inl (.reach ?_ ?_ ?_))
  · intro c hc
    obtain ⟨x, h1, h2⟩ := far_mem c hc
    exact .inr ⟨x, -60, 35, h1, h2, by norm_num⟩
  · rw [hs]
    simp [farCasts]
  · intro c hc
    rw [hs] at hc
    obtain ⟨x, rfl, -⟩ := far_mem c hc
    simp [wCast]
  · unfold inReach nearCasts
    rw [hs, List.filter_eq_nil_iff]
    intro c hc
    obtain ⟨x, rfl, -⟩ := far_mem c hc
    simp only [decide_eq_true_eq]
    rintro ⟨x, y, hx, hy, h⟩
    obtain rfl := Option.some.inj hy
    have := sq_nonneg ((amongCasts farCasts x - floatAmong (amongCasts farCasts) farCasts 105) / (3 * (endsRun farCasts).env.cfg.longLarge))
    have h4 : (endsRun farCasts).env.cfg.latLarge = 4 := rfl
    rw [h4] at h
    norm_num at h
    linarith

theorem same_among (l : List (RefCast ℝ)) (hl : ∀ c ∈ l, c = wCast 97 5 35) : amongCasts l 97 = 97 := by
  have he : eastward (97 : ℝ) = 97 := if_neg (by norm_num)
  unfold amongCasts
  rw [if_neg, he]
  rintro ⟨⟨c, hc, x', hx', h5⟩, -⟩
  rw [hl c hc] at hx'
  obtain rfl := Option.some.inj hx'
  rw [he] at h5
  norm_num at h5

/-- `k` casts with the same values at the same place. -/
noncomputable def sameCasts (k : ℕ) : List (RefCast ℝ) := List.replicate k (wCast 97 5 35)

theorem same_world (k : ℕ) : WorldCasts (sameCasts k) := by
  intro c hc
  exact .inr ⟨97, 5, 35, List.eq_of_mem_replicate hc, by norm_num, by norm_num⟩

theorem same_reach (k : ℕ) (hk : k ≠ 1) : inReach (endsRun (sameCasts k)) 5 105 = sameCasts k := by
  unfold inReach
  rw [fail_surrounding _ (by simpa [sameCasts] using hk)]
  refine void_near _ fun c hc => .inr ⟨97, 35, List.eq_of_mem_replicate hc, by norm_num, by norm_num⟩

theorem same_contributions (k n : ℕ) (hk : k ≠ 1) (q : ℝ) (hq : (wFloat 105).pres[n]? = some (some q)) (hex : (endsRun (sameCasts k)).env.cfg.pExclude ≤ q) :
    n = 1 ∧ q = 1000 ∧ contributions (endsRun (sameCasts k)) (wFloat 105) 5 105 n q = List.replicate k ⟨35, 5, 97, decimalDate (wCast 97 5 35), 0⟩ := by
  rcases n with _ | _ | n
  · obtain rfl := Option.some.inj (Option.some.inj hq)
    change (600 : ℝ) ≤ 500 at hex
    norm_num at hex
  · obtain rfl := Option.some.inj (Option.some.inj hq)
    refine ⟨rfl, rfl, ?_⟩
    unfold contributions
    rw [same_reach k hk]
    change samplesAt (pressureLimit (wFloat 105).pres 250) 250 (sameCasts k) (some 5) 1000 = _
    rw [wLimit]
    have hs : sampleOf (some 1250) 250 5 1000 (amongCasts (sameCasts k)) (wCast 97 5 35) = some ⟨35, 5, 97, decimalDate (wCast 97 5 35), 0⟩ := by
      have hex : ∃ s', Meets (some 1250) (wCast 97 5 35) 5 1000 250 s' := ⟨35, (wMeets 97 5 35 35).2 rfl⟩
      unfold sampleOf
      rw [dif_pos hex, (wMeets 97 5 35 _).1 hex.choose_spec]
      change some (⟨35, 5, amongCasts (sameCasts k) 97, _, 0⟩ : Sample) = _
      rw [same_among (sameCasts k) fun c hc => List.eq_of_mem_replicate hc]
    unfold samplesAt
    dsimp only
    generalize sampleOf (some 1250) 250 5 1000 (amongCasts (sameCasts k)) = F at *
    unfold sameCasts
    rw [List.filterMap_replicate_of_some hs]
  · simp [wFloat] at hq

theorem same_parts (k : ℕ) (hk : 2 ≤ k) : AllKnown (endsRun (sameCasts k)) 5 105 ∧
    (∃ c cs, inReach (endsRun (sameCasts k)) 5 105 = c :: cs ∧ usableLevels (some 1250) c ≠ []) ∧
    (∃ c ∈ inReach (endsRun (sameCasts k)) 5 105, HasData (some 1250) c) ∧
    ∀ (n : ℕ) (s v q : ℝ), (wFloat 105).sal[n]? = some (some s) → (wFloat 105).ptmp[n]? = some (some v) → (wFloat 105).pres[n]? = some (some q) →
      (∃ c ∈ inReach (endsRun (sameCasts k)) 5 105, 2 ≤ (completeLevels (some 1250) c).length) ∧
      ∀ c ∈ inReach (endsRun (sameCasts k)) 5 105, 2 ≤ (completeLevels (some 1250) c).length → ∃ a ∈ completeLevels (some 1250) c, a.theta ≠ v := by
  have hm : wCast 97 5 35 ∈ sameCasts k := List.mem_replicate.2 ⟨by omega, rfl⟩
  rw [same_reach k (by omega)]
  refine ⟨?_, ?_, ⟨_, hm, wHasData _ _ _⟩, ?_⟩
  · intro c hc
    rw [fail_surrounding _ (by simp [sameCasts]; omega)] at hc
    rw [List.eq_of_mem_replicate hc]
    simp [wCast]
  · obtain ⟨k, rfl⟩ : ∃ j, k = j + 1 := ⟨k - 1, by omega⟩
    exact ⟨_, _, List.replicate_succ, by rw [wUsable]; simp⟩
  · intro n s v q _ _ _
    refine ⟨⟨_, hm, by rw [wComplete]; simp⟩, ?_⟩
    intro c hc _
    rw [List.eq_of_mem_replicate hc, wComplete]
    by_cases hv : v = 0
    · exact ⟨⟨35, 10, 900⟩, by simp, by rw [hv]; norm_num⟩
    · exact ⟨⟨35, 0, 1100⟩, by simp, Ne.symm hv⟩

/-- C168: six casts at one place. -/
theorem fail_noise : (updateMapping (endsRun (sameCasts 6)).args fun _ => none).1 = some .linAlgError := by
  obtain ⟨h1, h2, h3, h4⟩ := same_parts 6 (by norm_num)
  have hc := (same_contributions 6 1 (by norm_num) 1000 rfl (by change (600 : ℝ) ≤ 1000; norm_num)).2.2
  refine (fail_iff _ (same_world 6) (by simp [sameCasts]) (by simp [sameCasts]) _).2 (.inl (.noise h1 h2 h3 h4 1 1000 ⟨⟨35, rfl⟩, rfl, by change (600 : ℝ) ≤ 1000; norm_num, ?_⟩ ?_))
  · rw [hc]
    simp
  · rw [hc, inliers_few _ (by simp)]
    refine .inl ⟨?_, rfl⟩
    intro a ha b hb
    simp only [sampleObs, List.map_replicate] at ha hb
    rw [List.eq_of_mem_replicate ha, List.eq_of_mem_replicate hb]
    exact ⟨_, _, _, _, rfl, rfl, rfl, rfl, by simp⟩

/-- C168: two casts are not enough for a value. -/
theorem fail_name : (updateMapping (endsRun (sameCasts 2)).args fun _ => none).1 = some .nameError := by
  obtain ⟨h1, h2, h3, h4⟩ := same_parts 2 (by norm_num)
  have hno : ∀ n q, ¬ Mappable (endsRun (sameCasts 2)) (wFloat 105) 5 105 n q := by
    rintro n q ⟨-, hq, hex, h5⟩
    rw [(same_contributions 2 n (by norm_num) q hq hex).2.2] at h5
    simp at h5
  exact (fail_iff _ (same_world 2) (by simp [sameCasts]) (by simp [sameCasts]) _).2 (.inr ⟨rfl, ⟨h1, h2, h3, h4, fun n q hm => absurd hm (hno n q)⟩, hno⟩)

end Verif.Props
