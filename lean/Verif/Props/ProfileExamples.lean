import Verif.Props.ProfileWorld

/-!
# Concrete runs for C91-C97
-/

set_option linter.unusedSectionVars false
set_option maxRecDepth 4000

namespace Verif.Props

open Verif.Np Verif.Helper Verif.Region Verif.Profile Verif.Update Verif.Spec Verif.Spec.Profile Verif.Level Verif.Finders
open Verif.Lemmas.Profile Verif.Utilities Verif.Saf Verif.Topo

theorem wrapLongitude_id (xs : List ℝ) (h : ∀ x ∈ xs, 40 < x ∧ x ≤ 360) : wrapLongitude (xs.map some) = xs.map some := by
  have hid : ∀ (g : ℝ → ℝ), (∀ x, 40 < x → x ≤ 360 → g x = x) → (xs.map some).map (Option.map g) = xs.map some := by
    intro g hg
    rw [List.map_map]
    apply List.map_congr_left
    intro x hx
    simp only [Function.comp, Option.map_some, hg x (h x hx).1 (h x hx).2]
  rcases wrapLongitude_cases (xs.map some) with ⟨-, e⟩ | ⟨-, e⟩ <;> rw [e] <;> apply hid
  · intro x x1 x2
    simp only [w1, w2]
    split_ifs <;> linarith
  · intro x x1 x2
    simp only [w1]
    split_ifs <;> linarith

theorem wSix_long (x0 : ℝ) : (wSix x0).map (·.long) = (wLongs x0).map some := rfl

/-- A float at 105 E, casts from 91 E to 96 E. -/
theorem world_open : WorldOk 91 108 108 105 170 186 10 where
  boxes := wBoxes_eq 91 108 105 170 186 10 (by norm_num) (by norm_num) (by norm_num)
  casts := wCasts_open 91 108
  wrap := by
    have hl : (wSix 91 ++ wTwo 108).map (·.long) = (wLongs 91 ++ [108, 108]).map some := rfl
    rw [hl]
    refine wrapLongitude_id (wLongs 91 ++ [108, 108]) ?_
    intro x hx
    simp only [wLongs, List.cons_append, List.nil_append, List.mem_cons, List.not_mem_nil, or_false] at hx
    rcases hx with rfl | rfl | rfl | rfl | rfl | rfl | rfl | rfl <;> norm_num
  wrapSix := wrapLongitude_id (wLongs 91) (by
    intro x hx
    simp only [wLongs, List.mem_cons, List.not_mem_nil, or_false] at hx
    rcases hx with rfl | rfl | rfl | rfl | rfl | rfl <;> norm_num)
  matching := by
    have : matchLongitude ((wLongs 91 ++ [108, 108]).map some) 105 = 105 := by
      refine (matchLongitude_spec _ _).2 (Or.inl ?_)
      intro x hx
      simp only [wLongs, List.cons_append, List.nil_append, List.map_cons, List.map_nil, List.mem_cons, List.not_mem_nil, or_false, Option.some.injEq] at hx
      rcases hx with rfl | rfl | rfl | rfl | rfl | rfl | rfl | rfl <;> norm_num
    rw [this]; norm_num
  range := by norm_num

/-- A float at 5 E, six casts from 9 W to 4 W and two far ones at 8 E. -/
theorem world_greenwich : WorldOk 351 8 368 5 638 6 0 where
  boxes := wBoxes_eq 351 8 5 638 6 0 (by norm_num) (by norm_num) (by norm_num)
  casts := wCasts_greenwich 351 8
  wrap := by
    have hl : (wSix 351 ++ wTwo 8).map (·.long) = (wLongs 351 ++ [8, 8]).map some := rfl
    rw [hl]
    rcases wrapLongitude_cases ((wLongs 351 ++ [8, 8]).map some) with ⟨-, e⟩ | ⟨hno, -⟩
    · rw [e]
      simp only [wLongs, List.cons_append, List.nil_append, List.map_cons, List.map_nil, Option.map_some, w1, w2]
      norm_num
    · exfalso
      refine absurd (hno (351 : ℝ) ?_) ?_
      · simp [wLongs]
      · simp [w1]; norm_num
  wrapSix := wrapLongitude_id (wLongs 351) (by
    intro x hx
    simp only [wLongs, List.mem_cons, List.not_mem_nil, or_false] at hx
    rcases hx with rfl | rfl | rfl | rfl | rfl | rfl <;> norm_num)
  matching := by
    have : matchLongitude ((wLongs 351 ++ [368, 368]).map some) 5 = 5 + 360 := by
      refine (matchLongitude_spec _ _).1 ?_ (by norm_num) (by norm_num)
      exact ⟨368, by simp [wLongs], by norm_num⟩
    rw [this]; norm_num
  range := by norm_num

/-- A profile without position. -/
noncomputable def wLost : FloatProfile := { wFloat 0 with lat := none, long := none }

/-- A run over some profiles. -/
noncomputable def wRun (E : Env) (source : List FloatProfile) (no : List ℝ) : FloatRun := ⟨E, source, no, 2, "in", "out", fun _ => 0⟩

theorem wFloat_placed (F : ℝ) : Placed (wFloat F) := ⟨by simp [wFloat], by simp [wFloat], 1, 1000, by norm_num, rfl⟩

theorem wLost_not_placed : ¬ Placed wLost := fun h => h.1 rfl

/-- Runs in the two worlds succeed. -/
theorem world_runs (x0 e e' F : ℝ) (n0 n1 cx : ℤ) (h : WorldOk x0 e e' F n0 n1 cx) (source : List FloatProfile) (no : List ℝ)
    (hlen : no.length = source.length) (hs : ∀ f ∈ source, f = wFloat F ∨ f = wLost) (hm : wFloat F ∈ source) (fs : Fs ℝ) (hfs : fs "in" = none) :
    (updateMapping (wRun (wEnv x0 e n0 n1) source no).args fs).1 = none := by
  obtain ⟨p, hp, -, -, hl0, o, hl1⟩ := wLevel x0 e e' F n0 n1 cx h
  have hP : ∀ i, source[i]? = some (wFloat F) → profilesOf (wEnv x0 e n0 n1) source i = .ok (some (levelOf (wEnv x0 e n0 n1) (wFloat F) p)) := by
    intro i hi
    unfold profilesOf item
    rw [hi]
    simp only [bind, Except.bind]
    unfold profileOf
    rw [if_pos ((usable_iff _).2 (wFloat_placed F))]
    change (do let p ← prepare (wEnv x0 e n0 n1) (wFloat F) 5 F; pure (some (levelOf (wEnv x0 e n0 n1) (wFloat F) p))) = _
    rw [hp]
    rfl
  have hcomp : Computable (wRun (wEnv x0 e n0 n1) source no).args.P no.length 2 := by
    constructor
    · intro i hi
      have hi' : i < source.length := by omega
      have hget : source[i]? = some source[i] := List.getElem?_eq_getElem hi'
      change ∃ r, profilesOf (wEnv x0 e n0 n1) source i = .ok r ∧ _
      rcases hs source[i] (List.getElem_mem hi') with hw | hw
      · rw [hw] at hget
        refine ⟨_, hP i hget, ?_⟩
        rintro f hf n hn
        obtain rfl := Option.some.inj hf
        interval_cases n
        · exact ⟨_, hl0⟩
        · exact ⟨_, hl1⟩
      · rw [hw] at hget
        refine ⟨none, ?_, fun f hf => by cases hf⟩
        unfold profilesOf item
        rw [hget]
        simp only [bind, Except.bind]
        unfold profileOf
        rw [if_neg (fun hu => wLost_not_placed ((usable_iff _).1 hu))]
        rfl
    · intro i _ n _ o ho
      obtain ⟨f, lat, long, p, -, -, -, -, -, hl⟩ := levelOut_cases (wEnv x0 e n0 n1) source i n o ho
      exact levelOf_points (wEnv x0 e n0 n1) f p n o hl
  have hmap : SomethingMapped (wRun (wEnv x0 e n0 n1) source no).args.P no.length 2 := by
    obtain ⟨i, hi, hfi⟩ := List.mem_iff_getElem.1 hm
    refine ⟨i, by omega, 1, by norm_num, ?_⟩
    unfold levelOut
    rw [show (wRun (wEnv x0 e n0 n1) source no).args.P i = _ from hP i (by rw [List.getElem?_eq_getElem hi, hfi])]
    dsimp only
    rw [hl1]
    rfl
  obtain ⟨file, hf, -⟩ := fresh_run_file (wRun (wEnv x0 e n0 n1) source no).args fs hfs isArgsort_stable hcomp hmap
  rw [hf]

/-- The hypotheses of C91 (first half), C92 and C93 are met by a run over two profiles, one of them without position, which succeeds. -/
example : (updateMapping (wRun (wEnv 91 108 170 186) [wLost, wFloat 105] [1, 2]).args (fun _ => none)).1 = none ∧
    WellFormedDisk (wEnv 91 108 170 186).disk ∧ IsArgsort (wEnv 91 108 170 186).argsort ∧ ([1, 2] : List ℝ).Pairwise (· < ·) ∧ Placed (wFloat 105) ∧ ¬ Placed wLost :=
  ⟨world_runs 91 108 108 105 170 186 10 world_open _ _ rfl (by simp) (by simp) _ rfl, wDisk_wellFormed _ _ _ _, isArgsort_stable, by simp,
    wFloat_placed _, wLost_not_placed⟩

/-- C92 on this run: every number saved for the profile without position is missing, and so is the level of the second profile above 600 dbar. -/
example : ∃ file : MapFile ℝ, finalFs (wRun (wEnv 91 108 170 186) [wLost, wFloat 105] [1, 2]).args (fun _ => none) "out" = some (.whole file) ∧
    (∀ m, ∃ col, (file.mats m)[0]? = some col ∧ col[1]? = some none) ∧ ∀ m, ∃ col, (file.mats m)[1]? = some col ∧ col[0]? = some none := by
  obtain ⟨file, h1, -, h2⟩ := saved_missing (wRun (wEnv 91 108 170 186) [wLost, wFloat 105] [1, 2]) (fun _ => none) isArgsort_stable
    (by simp [wRun]) rfl rfl (world_runs 91 108 108 105 170 186 10 world_open _ _ rfl (by simp) (by simp) _ rfl)
  refine ⟨file, by rw [h1]; exact Function.update_self .., ?_, ?_⟩
  · exact (h2 0 wLost rfl).1 1 (by change 1 < 2; norm_num) (Or.inl wLost_not_placed)
  · refine (h2 1 (wFloat 105) rfl).1 0 (by change 0 < 2; norm_num) (Or.inr (Or.inr (Or.inr ⟨500, rfl, ?_⟩)))
    change (500 : ℝ) < 600
    norm_num

/-- The hypotheses of C94 are met by two runs in which the same profile has different places and numbers. -/
example : ∃ file file' : MapFile ℝ,
    finalFs (wRun (wEnv 91 108 170 186) [wLost, wFloat 105] [1, 2]).args (fun _ => none) = Function.update (fun _ => none) "out" (some (.whole file)) ∧
      finalFs (wRun (wEnv 91 108 170 186) [wFloat 105] [7]).args (fun _ => none) = Function.update (fun _ => none) "out" (some (.whole file')) ∧
      ∀ m, ∃ col, (file.mats m)[1]? = some col ∧ (file'.mats m)[0]? = some col := by
  obtain ⟨file, file', h1, h2, h3⟩ := saved_column_independent (wRun (wEnv 91 108 170 186) [wLost, wFloat 105] [1, 2])
    (wRun (wEnv 91 108 170 186) [wFloat 105] [7]) (fun _ => none) (fun _ => none) rfl rfl isArgsort_stable (by simp [wRun]) (by simp [wRun]) rfl rfl rfl rfl
    (world_runs 91 108 108 105 170 186 10 world_open _ _ rfl (by simp) (by simp) _ rfl)
    (world_runs 91 108 108 105 170 186 10 world_open _ _ rfl (by simp) (by simp) _ rfl)
  exact ⟨file, file', h1, h2, h3 1 0 (wFloat 105) rfl rfl⟩

/-- A cast of the float itself. -/
noncomputable def wOwnCast (src : List Char) : RefCast ℝ := { wCast 105 5 33 with source := src }

/-- An Argo file of box 188 with `n + 2` casts of the float itself. -/
noncomputable def wOwn (src : List Char) (n : ℕ) : Disk ℝ := fun t m =>
  if t = 3 ∧ m = 188 then some ⟨List.replicate (n + 2) (wOwnCast src), 2⟩ else wDisk 91 108 170 186 t m

theorem wOwn_agree (name src : List Char) (h : name <:+: src) (k l : ℕ) : OthersAgree name (wOwn src k) (wOwn src l) := by
  have hf : ∀ n, ((List.replicate (n + 2) (wOwnCast src)).filter fun c => decide (¬ name <:+: c.source)) = [] := by
    intro n
    rw [List.filter_eq_nil_iff]
    intro c hc
    rw [List.eq_of_mem_replicate hc]
    exact fun hd => of_decide_eq_true hd h
  constructor
  · intro n; exact ⟨rfl, rfl⟩
  · intro n
    by_cases hn : n = 188
    · subst hn
      exact Or.inr ⟨_, _, rfl, rfl, rfl, by rw [hf, hf], by simp, by simp⟩
    · refine Or.inl ⟨?_, ?_⟩ <;> simp [wOwn, hn, wDisk]

/-- The hypothesis of C95 is met by reference data with two or five casts of the float itself. -/
example : OthersAgree "3901960".toList (wOwn "3901960_17".toList 0) (wOwn "3901960_17".toList 3) := wOwn_agree _ _ (by decide +kernel) 0 3

/-- C91, second half: a profile at 105 E beside reference data near 5 E. -/
example : (updateMapping (wRun (wEnv 351 8 638 6) [wFloat 105, wFloat 5] [1, 2]).args (fun _ => none)).1 ≠ none := by
  refine (run_without_casts_saves_nothing (wRun (wEnv 351 8 638 6) [wFloat 105, wFloat 5] [1, 2]) (fun _ => none) rfl (wDisk_wellFormed _ _ _ _) rfl
    (wFloat 105) (by simp [wRun]) (wFloat_placed _) ?_).1
  intro lat long h1 h2
  obtain rfl := Option.some.inj h1
  obtain rfl := Option.some.inj h2
  unfold surrounding
  rw [show boxesAt (wRun (wEnv 351 8 638 6) [wFloat 105, wFloat 5] [1, 2]).env 105 5 = _ from
    wBoxes_eq 351 8 105 638 6 10 (by norm_num) (by norm_num) (by norm_num)]
  rfl

/-- C96: a float at 5 E with casts at 10 W and 3 E. -/
example : let casts := wrapLongitude ([-10, 3].map fun d : ℝ => some (eastward d))
    ∀ (i : ℕ) (d y : ℝ), [-10, 3][i]? = some d → casts[i]? = some (some y) → TrueDifference d 5 (y - matchLongitude casts (eastward 5)) :=
  (longitude_difference_iff (-20) 5 [-10, 3] (by norm_num) (by norm_num) (by simp; norm_num) (by simp)).2 (by norm_num)

/-- C96: and with casts at 10 W and 3 W only. -/
example : let casts := wrapLongitude ([-10, -3].map fun d : ℝ => some (eastward d))
    ¬ ∀ (i : ℕ) (d y : ℝ), [-10, -3][i]? = some d → casts[i]? = some (some y) → TrueDifference d 5 (y - matchLongitude casts (eastward 5)) :=
  fun h => by
    have := (longitude_difference_iff (-20) 5 [-10, -3] (by norm_num) (by norm_num) (by simp; norm_num) (by simp)).1 h
    norm_num at this

/-- C96, the run that fails: a float at 5 E whose only casts are from 9 W to 4 W, the nearest 9 degrees away. -/
theorem greenwich_run_fails : (updateMapping (wRun (wEnv 351 8 638 (-1)) [wFloat 5] [1]).args (fun _ => none)).1 ≠ none := by
  refine (run_fails_across_greenwich (wRun (wEnv 351 8 638 (-1)) [wFloat 5] [1]) (fun _ => none) rfl (wDisk_wellFormed _ _ _ _) rfl (wFloat 5)
    (by simp [wRun]) (wFloat_placed _) 5 5 rfl rfl (by norm_num) (by change (0 : ℝ) < 8; norm_num) (by change (8 : ℝ) ≤ 100; norm_num) ?_).1
  intro c hc
  unfold surrounding at hc
  rw [show boxesAt (wRun (wEnv 351 8 638 (-1)) [wFloat 5] [1]).env 5 5 = _ from
    wBoxes_eq 351 8 5 638 (-1) 0 (by norm_num) (by norm_num) (by norm_num)] at hc
  change c ∈ wSix 351 at hc
  simp only [wSix, List.mem_cons, List.not_mem_nil, or_false] at hc
  rcases hc with rfl | rfl | rfl | rfl | rfl | rfl <;> exact ⟨_, rfl, by norm_num, by norm_num⟩

/-- C96, the silent error: with two more casts at 8 E, too far north to be chosen, the run succeeds, but maps the float at 5 E as if it were more than 345 degrees
away from the casts, which are 9 to 14 degrees away. -/
theorem greenwich_run_wrong : (updateMapping (wRun (wEnv 351 8 638 6) [wFloat 5] [1]).args (fun _ => none)).1 = none ∧
    ∃ p o, prepare (wEnv 351 8 638 6) (wFloat 5) 5 5 = .ok p ∧ levelOf (wEnv 351 8 638 6) (wFloat 5) p 1 = .ok (some o) ∧
      p.pos.long = 5 ∧ p.grid.long = [351, 352, 353, 354, 355, 356] := by
  refine ⟨world_runs 351 8 368 5 638 6 0 world_greenwich _ _ rfl (by simp) (by simp) _ rfl, ?_⟩
  obtain ⟨p, hp, h1, h2, -, o, ho⟩ := wLevel 351 8 368 5 638 6 0 world_greenwich
  have hl : ∀ x ∈ p.grid.long, 320 ≤ x ∧ x ≤ 360 := by
    rw [h2]
    intro x hx
    simp only [wLongs, List.mem_cons, List.not_mem_nil, or_false] at hx
    rcases hx with rfl | rfl | rfl | rfl | rfl | rfl <;> norm_num
  have := (mapping_longitude_off _ _ _ _ p hp (by norm_num) (by norm_num) hl).1
  refine ⟨p, o, hp, ho, this, ?_⟩
  rw [h2]
  simp only [wLongs]
  norm_num

/-- C97: a position and a complete file. -/
example : (wEnv 91 108 170 186).topo.length = 2160 * 4320 := wEnv_topo _ _ _ _

end Verif.Props
