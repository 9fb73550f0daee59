import Verif.Props.Saf
import Mathlib.Tactic.FieldSimp
import Mathlib.Tactic.Ring

/-!
# The Subantarctic Front constraint: an interpolation that meets the assumptions, and concrete cases
-/

set_option linter.unusedSectionVars false

namespace Verif.Props

open Verif.Np Verif.Helper Verif.Saf Verif.Spec.Saf Verif.Region Verif.Lemmas.Saf

variable {K : Type} [Field K] [LinearOrder K] [IsStrictOrderedRing K]

/-- A linear scan for the interval, for the examples. -/
def scanInterp (x : K) : List (K × Option K) → Option K
  | [] => none
  | [a] => if x = a.1 then a.2 else none
  | a :: b :: l =>
    if x < a.1 then none
    else if x = a.1 then a.2
    else if x < b.1 then
      match a.2, b.2 with
      | some t, some t' => some (lineAt a.1 t b.1 t' x)
      | _, _ => none
    else scanInterp x (b :: l)

def scan : Interp K := fun x xp fp => scanInterp x (xp.zip fp)

theorem scan_zip (x : K) (l : List (K × Option K)) : scan x (l.map (·.1)) (l.map (·.2)) = scanInterp x l := by
  unfold scan
  rw [List.zip_map']
  simp

theorem lineAt_left (p t p' t' : K) : lineAt p t p' t' p = t := by unfold lineAt; simp

theorem lineAt_right (p t p' t' : K) (h : p < p') : lineAt p t p' t' p' = t' := by
  unfold lineAt
  have : p' - p ≠ 0 := sub_ne_zero.2 h.ne'
  field_simp
  ring

theorem scan_at (l : List (K × Option K)) (h : (l.map (·.1)).Pairwise (· < ·)) (pre post : List (K × Option K)) (p : K) (o : Option K)
    (hl : l = pre ++ (p, o) :: post) : scanInterp p l = o := by
  induction pre generalizing l with
  | nil =>
    subst hl
    cases post <;> simp [scanInterp]
  | cons a pre ih =>
    subst hl
    have hr := h
    rw [List.cons_append, List.map_cons, List.pairwise_cons] at hr
    have ha : a.1 < p := hr.1 p (by simp)
    cases pre with
    | nil =>
      rw [List.cons_append, List.nil_append, scanInterp, if_neg (not_lt.2 ha.le), if_neg ha.ne', if_neg (lt_irrefl _)]
      exact ih _ hr.2 rfl
    | cons b pre =>
      have hb : b.1 < p := by
        have := hr.2
        rw [List.cons_append, List.map_cons, List.pairwise_cons] at this
        exact this.1 p (by simp)
      rw [List.cons_append, List.cons_append, scanInterp, if_neg (not_lt.2 ha.le), if_neg ha.ne', if_neg (not_lt.2 hb.le)]
      exact ih _ hr.2 rfl

/-- The assumptions about `np.interp` can be met. -/
theorem scan_isInterp : IsInterp (scan : Interp K) where
  inside := by
    intro l p t p' t' x hasc hn h1 h2
    rw [scan_zip]
    obtain ⟨pre, post, hl⟩ := hn
    have hpp : p < p' := by
      rw [hl, List.map_append, List.pairwise_append] at hasc
      exact (List.pairwise_cons.1 hasc.2.1).1 p' (by simp)
    rcases eq_or_lt_of_le h1 with rfl | h1
    · rw [lineAt_left]; exact scan_at l hasc pre _ p (some t) hl
    rcases eq_or_lt_of_le h2 with rfl | h2
    · rw [lineAt_right _ _ _ _ hpp]; exact scan_at l hasc (pre ++ [(p, some t)]) post x (some t') (by rw [hl]; simp)
    · induction pre generalizing l with
      | nil =>
        subst hl
        rw [List.nil_append, scanInterp, if_neg (not_lt.2 h1.le), if_neg h1.ne', if_pos h2]
      | cons a pre ih =>
        subst hl
        have hr := hasc
        rw [List.cons_append, List.map_cons, List.pairwise_cons] at hr
        have ha : a.1 < p := hr.1 p (by simp)
        cases pre with
        | nil =>
          rw [List.cons_append, List.nil_append, scanInterp, if_neg (not_lt.2 (ha.trans h1).le), if_neg (ha.trans h1).ne',
            if_neg (not_lt.2 h1.le)]
          exact ih _ hr.2 rfl
        | cons b pre =>
          have hb : b.1 < p := by
            have := hr.2
            rw [List.cons_append, List.map_cons, List.pairwise_cons] at this
            exact this.1 p (by simp)
          rw [List.cons_append, List.cons_append, scanInterp, if_neg (not_lt.2 (ha.trans h1).le), if_neg (ha.trans h1).ne',
            if_neg (not_lt.2 (hb.trans h1).le)]
          exact ih _ hr.2 rfl
  below := by
    intro l x h
    rw [scan_zip]
    rcases l with _ | ⟨a, _ | ⟨b, l⟩⟩
    · rfl
    · rw [scanInterp, if_neg (h a (by simp)).ne]
    · rw [scanInterp, if_pos (h a (by simp))]
  above := by
    intro l x h
    rw [scan_zip]
    induction l with
    | nil => rfl
    | cons a l ih =>
      have ha := h a (by simp)
      cases l with
      | nil => rw [scanInterp, if_neg ha.ne']
      | cons b l =>
        rw [scanInterp, if_neg (not_lt.2 ha.le), if_neg ha.ne', if_neg (not_lt.2 (h b (by simp)).le)]
        exact ih (fun q hq => h q (by simp [hq]))

/-! ### Concrete cases -/

/-- The temperatures equal the potential temperatures. -/
def exTemperature : Temperature ℚ := fun _ _ ptmp _ _ => ptmp

def exRow (p t : ℚ) : Option (Row ℚ) := some ⟨p, 34, t, t⟩

def exWarm : SafCast ℚ := ⟨[exRow 100 10, exRow 250 9, none, exRow 400 7, none], some (-50), some 20, 2000, 4000⟩

def exCold : SafCast ℚ := ⟨[exRow 100 4, exRow 250 3, none, exRow 400 1, none], some (-55), some 21, 2001, 3000⟩

def exSafFloat : SafFloat ℚ := ⟨-52, [(some 10, some 12, some 34), (none, none, none), (some 200, some 8, none), (some 500, some 6, some 35)]⟩

def exSafProfiles : SafProfiles ℚ := ⟨[200, 400], [34, 35], [35, 34], [1, 1], [1, 1], [2, 1], [8, 6], [1, 1], [1, 1]⟩

theorem exWarm_side : SideIs (profile exWarm.rows) 1 := by
  refine .inl ⟨⟨by decide, ⟨(100, 10), by simp [profile, exWarm, exRow], by norm_num⟩, (400, 7), by simp [profile, exWarm, exRow], by norm_num⟩,
    25 / 3, ⟨250, 9, 400, 7, ⟨[(100, 10)], [], by simp [profile, exWarm, exRow]⟩, by norm_num, by norm_num, by norm_num [lineAt]⟩,
    by norm_num [sideOf]⟩

theorem exCold_side : SideIs (profile exCold.rows) (-1) := by
  refine .inl ⟨⟨by decide, ⟨(100, 4), by simp [profile, exCold, exRow], by norm_num⟩, (400, 1), by simp [profile, exCold, exRow], by norm_num⟩,
    7 / 3, ⟨250, 3, 400, 1, ⟨[(100, 4)], [], by simp [profile, exCold, exRow]⟩, by norm_num, by norm_num, by norm_num [lineAt]⟩,
    by norm_num [sideOf]⟩

theorem exSafFloat_side : SideIs (floatProfile exSafFloat) 1 := by
  refine .inl ⟨⟨by decide, ⟨(10, 12), by simp [floatProfile, exSafFloat], by norm_num⟩, (500, 6), by simp [floatProfile, exSafFloat],
    by norm_num⟩, 22 / 3, ⟨200, 8, 500, 6, ⟨[(10, 12)], [], by simp [floatProfile, exSafFloat]⟩, by norm_num, by norm_num,
    by norm_num [lineAt]⟩, by norm_num [sideOf]⟩

theorem exSafFloat_asc : Ascending (floatProfile exSafFloat) := by unfold Ascending; decide +kernel

/-- A float in warm water keeps the warm cast and loses the cold one: the hypotheses of `saf_keeps_own_side_partial` are met. -/
theorem exSaf_warm :
    frontalConstraint scan exTemperature exSafProfiles (gridOf [exCold, exWarm, exCold]) exSafFloat = .ok (gridOf [exWarm]) := by
  have h := saf_keeps_own_side_partial (scan : Interp ℚ) scan_isInterp exTemperature exSafProfiles [exCold, exWarm, exCold] exSafFloat
    (by norm_num [exSafFloat]) exSafFloat_asc 1 exSafFloat_side (by norm_num)
    (by
      intro c hc
      simp only [List.mem_cons, List.not_mem_nil, or_false] at hc
      rcases hc with rfl | rfl | rfl <;> rfl)
    (by
      intro c hc
      simp only [List.mem_cons, List.not_mem_nil, or_false] at hc
      unfold Ascending
      rcases hc with rfl | rfl | rfl <;> decide +kernel)
    (fun c => if c.date = 2000 then 1 else -1)
    (by
      intro c hc
      simp only [List.mem_cons, List.not_mem_nil, or_false] at hc
      rcases hc with rfl | rfl | rfl <;> rfl)
    (by
      intro c hc
      simp only [List.mem_cons, List.not_mem_nil, or_false] at hc
      rcases hc with rfl | rfl | rfl
      · simpa [exCold] using exCold_side
      · simpa [exWarm] using exWarm_side
      · simpa [exCold] using exCold_side)
  rw [h]
  simp [exCold, exWarm]

/-- The same warm cast without missing rows at the end: its deepest level is in the last row. -/
def exWarmFull : SafCast ℚ := ⟨[exRow 100 10, exRow 200 9, exRow 250 9, exRow 400 7], some (-50), some 20, 2000, 4000⟩

theorem exWarmFull_side : SideIs (profile exWarmFull.rows) 1 := by
  refine .inl ⟨⟨by decide, ⟨(100, 10), by simp [profile, exWarmFull, exRow], by norm_num⟩, (400, 7), by simp [profile, exWarmFull, exRow],
    by norm_num⟩, 25 / 3, ⟨250, 9, 400, 7, ⟨[(100, 10), (200, 9)], [], by simp [profile, exWarmFull, exRow]⟩, by norm_num, by norm_num,
    by norm_num [lineAt]⟩, by norm_num [sideOf]⟩

/-- The last row of the matrices is not used: a cast on the float's own side is dropped because it needs its last row to reach
300 dbar. -/
theorem saf_last_row_ignored :
    ∃ (cs : List (SafCast ℚ)) (f : SafFloat ℚ) (s : SafProfiles ℚ) (temperature : Temperature ℚ) (c : SafCast ℚ),
      c ∈ cs ∧ TemperatureOf temperature c ∧ Ascending (profile c.rows) ∧ SideIs (profile c.rows) 1 ∧ SideIs (floatProfile f) 1 ∧
        f.lat < -30 ∧ ∀ interp : Interp ℚ, IsInterp interp →
          frontalConstraint interp temperature s (gridOf cs) f = .ok (gridOf []) := by
  refine ⟨[exWarmFull], exSafFloat, exSafProfiles, exTemperature, exWarmFull, by simp, rfl, by unfold Ascending; decide +kernel,
    exWarmFull_side, exSafFloat_side, by norm_num [exSafFloat], ?_⟩
  intro interp hI
  rw [saf_keeps_own_side interp hI exTemperature exSafProfiles [exWarmFull] exSafFloat (by norm_num [exSafFloat]) exSafFloat_asc 1
    exSafFloat_side (by norm_num) (by intro c hc; simp only [List.mem_singleton] at hc; subst hc; rfl)
    (by intro c hc; simp only [List.mem_singleton] at hc; subst hc; unfold Ascending; decide +kernel) (fun _ => 0)]
  · rfl
  · intro c hc
    simp only [List.mem_singleton] at hc
    subst hc
    refine .inr ⟨?_, rfl⟩
    rintro ⟨_, _, q, hq, h300⟩
    simp only [profile, exWarmFull, exRow, List.dropLast, List.filterMap_cons, List.filterMap_nil, Option.map_some, List.mem_cons,
      List.not_mem_nil, or_false] at hq
    rcases hq with rfl | rfl | rfl <;> norm_num at h300

/-- A float with a repeated pressure: the hypotheses of `saf_repeated_pressure_fails` are met. -/
example : frontalConstraint scan exTemperature exSafProfiles (gridOf [exWarm, exCold])
    ⟨-52, [(some 10, some 12, some 34), (some 200, some 8, none), (none, some 8, some 1), (some 200, some 7, some 35)]⟩ =
      .error .valueError :=
  saf_repeated_pressure_fails _ _ _ _ _ (by norm_num) 200 8 7 ⟨[(10, 12)], [], by simp [floatProfile]⟩

/-- A shallow float: the hypotheses of `saf_undecided_keeps_all` are met. -/
example : frontalConstraint scan exTemperature exSafProfiles (gridOf [exWarm, exCold])
    ⟨-52, [(some 10, some 12, some 34), (some 200, some 8, none)]⟩ = .ok (gridOf [exWarm, exCold]) :=
  saf_undecided_keeps_all _ scan_isInterp _ _ _ _ (by unfold Ascending; decide +kernel)
    (by rintro ⟨h, _⟩; exact absurd h (by decide))

/-- A float at 4 degrees inside the southern envelope only: the hypotheses of the first case of `saf_envelope_decides` are met. -/
def exMidFloat : SafFloat ℚ := ⟨-52, [(some 10, some 5, some 34), (some 200, some 4, some 34), (some 500, some 4, some 34)]⟩

def exMidProfiles : SafProfiles ℚ := ⟨[100, 200], [33, 35], [37, 36], [1, 1], [1, 1], [3, 3], [8, 2], [2, 2], [1, 1]⟩

theorem exMid_comparison (d s t n₁ n₂ s₁ s₂ : ℚ) : Comparison scan exMidProfiles exMidFloat d s t n₁ n₂ s₁ s₂ ↔
    d = 200 ∧ s = 34 ∧ t = 4 ∧ n₁ = 71 / 2 ∧ n₂ = 223 / 6 ∧ s₁ = 1 ∧ s₂ = 5 := by
  have h1 : (envelopePoint scan exMidProfiles (okLevels exMidFloat) 100).ok 100 = false := by decide +kernel
  have h2 : envelopePoint scan exMidProfiles (okLevels exMidFloat) 200 =
      ⟨some 34, some 4, some (71 / 2), some (223 / 6), some 1, some 5⟩ := by decide +kernel
  have h3 : (envelopePoint scan exMidProfiles (okLevels exMidFloat) 200).ok 200 = true := by decide +kernel
  rw [comparison_iff]
  constructor
  · rintro ⟨hd, ho, he⟩
    simp only [exMidProfiles, List.mem_cons, List.not_mem_nil, or_false] at hd
    rcases hd with rfl | rfl
    · rw [h1] at ho; exact absurd ho (by simp)
    · rw [h2] at he
      simp only [EnvelopePoint.mk.injEq, Option.some.injEq] at he
      obtain ⟨a, b, c, d, e, f⟩ := he
      exact ⟨rfl, a.symm, b.symm, c.symm, d.symm, e.symm, f.symm⟩
  · rintro ⟨rfl, rfl, rfl, rfl, rfl, rfl, rfl⟩
    exact ⟨by simp [exMidProfiles], h3, h2⟩

example : frontalConstraint scan exTemperature exMidProfiles (gridOf [exWarm, exCold]) exMidFloat = .ok (gridOf [exCold]) := by
  have h := (saf_envelope_decides (scan : Interp ℚ) scan_isInterp exTemperature exMidProfiles [exWarm, exCold] exMidFloat
    (by norm_num [exMidFloat]) (by unfold Ascending; decide +kernel)
    ⟨by decide, ⟨(10, 5), by simp [floatProfile, exMidFloat], by norm_num⟩, (500, 4), by simp [floatProfile, exMidFloat], by norm_num⟩
    4 ⟨200, 4, 500, 4, ⟨[(10, 5)], [], by simp [floatProfile, exMidFloat]⟩, by norm_num, by norm_num, by norm_num [lineAt]⟩
    (by norm_num) (by norm_num)
    (by
      intro c hc
      simp only [List.mem_cons, List.not_mem_nil, or_false] at hc
      rcases hc with rfl | rfl <;> rfl)
    (by
      intro c hc
      simp only [List.mem_cons, List.not_mem_nil, or_false] at hc
      unfold Ascending
      rcases hc with rfl | rfl <;> decide +kernel)
    (fun c => if c.date = 2000 then 1 else -1)
    (by
      intro c hc
      simp only [List.mem_cons, List.not_mem_nil, or_false] at hc
      rcases hc with rfl | rfl
      · have : profile exWarm.rows.dropLast = profile exWarm.rows := rfl
        rw [this]
        simpa [exWarm] using exWarm_side
      · have : profile exCold.rows.dropLast = profile exCold.rows := rfl
        rw [this]
        simpa [exCold] using exCold_side)).1
    ⟨⟨200, 34, 4, 71 / 2, 223 / 6, 1, 5, (exMid_comparison _ _ _ _ _ _ _).2 (by norm_num)⟩,
      by
        intro d s t n₁ n₂ s₁ s₂ hc
        obtain ⟨-, -, rfl, -, -, rfl, rfl⟩ := (exMid_comparison _ _ _ _ _ _ _).1 hc
        norm_num,
      by
        intro hn
        have := hn 200 34 4 (71 / 2) (223 / 6) 1 5 ((exMid_comparison _ _ _ _ _ _ _).2 (by norm_num))
        norm_num at this⟩
  rw [h]
  simp [exCold, exWarm]

/-- One warm cast is not enough to apply the constraint: the hypothesis of `saf_used_above_five` is met. -/
example : applySaf scan exTemperature exSafProfiles true (gridOf [exCold, exWarm, exCold]) exSafFloat =
    .ok (gridOf [exCold, exWarm, exCold]) := by
  rw [(saf_used_above_five _ _ _ _ _ _ exSaf_warm (by intro c hc; simp [gridOf, exWarm] at hc; rw [hc]; simp)).1]
  rfl

end Verif.Props
