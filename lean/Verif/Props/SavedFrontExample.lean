import Verif.Props.SavedFront
import Verif.Props.SavedExample

/-!
# Concrete cases for C157, and the sides exist
-/

set_option linter.unusedSectionVars false
set_option maxRecDepth 4000

namespace Verif.Props

open Verif.Np Verif.Utilities Verif.Helper Verif.Region Verif.Profile Verif.Spec Verif.Spec.Profile Verif.Topo Verif.Finders Verif.Saf Verif.Level Verif.Update
open Verif.Lemmas.Profile Verif.Lemmas.Depth Verif.Spec.Saf

/-! ## Every profile with increasing pressures has a side -/

theorem temperature_exists (l : List (ℝ × ℝ)) (h1 : ∃ q ∈ l, q.1 < 300) (h2 : ∃ q ∈ l, 300 < q.1) (ha : Ascending l) : ∃ T, TemperatureAt300 l T := by
  induction l with
  | nil => obtain ⟨q, hq, -⟩ := h1; simp at hq
  | cons a l ih =>
    unfold Ascending at ha
    rw [List.map_cons, List.pairwise_cons] at ha
    have hlt : ∀ q ∈ l, a.1 < q.1 := fun q hq => ha.1 _ (List.mem_map.2 ⟨q, hq, rfl⟩)
    have ha1 : a.1 < 300 := by
      obtain ⟨q, hq, h⟩ := h1
      rcases List.mem_cons.1 hq with rfl | hq
      · exact h
      · exact (hlt q hq).trans h
    have h2' : ∃ q ∈ l, 300 < q.1 := by
      obtain ⟨q, hq, h⟩ := h2
      rcases List.mem_cons.1 hq with rfl | hq
      · exact absurd h (by linarith)
      · exact ⟨q, hq, h⟩
    cases l with
    | nil => obtain ⟨q, hq, -⟩ := h2'; simp at hq
    | cons b l =>
      by_cases hb : b.1 < 300
      · obtain ⟨T, p, t, p', t', ⟨pre, post, hn⟩, h⟩ := ih ⟨b, by simp, hb⟩ h2' ha.2
        exact ⟨T, p, t, p', t', ⟨a :: pre, post, by rw [hn]; rfl⟩, h⟩
      · exact ⟨_, a.1, a.2, b.1, b.2, ⟨[], l, rfl⟩, ha1.le, not_lt.1 hb, rfl⟩

/-- A profile with increasing pressures has a side. -/
theorem side_exists (l : List (ℝ × ℝ)) (ha : Ascending l) : ∃ k, SideIs l k := by
  by_cases h : Crosses300 l
  · obtain ⟨T, hT⟩ := temperature_exists l h.2.1 h.2.2 ha
    exact ⟨_, .inl ⟨h, T, hT, rfl⟩⟩
  · exact ⟨0, .inr ⟨h, rfl⟩⟩

/-- A float profile with increasing pressures has a side. -/
theorem floatSide_exists (interp : Saf.Interp ℝ) (p : SafProfiles ℝ) (f : SafFloat ℝ) (ha : Ascending (floatProfile f)) : ∃ k, FloatSide interp p f k := by
  by_cases h : Crosses300 (floatProfile f)
  · obtain ⟨T, hT⟩ := temperature_exists _ h.2.1 h.2.2 ha
    by_cases h5 : 5 < T
    · exact ⟨1, .inr ⟨h, T, hT, .inl ⟨h5, rfl⟩⟩⟩
    · by_cases h3 : T < 3
      · exact ⟨-1, .inr ⟨h, T, hT, .inr (.inl ⟨h3, rfl⟩)⟩⟩
      · have he : ∃ k, EnvelopeSide interp p f k := by
          unfold EnvelopeSide
          by_cases e1 : SomeComparison interp p f
          · by_cases e2 : InSouth interp p f <;> by_cases e3 : InNorth interp p f
            · exact ⟨0, .inr (.inr ⟨rfl, .inr ⟨fun _ => e3, fun _ => e2⟩⟩)⟩
            · exact ⟨-1, .inl ⟨rfl, e1, e2, e3⟩⟩
            · exact ⟨1, .inr (.inl ⟨rfl, e1, e3, e2⟩)⟩
            · exact ⟨0, .inr (.inr ⟨rfl, .inr ⟨fun h => absurd h e2, fun h => absurd h e3⟩⟩)⟩
          · exact ⟨0, .inr (.inr ⟨rfl, .inl e1⟩)⟩
        obtain ⟨k, hk⟩ := he
        exact ⟨k, .inr ⟨h, T, hT, .inr (.inr ⟨not_lt.1 h3, not_lt.1 h5, hk⟩)⟩⟩
  · exact ⟨0, .inl ⟨h, rfl⟩⟩

/-! ## A run -/

theorem wTemperature : LevelByLevel (wEnv 91 108 170 186).temperature (fun _ _ t _ _ => t) := by
  intro rows x y
  rfl

/-- C157 on a run over two profiles near the equator: all casts with data are used for the second one. -/
example : ∃ file : MapFile ℝ, finalFs (wRun (wEnv 91 108 170 186) [wLost, wFloat 105] [1, 2]).args (fun _ => none) "out" = some (.whole file) ∧
    ∃ (index kept deep : List ℕ) (here : FloatPos) (there : List FloatPos), kept = keptNumbers (some 1250) index (wSix 91 ++ wTwo 108) ∧
      Surroundings (wEnv 91 108 170 186) (wFloat 105) 5 105 (wSix 91 ++ wTwo 108) index kept deep here there ∧ here.lat = 5 := by
  have hrun := world_runs 91 108 108 105 170 186 10 world_open [wLost, wFloat 105] [1, 2] rfl (by simp) (by simp) (fun _ => none) rfl
  have hsur : surrounding (wEnv 91 108 170 186) 105 5 = wSix 91 ++ wTwo 108 := by
    unfold surrounding
    rw [world_open.boxes]
    exact world_open.casts
  have hcfg : ProperConfig wConfig := by constructor <;> norm_num [wConfig]
  obtain ⟨file, h1, -, h3⟩ := saved_value_front (wRun (wEnv 91 108 170 186) [wLost, wFloat 105] [1, 2]) (fun _ => none) grid2_isInterp2d scan_isInterp _ wTemperature
    (wEnv_topo _ _ _ _) (wDisk_wellFormed _ _ _ _) isArgsort_stable (wEnv_rand _ _ _ _) hcfg (by change 1 ≤ 100; norm_num) (by simp [wRun]) rfl rfl hrun
  refine ⟨file, by rw [h1]; exact Function.update_self .., ?_⟩
  obtain ⟨index, all, sel, kept, deep, here, there, e1, e2, e3, -, e5, -⟩ := h3 1 (wFloat 105) 5 105 rfl (wFloat_placed _) rfl rfl (by norm_num) (by norm_num) rfl rfl
    (by
      rw [show (wRun (wEnv 91 108 170 186) [wLost, wFloat 105] [1, 2]).env = wEnv 91 108 170 186 from rfl, hsur]
      intro c hc y x hy hx
      simp only [wSix, wTwo, List.cons_append, List.nil_append, List.mem_cons, List.not_mem_nil, or_false] at hc
      rcases hc with rfl | rfl | rfl | rfl | rfl | rfl | rfl | rfl <;>
        (obtain rfl := Option.some.inj hy
         obtain rfl := Option.some.inj hx
         norm_num))
  rw [show (wRun (wEnv 91 108 170 186) [wLost, wFloat 105] [1, 2]).env = wEnv 91 108 170 186 from rfl, hsur] at *
  rw [show (wEnv 91 108 170 186).cfg.pDelta = 250 from rfl, wLimit] at e1
  have hoff := e2.off (fun h => absurd h.1 (by change ¬ (0 : ℤ) = 1; norm_num))
  refine ⟨index, kept, deep, here, there, ?_, e5, e5.float.1⟩
  rw [← e1]
  refine List.map_injective_iff.2 (Option.some_injective _) (e3.trans ?_)
  rw [hoff]
  apply List.ext_getElem
  · simp
  · intro i i1 i2
    simp

/-! ## South of 30 degrees South -/

/-- A cast with four levels. -/
noncomputable def qCast (x y a b c d : ℝ) : RefCast ℝ :=
  ⟨some y, some x, "20100615120000".toList, [], [some 100, some 250, some 400, some 900], [some 34, some 34, some 34, some 34], [some a, some b, some c, some d]⟩

theorem qUsable (x y a b c d : ℝ) : usableLevels (some 1250) (qCast x y a b c d) =
    [(some 100, some a, some 34), (some 250, some b, some 34), (some 400, some c, some 34), (some 900, some d, some 34)] := by
  unfold usableLevels
  change List.filter _ (levelsOf (qCast x y a b c d)) = levelsOf (qCast x y a b c d)
  rw [List.filter_eq_self]
  intro l hl
  simp only [levelsOf, qCast, List.zip_cons_cons, List.zip_nil_left, List.mem_cons, List.not_mem_nil, or_false] at hl
  simp only [decide_eq_true_eq]
  rcases hl with rfl | rfl | rfl | rfl
  · exact ⟨100, rfl, fun m hm => by rw [← Option.some.inj hm]; norm_num⟩
  · exact ⟨250, rfl, fun m hm => by rw [← Option.some.inj hm]; norm_num⟩
  · exact ⟨400, rfl, fun m hm => by rw [← Option.some.inj hm]; norm_num⟩
  · exact ⟨900, rfl, fun m hm => by rw [← Option.some.inj hm]; norm_num⟩

/-- Six warm casts and a cold one in between. -/
noncomputable def qCasts : List (RefCast ℝ) :=
  [qCast 20 (-50) 10 9 7 5, qCast 21 (-50) 10 9 7 5, qCast 22 (-50) 4 3 1 0, qCast 23 (-50) 10 9 7 5, qCast 24 (-50) 10 9 7 5, qCast 25 (-50) 10 9 7 5,
    qCast 26 (-50) 10 9 7 5]

noncomputable def qFloat : SafFloat ℝ := ⟨-52, [(some 10, some 12, some 34), (some 200, some 8, none), (some 500, some 6, some 35)]⟩

/-- A float in warm water uses the six warm casts and not the cold one, however longitudes are written. -/
example (E : Env) (hE : E.useSaf = 1) (sel : List ℕ) (place : ℝ → ℝ)
    (h : SideRule E (fun _ _ t _ _ => t) qFloat (some 1250) 4 qCasts [0, 1, 2, 3, 4, 5, 6] sel place) : sel = [0, 1, 3, 4, 5, 6] := by
  have hlook : ∀ x y a b c d, warmLevels (fun _ _ t => t) (lookedAt (some 1250) 4 (qCast x y a b c d)) = [(100, a), (250, b), (400, c)] := by
    intro x y a b c d
    unfold lookedAt
    rw [qUsable, if_neg (by simp)]
    rfl
  have hwarm : SideIs [((100 : ℝ), (10 : ℝ)), (250, 9), (400, 7)] 1 :=
    .inl ⟨⟨by simp, ⟨(100, 10), by simp, by norm_num⟩, (400, 7), by simp, by norm_num⟩, 25 / 3,
      ⟨250, 9, 400, 7, ⟨[(100, 10)], [], rfl⟩, by norm_num, by norm_num, by norm_num [lineAt]⟩, by norm_num [sideOf]⟩
  have hcold : SideIs [((100 : ℝ), (4 : ℝ)), (250, 3), (400, 1)] (-1) :=
    .inl ⟨⟨by simp, ⟨(100, 4), by simp, by norm_num⟩, (400, 1), by simp, by norm_num⟩, 7 / 3,
      ⟨250, 3, 400, 1, ⟨[(100, 4)], [], rfl⟩, by norm_num, by norm_num, by norm_num [lineAt]⟩, by norm_num [sideOf]⟩
  have hfl : floatProfile qFloat = [(10, 12), (200, 8), (500, 6)] := rfl
  have := h.decided hE (by norm_num [qFloat]) (by rw [hfl]; norm_num [Ascending]) 1 (by norm_num)
    (.inr ⟨by rw [hfl]; exact ⟨by simp, ⟨(10, 12), by simp, by norm_num⟩, (500, 6), by simp, by norm_num⟩, 22 / 3,
      by rw [hfl]; exact ⟨200, 8, 500, 6, ⟨[(10, 12)], [], rfl⟩, by norm_num, by norm_num, by norm_num [lineAt]⟩, .inl ⟨by norm_num, rfl⟩⟩)
    (by
      intro n hn c hc
      have : ∃ x a b d e, c = qCast x (-50) a b d e := by
        simp only [List.mem_cons, List.not_mem_nil, or_false] at hn
        rcases hn with rfl | rfl | rfl | rfl | rfl | rfl | rfl <;> exact ⟨_, _, _, _, _, (Option.some.inj hc).symm⟩
      obtain ⟨x, a, b, d, e, rfl⟩ := this
      rw [qUsable]
      change List.Pairwise (· < ·) [(100 : ℝ), 250, 400, 900]
      norm_num)
    (fun j => if j = 2 then -1 else 1)
    (by
      intro j n c y x hj hc hy hx
      have hjl : j < 7 := by simpa using (List.getElem?_eq_some_iff.1 hj).1
      rcases (show j = 0 ∨ j = 1 ∨ j = 2 ∨ j = 3 ∨ j = 4 ∨ j = 5 ∨ j = 6 by omega) with rfl | rfl | rfl | rfl | rfl | rfl | rfl <;>
        (obtain rfl := Option.some.inj hj
         obtain rfl := Option.some.inj hc
         rw [hlook]
         first | exact hwarm | exact hcold))
  have hown : ((List.range [0, 1, 2, 3, 4, 5, 6].length).filter fun j => decide ((if j = 2 then (-1 : ℤ) else 1) = 1)) = [0, 1, 3, 4, 5, 6] := by decide
  rw [hown] at this
  exact this.1 (by simp)

end Verif.Props
