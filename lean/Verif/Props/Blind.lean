import Verif.Spec.Blind
import Verif.Props.ProfileExamples
import Verif.Props.SafExamples

/-!
# C150: the mapping does not look at the salinities that are to be tested
-/

set_option linter.unusedSectionVars false

namespace Verif.Props

open Verif.Np Verif.Helper Verif.Region Verif.Profile Verif.Update Verif.Spec Verif.Spec.Profile Verif.Level Verif.Saf Verif.Spec.Saf

/-- Presence of a salinity at a level. -/
theorem sameSal_cases {a b : List (Option ℝ)} (hl : a.length = b.length) (hm : ∀ n : ℕ, a[n]? = some none ↔ b[n]? = some none) (n : ℕ) :
    (a[n]? = none ∧ b[n]? = none) ∨ (a[n]? = some none ∧ b[n]? = some none) ∨ ∃ x y, a[n]? = some (some x) ∧ b[n]? = some (some y) := by
  have h := hm n
  rcases lt_or_ge n a.length with hn | hn
  · have hn' : n < b.length := hl ▸ hn
    rw [List.getElem?_eq_getElem hn, List.getElem?_eq_getElem hn'] at h ⊢
    cases ha : a[n] with
    | none => rw [ha] at h; exact .inr (.inl ⟨rfl, h.1 rfl⟩)
    | some x =>
      cases hb : b[n] with
      | none => rw [ha, hb] at h; exact absurd (h.2 rfl) (by simp)
      | some y => exact .inr (.inr ⟨x, y, rfl, rfl⟩)
  · exact .inl ⟨List.getElem?_eq_none hn, List.getElem?_eq_none (hl ▸ hn)⟩

theorem mapLevel_blind (c : MapConfig) (p : FloatPos) (g : GridData ℝ) (a b pres : List (Option ℝ)) (S P : List (List (Option ℝ))) (n : ℕ)
    (hl : a.length = b.length) (hm : ∀ n : ℕ, a[n]? = some none ↔ b[n]? = some none) : mapLevel c p g a pres S P n = mapLevel c p g b pres S P n := by
  unfold mapLevel item
  rcases sameSal_cases hl hm n with ⟨h1, h2⟩ | ⟨h1, h2⟩ | ⟨x, y, h1, h2⟩ <;> rw [h1, h2] <;>
    simp only [bind, Except.bind]
  cases pres[n]? with
  | none => rfl
  | some p => cases p <;> rfl

theorem interpLoop_blind (sal theta pres : Interp.Grid ℝ) (l l' : List (Interp.FloatLevel ℝ)) (i : ℕ) (s : Interp.State ℝ)
    (h : List.Forall₂ (fun a b : Interp.FloatLevel ℝ => (a.sal = none ↔ b.sal = none) ∧ a.theta = b.theta ∧ a.pres = b.pres) l l') :
    Interp.loop sal theta pres i l s = Interp.loop sal theta pres i l' s := by
  induction h generalizing i s with
  | nil => rfl
  | @cons a b l l' hab _ ih =>
    obtain ⟨as, at', ap⟩ := a
    obtain ⟨bs, bt, bp⟩ := b
    obtain ⟨h1, h2, h3⟩ := hab
    dsimp only at h1 h2 h3
    subst h2 h3
    cases as with
    | none =>
      obtain rfl : bs = none := h1.1 rfl
      simp only [Interp.loop, ih]
    | some x =>
      cases bs with
      | none => exact absurd (h1.2 rfl) (by simp)
      | some y =>
        cases at' with
        | none => simp only [Interp.loop, ih]
        | some t =>
          cases ap with
          | none => simp only [Interp.loop, ih]
          | some q => simp only [Interp.loop, ih]

theorem floatLevels_blind (f f' : FloatProfile) (h : SameForMapping f f') :
    List.Forall₂ (fun a b : Interp.FloatLevel ℝ => (a.sal = none ↔ b.sal = none) ∧ a.theta = b.theta ∧ a.pres = b.pres) (floatLevels f) (floatLevels f') := by
  unfold floatLevels
  rw [h.ptmp, h.pres, List.forall₂_iff_get]
  refine ⟨by simp [h.levels], ?_⟩
  intro i h1 h2
  simp only [List.length_map, List.length_zip] at h1 h2
  have e1 : i < f.sal.length := by omega
  have e2 : i < f'.sal.length := by omega
  have := h.measured i
  rw [List.getElem?_eq_getElem e1, List.getElem?_eq_getElem e2, Option.some.injEq, Option.some.injEq] at this
  simp only [List.get_eq_getElem, List.getElem_map, List.getElem_zip]
  exact ⟨this, trivial, trivial⟩

theorem profileOf_blind (E : Env) (f f' : FloatProfile) (h : SameForMapping f f') (hs : E.useSaf ≠ 1 ∨ ∀ y, f.lat = some y → -30 ≤ y) :
    profileOf E f = profileOf E f' := by
  unfold profileOf usable
  rw [← h.lat, ← h.long, ← h.pres]
  have hp : ∀ lat long, f.lat = some lat → prepare E f lat long = prepare E f' lat long := by
    intro lat long hlat
    unfold prepare
    have hc : ∀ z, chosenCasts E f lat long z = chosenCasts E f' lat long z := by
      intro z
      unfold chosenCasts
      rw [← h.pres, ← h.date]
      have ha : ∀ g : SafGrid ℝ, applySaf E.interp E.temperature E.saf (decide (E.useSaf = 1)) g ⟨lat, f.pres.zip (f.tmp.zip f.sal)⟩ =
          applySaf E.interp E.temperature E.saf (decide (E.useSaf = 1)) g ⟨lat, f.pres.zip (f'.tmp.zip f'.sal)⟩ := by
        intro g
        unfold applySaf
        rcases hs with hs | hs
        · rw [decide_eq_false hs]; rfl
        · have := hs lat hlat
          rw [saf_north_identity _ _ _ _ _ this, saf_north_identity _ _ _ _ _ this]
      simp only [ha]
    have hi : ∀ S T P : Interp.Grid ℝ, Interp.interpClimatology S T P (floatLevels f) = Interp.interpClimatology S T P (floatLevels f') := by
      intro S T P
      unfold Interp.interpClimatology
      simp only [interpLoop_blind _ _ _ _ _ _ _ (floatLevels_blind f f' h)]
    simp only [hc, hi, h.date, h.levels]
  have hv : ∀ p, levelOf E f p = levelOf E f' p := by
    intro p
    funext n
    unfold levelOf
    rw [mapLevel_blind E.cfg p.pos p.grid f.sal f'.sal f.pres p.interpSal p.interpPres n h.levels h.measured, h.pres, h.ptmp]
  cases hlat : f.lat with
  | none => rfl
  | some lat =>
    cases hlong : f.long with
    | none => rfl
    | some long => simp only [hp lat long hlat, hv]

/-- C150. The mapping does not look at the salinities that are to be tested, nor at the in-situ temperatures: if the front is left out of account, every run over profiles
with the same positions, dates, pressures and potential temperatures, and with salinities at the same levels, does the same (same exceptions, same states of the
directory, same saved numbers), whatever the salinities are. -/
theorem mapping_blind (R : FloatRun) (source' : List FloatProfile) (h : List.Forall₂ SameForMapping R.source source') (hs : NoFront R.env R.source) (fs : Fs ℝ) :
    updateMapping { R with source := source' }.args fs = updateMapping R.args fs := by
  have hP : profilesOf R.env source' = profilesOf R.env R.source := by
    funext i
    unfold profilesOf item
    rw [List.forall₂_iff_get] at h
    rcases lt_or_ge i R.source.length with hi | hi
    · have hi' : i < source'.length := h.1 ▸ hi
      rw [List.getElem?_eq_getElem hi, List.getElem?_eq_getElem hi']
      have := h.2 i hi hi'
      simp only [List.get_eq_getElem] at this
      simp only [bind, Except.bind]
      refine (profileOf_blind R.env _ _ this ?_).symm
      rcases hs with hs | hs
      · exact .inl hs
      · exact .inr fun y hy => hs _ (List.getElem_mem hi) y hy
    · rw [List.getElem?_eq_none hi, List.getElem?_eq_none (h.1 ▸ hi)]
  unfold FloatRun.args
  dsimp only
  rw [hP]

/-- Three levels at about 4 degrees with a given salinity. -/
def midLevels (s : ℚ) : List (Option ℚ × Option ℚ × Option ℚ) := [(some 10, some 5, some s), (some 200, some 4, some s), (some 500, some 4, some s)]

/-- C150, the exception. South of 30S the front decides by the salinities of the float, too: of two floats that differ in nothing but their salinities (34 and 36), one is
compared with all seven casts, the other one with the six casts of one side of the front. -/
theorem front_looks_at_salinities : ∃ (cs : List (SafCast ℚ)) (s : SafProfiles ℚ) (temperature : Temperature ℚ) (interp : Interp ℚ),
    IsInterp interp ∧ (∀ c ∈ cs, TemperatureOf temperature c) ∧ cs.length = 7 ∧
      (∃ h, applySaf interp temperature s true (gridOf cs) ⟨-52, midLevels 34⟩ = .ok h ∧ h.data.sal.length = 6) ∧
        ∃ h, applySaf interp temperature s true (gridOf cs) ⟨-52, midLevels 36⟩ = .ok h ∧ h.data.sal.length = 7 := by
  have key : ∀ (a : ℚ) (n : ℕ), (applySaf scan exTemperature exMidProfiles true (gridOf (exWarm :: List.replicate 6 exCold)) ⟨-52, midLevels a⟩).toOption.map
      (fun h => h.data.sal.length) = some n →
      ∃ h, applySaf scan exTemperature exMidProfiles true (gridOf (exWarm :: List.replicate 6 exCold)) ⟨-52, midLevels a⟩ = .ok h ∧ h.data.sal.length = n := by
    intro a n h
    cases hc : applySaf scan exTemperature exMidProfiles true (gridOf (exWarm :: List.replicate 6 exCold)) ⟨-52, midLevels a⟩ with
    | error e => rw [hc] at h; simp [Except.toOption] at h
    | ok v => rw [hc] at h; exact ⟨v, rfl, by simpa [Except.toOption] using h⟩
  refine ⟨exWarm :: List.replicate 6 exCold, exMidProfiles, exTemperature, scan, scan_isInterp, ?_, rfl, key 34 6 (by decide +kernel), key 36 7 (by decide +kernel)⟩
  intro c hc
  simp only [List.mem_cons, List.mem_replicate] at hc
  rcases hc with rfl | ⟨-, rfl⟩ <;> rfl

/-- The same profile with other salinities: the hypotheses of `mapping_blind` are met by a run that saves its numbers. -/
noncomputable def wSalty : FloatProfile := { wFloat 105 with sal := [some 30, some 41], tmp := [none, some 2] }

example : List.Forall₂ SameForMapping [wLost, wFloat 105] [wLost, wSalty] ∧ NoFront (wEnv 91 108 170 186) [wLost, wFloat 105] ∧
    (updateMapping (wRun (wEnv 91 108 170 186) [wLost, wSalty] [1, 2]).args (fun _ => none)).1 = none := by
  have h : List.Forall₂ SameForMapping [wLost, wFloat 105] [wLost, wSalty] := by
    refine .cons ⟨rfl, rfl, rfl, rfl, rfl, rfl, fun _ => .rfl⟩ (.cons ⟨rfl, rfl, rfl, rfl, rfl, rfl, ?_⟩ .nil)
    intro n
    rcases n with _ | _ | n <;> simp [wSalty, wFloat]
  have hs : NoFront (wEnv 91 108 170 186) [wLost, wFloat 105] := .inl (by simp [wEnv])
  refine ⟨h, hs, ?_⟩
  rw [← world_runs 91 108 108 105 170 186 10 world_open [wLost, wFloat 105] [1, 2] rfl (by simp) (by simp) (fun _ => none) rfl]
  exact congrArg Prod.fst (mapping_blind (wRun (wEnv 91 108 170 186) [wLost, wFloat 105] [1, 2]) [wLost, wSalty] h hs _)

end Verif.Props
