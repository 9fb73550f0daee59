import Verif.Lemmas.Limits
import Verif.Props.Analysis

/-!
# C134: the limits in the calseries file
-/

set_option linter.unusedSectionVars false

namespace Verif.Props

open Verif.Np Verif.Spec Verif.Thetas Verif.Calseries Verif.Piecewise Verif.Analysis Verif.Lemmas

theorem limitOf_stored {file : List (List ℝ)} {a : Option ℝ} (h : limitOf file = some a) : StoredLimit file a := by
  unfold limitOf at h
  split at h
  · obtain rfl := Option.some.inj h
    rfl
  · obtain rfl := Option.some.inj h
    rfl
  · cases h

theorem stored_unique {file : List (List ℝ)} {a b : Option ℝ} (ha : StoredLimit file a) (hb : StoredLimit file b) : a = b := by
  cases a with
  | none =>
    cases b with
    | none => rfl
    | some y => simp [StoredLimit] at ha hb; simp [ha] at hb
  | some x =>
    cases b with
    | none => simp [StoredLimit] at ha hb; simp [hb] at ha
    | some y => simp [StoredLimit] at ha hb; simp [ha] at hb; rw [hb]

/-- The settings read from a calseries file. -/
theorem settingsOf_bounds {f : CalFile ℝ} {S : Settings} (h : settingsOf f = some S) :
    StoredLimit f.thetaLt S.bounds.thetaLt ∧ StoredLimit f.thetaGt S.bounds.thetaGt ∧ StoredLimit f.presLt S.bounds.presLt ∧
      StoredLimit f.presGt S.bounds.presGt := by
  unfold settingsOf at h
  split at h
  · rename_i h1 h2 h3 h4 _
    obtain rfl := Option.some.inj h
    exact ⟨limitOf_stored h1, limitOf_stored h2, limitOf_stored h3, limitOf_stored h4⟩
  · cases h

theorem counts_usable {f : CalFile ℝ} {S : Settings} (h : settingsOf f = some S) (x : Cell) : Usable S.bounds (toLevel x) ↔ CountsFor f x := by
  obtain ⟨h1, h2, h3, h4⟩ := settingsOf_bounds h
  have key : ∀ {lt gt : List (List ℝ)} {a b : Option ℝ} (v : ℝ), StoredLimit lt a → StoredLimit gt b → (Allowed a b v ↔ AllowedBy lt gt v) := by
    intro lt gt a b v ha hb
    refine ⟨fun hv => ⟨a, b, ha, hb, hv⟩, ?_⟩
    rintro ⟨a', b', ha', hb', hv⟩
    obtain rfl := stored_unique ha ha'
    obtain rfl := stored_unique hb hb'
    exact hv
  unfold Usable CountsFor toLevel
  simp only [key _ h1 h2, key _ h3 h4]

/-- C134. Levels that are not mapped or outside the limits in the calseries file have no influence on the fit: if they are changed, in any way that does not make them
count, or if such levels are added or removed at the end of profiles, the calibration raises the same exception or saves the same factors, errors, derivatives, means, scatters, coefficients and break points. -/
theorem only_levels_within_limits_count (E : Env) (f : CalFile ℝ) (S : Settings) (hS : settingsOf f = some S) (data data' : List Column)
    (h : SameWhereCounted f data data') (coords : Option (List Verif.Stats.Coord)) :
    (calibrate E S data coords).map fitSaved = (calibrate E S data' coords).map fitSaved := by
  refine calibrate_alike E S data data' ?_ coords
  obtain ⟨hno, hcells⟩ := h
  rw [List.forall₂_iff_get]
  refine ⟨by simpa using congrArg List.length hno, fun i h1 h2 => ?_⟩
  have hx := hcells i _ _ (List.getElem?_eq_getElem h1) (List.getElem?_eq_getElem h2)
  refine ⟨?_, ?_⟩
  · have := congrArg (fun l : List ℝ => l[i]?) hno
    simp only [List.getElem?_map, List.getElem?_eq_getElem h1, List.getElem?_eq_getElem h2, Option.map_some, Option.some.injEq] at this
    exact this
  · intro n x hu
    exact hx n x ((counts_usable hS x).1 hu)

/-- A calseries file with an upper limit of temperature and a lower limit of pressure. -/
noncomputable def limitFile : CalFile ℝ :=
  ⟨[], [[4]], [[1, 1]], [[1, 2]], [[20]], [], [], [[5]], some [[1 / 2]]⟩

/-- Two levels that count, one too warm, one not deep enough, and one empty. -/
noncomputable def limitColumn (no warm : ℝ) (shallow : Option ℝ) : Column :=
  ⟨no, [⟨some 35, some 1, some 1000, some 1, some (36, 1)⟩, ⟨some 35, some 10, some 500, some 10, some (36, 1)⟩,
    ⟨some warm, some 25, some 100, some 25, some (36, 1)⟩, ⟨shallow, some 15, some 4, some 15, some (36, 1)⟩, ⟨none, none, none, none, none⟩]⟩

/-- The same two levels only. -/
noncomputable def shortColumn (no : ℝ) : Column :=
  ⟨no, [⟨some 35, some 1, some 1000, some 1, some (36, 1)⟩, ⟨some 35, some 10, some 500, some 10, some (36, 1)⟩]⟩

/-- The hypotheses of C134 hold for two different sets of data, with profiles of different lengths. -/
example : ∃ S, settingsOf limitFile = some S ∧ SameWhereCounted limitFile [limitColumn 1 35 (some 35), limitColumn 2 35 none] [limitColumn 1 70 none, shortColumn 2] ∧
    [limitColumn 1 35 (some 35), limitColumn 2 35 none] ≠ [limitColumn 1 70 none, shortColumn 2] ∧
    CountsFor limitFile ⟨some 35, some 1, some 1000, some 1, some (36, 1)⟩ := by
  have ha : ∀ t, AllowedBy limitFile.thetaLt limitFile.thetaGt t ↔ t ≤ 20 := by
    intro t
    refine ⟨?_, fun h => ⟨some 20, none, rfl, rfl, h⟩⟩
    rintro ⟨a, b, h1, h2, h3⟩
    obtain rfl := stored_unique (show StoredLimit limitFile.thetaLt (some 20) from rfl) h1
    obtain rfl := stored_unique (show StoredLimit limitFile.thetaGt none from rfl) h2
    exact h3
  have hp : ∀ t, AllowedBy limitFile.presLt limitFile.presGt t ↔ 5 ≤ t := by
    intro t
    refine ⟨?_, fun h => ⟨none, some 5, rfl, rfl, h⟩⟩
    rintro ⟨a, b, h1, h2, h3⟩
    obtain rfl := stored_unique (show StoredLimit limitFile.presLt none from rfl) h1
    obtain rfl := stored_unique (show StoredLimit limitFile.presGt (some 5) from rfl) h2
    exact h3
  have key : ∀ (no w : ℝ) (s : Option ℝ) (n : ℕ) (x : Cell), CountsFor limitFile x → ((limitColumn no w s).cells[n]? = some x ↔ (shortColumn no).cells[n]? = some x) := by
    intro no w s n x hc
    match n with
    | 0 => exact Iff.rfl
    | 1 => exact Iff.rfl
    | 2 =>
      refine ⟨fun hx => ?_, fun hx => by simp [shortColumn] at hx⟩
      obtain rfl := Option.some.inj hx
      have := (ha _).1 (hc.2.1 25 rfl)
      norm_num at this
    | 3 =>
      refine ⟨fun hx => ?_, fun hx => by simp [shortColumn] at hx⟩
      obtain rfl := Option.some.inj hx
      have := (hp _).1 (hc.2.2 4 rfl)
      norm_num at this
    | 4 =>
      refine ⟨fun hx => ?_, fun hx => by simp [shortColumn] at hx⟩
      obtain rfl := Option.some.inj hx
      exact absurd rfl hc.1
    | n + 5 => simp [limitColumn, shortColumn]
  refine ⟨_, rfl, ⟨rfl, fun i c c' hi hi' => ?_⟩, by simp [limitColumn], ⟨by simp, fun t ht => ?_, fun t ht => ?_⟩⟩
  · match i with
    | 0 =>
      obtain rfl := Option.some.inj hi
      obtain rfl := Option.some.inj hi'
      exact fun n x hc => (key 1 _ _ n x hc).trans (key 1 _ _ n x hc).symm
    | 1 =>
      obtain rfl := Option.some.inj hi
      obtain rfl := Option.some.inj hi'
      exact key 2 _ _
    | i + 2 => simp at hi
  · obtain rfl := Option.some.inj ht
    rw [ha]; norm_num
  · obtain rfl := Option.some.inj ht
    rw [hp]; norm_num

end Verif.Props
