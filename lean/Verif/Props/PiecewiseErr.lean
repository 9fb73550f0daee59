import Verif.Props.PiecewiseCoef

/-! # The exceptions of a calibration with prescribed break points (C105) -/

set_option linter.unusedSectionVars false

namespace Verif.Props

open Verif.Np Verif.Spec Verif.FitCond Verif.Piecewise
open Verif.Stats (Coord)

/-- The checks fail with `e` if they fail with `e` for one segment and for no segment with another exception. -/
theorem calibrate_check_error (E : Env) (S : Settings) (data : List Column) (coords : Option (List Coord)) (hb : S.breaks ≠ []) (e : PyErr)
    (hall : ∀ i < (segments S).length, checkBreaksOf (checkMaxBreaks (segments S).length S.maxBreaks).1 S.breaks i = .error e ∨
      ∃ b, checkBreaksOf (checkMaxBreaks (segments S).length S.maxBreaks).1 S.breaks i = .ok b)
    (hone : ∃ i < (segments S).length, checkBreaksOf (checkMaxBreaks (segments S).length S.maxBreaks).1 S.breaks i = .error e) :
    calibrate E S data coords = .error e := by
  have hm : (List.range (segments S).length).mapM (checkBreaksOf (checkMaxBreaks (segments S).length S.maxBreaks).1 S.breaks) = .error e :=
    Verif.FitCond.mapM_error _ e _ (fun i hi => hall i (List.mem_range.1 hi)) (by
      obtain ⟨i, hi, h⟩ := hone
      exact ⟨i, List.mem_range.2 hi, h⟩)
  rw [calibrate_eq]
  unfold checkBreaks
  rw [if_pos (List.length_pos_iff.2 hb), hm]
  rfl

/-- C105. If rows of break points are missing, the call ends with an `IndexError`. -/
theorem missing_breaks_fail (E : Env) (S : Settings) (data : List Column) (coords : Option (List Coord)) (hb : S.breaks ≠ []) (k : ℕ → ℤ)
    (hk : (∃ c, S.maxBreaks = [[c]] ∧ ∀ i, k i = c) ∨ S.maxBreaks = (List.range (segmentValues S).card).map fun i => [k i])
    (hlt : S.breaks.length < (segmentValues S).card) : calibrate E S data coords = .error .indexError := by
  rw [← segments_card] at hk hlt
  have hmb : ∀ i < (segments S).length, (checkMaxBreaks (segments S).length S.maxBreaks).1[i]? = some [k i] := by
    rcases hk with ⟨c, hc, hkc⟩ | hc
    · rw [hc]
      unfold checkMaxBreaks
      split_ifs with h1
      · intro i hi
        show (List.replicate _ _)[i]? = _
        rw [List.getElem?_replicate, if_pos hi, hkc]
      · intro i hi
        rw [show i = 0 by omega, hkc]; rfl
    · rw [hc]
      unfold checkMaxBreaks
      split_ifs with h1
      · split
        · next row hr =>
          have := congrArg List.length hr
          simp at this
          omega
        · intro i hi
          simp [List.getElem?_range hi]
      · intro i hi
        simp [List.getElem?_range hi]
  refine calibrate_check_error E S data coords hb _ ?_ ⟨S.breaks.length, hlt, ?_⟩
  · intro i hi
    rcases lt_or_ge i S.breaks.length with h1 | h1
    · exact .inr ⟨_, checkBreaksOf_ok _ _ i _ _ (List.getElem?_eq_getElem h1) (hmb i hi)⟩
    · left
      unfold checkBreaksOf
      rw [List.getElem?_eq_none h1]
  · unfold checkBreaksOf
    rw [List.getElem?_eq_none (le_refl _)]

/-- C105. If break points are prescribed for all segments and the limits are stored as one row of two or more numbers, the call ends with a `ValueError`. -/
theorem row_limits_fail (E : Env) (S : Settings) (data : List Column) (coords : Option (List Coord)) (k k' : ℤ) (rest : List ℤ)
    (hm : S.maxBreaks = [k :: k' :: rest]) (hpos : 0 < (segmentValues S).card) (hge : (segmentValues S).card ≤ S.breaks.length) :
    calibrate E S data coords = .error .valueError := by
  rw [← segments_card] at hpos hge
  have hmb : ∀ i < (segments S).length, (checkMaxBreaks (segments S).length S.maxBreaks).1[i]? = some (k :: k' :: rest) := by
    rw [hm]
    unfold checkMaxBreaks
    split_ifs with h1
    · intro i hi
      show (List.replicate _ _)[i]? = _
      rw [List.getElem?_replicate, if_pos hi]
    · intro i hi
      rw [show i = 0 by omega]; rfl
  have key : ∀ i < (segments S).length, checkBreaksOf (checkMaxBreaks (segments S).length S.maxBreaks).1 S.breaks i = .error .valueError := by
    intro i hi
    unfold checkBreaksOf
    rw [List.getElem?_eq_getElem (show i < S.breaks.length by omega)]
    dsimp only
    rw [hmb i hi]
  exact calibrate_check_error E S data coords (by rintro h0; rw [h0, List.length_nil] at hge; omega) _ (fun i hi => .inl (key i hi)) ⟨0, hpos, key 0 hpos⟩

/-- Two segments: one row of break points, and two with the limits in a row. -/
example (E : Env) (data : List Column) (coords : Option (List Coord)) (t : ℝ) :
    calibrate E { calSettings with breaks := [[some t]], maxBreaks := [[1]] } data coords = .error .indexError ∧
    calibrate E { calSettings with breaks := [[some t], [some t]], maxBreaks := [[1, 1]] } data coords = .error .valueError := by
  have hc : ∀ (b : List (List (Option ℝ))) (m : List (List ℤ)), (segmentValues { calSettings with breaks := b, maxBreaks := m }).card = 2 := by
    intro b m
    have : segmentValues { calSettings with breaks := b, maxBreaks := m } = {1, 2} := by
      ext v
      simp [segmentValues, calSettings]
      constructor
      · tauto
      · rintro (rfl | rfl) <;> norm_num
    rw [this]
    rw [Finset.card_pair]
    norm_num
  exact ⟨missing_breaks_fail E _ data coords (by simp) (fun _ => 1) (.inl ⟨1, rfl, fun _ => rfl⟩) (by rw [hc]; simp),
    row_limits_fail E _ data coords 1 1 [] rfl (by rw [hc]; norm_num) (by rw [hc]; simp)⟩

end Verif.Props
