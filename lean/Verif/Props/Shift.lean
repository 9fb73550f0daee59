import Verif.Spec.Shift
import Verif.Lemmas.ShiftRun
import Verif.Props.ProfileExamples

/-!
# C153, C154: only differences of dates matter, and depths matter only to the potential vorticity
-/

set_option linter.unusedSectionVars false

namespace Verif.Props

open Verif.Np Verif.Helper Verif.Region Verif.Profile Verif.Update Verif.Spec Verif.Spec.Profile Verif.Level Verif.Saf Verif.Utilities Verif.Lemmas.Shift

/-- Both at once. -/
theorem mapping_moved (R : FloatRun) (T : ℝ) (m : List Char → List Char) (topo : List ℤ) (interp2 : List ℝ → List ℝ → List (List ℤ) → ℝ → ℝ → ℝ)
    (hm : MovedBy T m R.env.disk) (hs : SameSea R.env (moveEnv R.env m topo interp2)) (fs : Fs ℝ) :
    updateMapping { R with env := moveEnv R.env m topo interp2, source := R.source.map (moveProfile T) }.args fs = updateMapping R.args fs := by
  refine updateMapping_moved T R.env.cfg.usePv R.args _ (fun i => ?_) fs
  change ExRel _ (profilesOf R.env R.source i) (profilesOf (moveEnv R.env m topo interp2) (R.source.map (moveProfile T)) i)
  unfold profilesOf item
  rcases lt_or_ge i R.source.length with hi | hi
  · rw [List.getElem?_eq_getElem hi, List.getElem?_eq_getElem (by simpa using hi), List.getElem_map]
    exact profileOf_rel T R.env m topo interp2 hm hs _
  · rw [List.getElem?_eq_none hi, List.getElem?_eq_none (by simpa using hi)]
    rfl

/-- C153. Only differences of dates matter to the mapping: if the dates of all reference casts and of all profiles are moved by the same time, every run does the same (same
exceptions, same states of the directory, same saved numbers). -/
theorem mapping_dates_relative (R : FloatRun) (T : ℝ) (m : List Char → List Char) (hm : MovedBy T m R.env.disk) (fs : Fs ℝ) :
    updateMapping (R.redated T m).args fs = updateMapping R.args fs :=
  mapping_moved R T m R.env.topo R.env.interp2 hm (.inl ⟨rfl, rfl⟩) fs

/-- C153, when dates are moved: a readable date with another year of four digits is decoded as the date moved by the difference of the years, leap years or not. -/
theorem moved_year (y y' r : List Char) (hy : y.length = 4) (hy' : y'.length = 4) (v v' : ℤ) (h : pyInt y = .ok v) (h' : pyInt y' = .ok v') (t : ℝ)
    (hd : decodeDate (y ++ r) = .ok (some t)) : decodeDate (y' ++ r) = .ok (some (t + (v' - v : ℤ))) := by
  have e0 : ∀ z : List Char, z.length = 4 → pySlice (z ++ r) 0 4 = z := by
    intro z hz
    unfold pySlice
    rw [List.drop_zero, List.take_append_of_le_length (by omega), List.take_of_length_le (by omega)]
  have e1 : ∀ z : List Char, z.length = 4 → ∀ a b : ℕ, pySlice (z ++ r) (4 + a) b = (r.drop a).take (b - (4 + a)) := by
    intro z hz a b
    unfold pySlice
    rw [← hz, List.drop_append, List.drop_eq_nil_of_le (by omega)]
    simp
  have hl : ∀ z : List Char, z.length = 4 → (z ++ r).length = 4 + r.length := by intro z hz; rw [List.length_append, hz]
  unfold decodeDate at hd ⊢
  rw [e0 y hy, hl y hy, e1 y hy 0, e1 y hy 2, e1 y hy 4, e1 y hy 6, h] at hd
  rw [e0 y' hy', hl y' hy', e1 y' hy' 0, e1 y' hy' 2, e1 y' hy' 4, e1 y' hy' 6, h']
  simp only [bind, Except.bind] at hd ⊢
  cases h1 : pyInt (List.take (6 - (4 + 0)) (List.drop 0 r)) with
  | error e => rw [h1] at hd; simp at hd
  | ok mo =>
    rw [h1] at hd
    dsimp only at hd ⊢
    cases h2 : pyInt (List.take (8 - (4 + 2)) (List.drop 2 r)) with
    | error e => rw [h2] at hd; simp at hd
    | ok da =>
      rw [h2] at hd
      dsimp only at hd ⊢
      revert hd
      generalize (if 4 + r.length > 9 then pyInt (List.take (10 - (4 + 4)) (List.drop 4 r)) else pure 0) = ho
      generalize (if 4 + r.length > 11 then pyInt (List.take (12 - (4 + 6)) (List.drop 6 r)) else pure 0) = mi
      intro hd
      cases ho with
      | error e => simp at hd
      | ok ho =>
        cases mi with
        | error e => simp at hd
        | ok mi =>
          dsimp only at hd ⊢
          by_cases hc : 13 > mo ∧ mo > 0 ∧ 32 > da ∧ da > 0
          · rw [if_pos hc] at hd ⊢
            cases h3 : (cal2dec (mo - 1) da ho mi : Except PyErr ℝ) with
            | error e => rw [h3] at hd; simp at hd
            | ok d =>
              rw [h3] at hd
              simp only [pure, Except.pure, Except.ok.injEq, Option.some.injEq] at hd ⊢
              rw [← hd]
              push_cast
              ring
          · rw [if_neg hc] at hd
            simp [pure, Except.pure] at hd

/-- C154. Depths matter to the mapping through the potential vorticity only: if MAP_USE_PV is not 1, every run does the same (same exceptions, same states of the directory,
same saved numbers) with another topography file of the same size and with another interpolation in it. -/
theorem mapping_ignores_depths (R : FloatRun) (topo : List ℤ) (interp2 : List ℝ → List ℝ → List (List ℤ) → ℝ → ℝ → ℝ) (hp : R.env.cfg.usePv ≠ 1)
    (hl : topo.length = R.env.topo.length) (fs : Fs ℝ) : updateMapping (R.onSeaFloor topo interp2).args fs = updateMapping R.args fs := by
  have hd : redateDisk id R.env.disk = R.env.disk := by
    funext t n
    unfold redateDisk
    cases R.env.disk t n with
    | none => rfl
    | some F =>
      have : F.casts.map (redate id) = F.casts := by
        conv_rhs => rw [← List.map_id F.casts]
        exact List.map_congr_left fun c _ => rfl
      simp [this]
  have hm : MovedBy 0 id R.env.disk := fun _ _ _ _ c _ => by rw [add_zero]; rfl
  have hr : R.source.map (moveProfile 0) = R.source := by
    conv_rhs => rw [← List.map_id R.source]
    exact List.map_congr_left fun f _ => by simp [moveProfile]
  have h := mapping_moved R 0 id topo interp2 hm (.inr ⟨hp, hl.symm⟩) fs
  rw [hr] at h
  unfold moveEnv at h
  rw [hd] at h
  exact h

/-- The same texts one year later. -/
def nextYear (s : List Char) : List Char := "2011".toList ++ s.drop 4

theorem readable_date : ∃ t : ℝ, decodeDate ("2010".toList ++ "0615120000".toList) = .ok (some t) := by
  unfold decodeDate
  rw [show pyInt (pySlice ("2010".toList ++ "0615120000".toList) 0 4) = .ok 2010 by decide +kernel,
    show pyInt (pySlice ("2010".toList ++ "0615120000".toList) 4 6) = .ok 6 by decide +kernel,
    show pyInt (pySlice ("2010".toList ++ "0615120000".toList) 6 8) = .ok 15 by decide +kernel,
    show pyInt (pySlice ("2010".toList ++ "0615120000".toList) 8 10) = .ok 12 by decide +kernel,
    show pyInt (pySlice ("2010".toList ++ "0615120000".toList) 10 12) = .ok 0 by decide +kernel,
    show ("2010".toList ++ "0615120000".toList).length = 14 by decide +kernel]
  have hc : ∃ d : ℝ, cal2dec (6 - 1) 15 12 0 = Except.ok d := by
    unfold cal2dec
    rw [show pyIndex cumulativeMonths (6 - 1) = .ok 151 by decide +kernel]
    dsimp only
    rw [if_neg (by norm_num)]
    exact ⟨_, rfl⟩
  obtain ⟨d, hd⟩ := hc
  replace hd : cal2dec 5 15 12 0 = Except.ok d := hd
  simp [bind, Except.bind, pure, Except.pure, hd]

theorem wDisk_moved (x0 e : ℝ) (n0 n1 : ℤ) : MovedBy 1 nextYear (wDisk x0 e n0 n1) := by
  have key : ∀ x y s : ℝ, decimalDate (redate nextYear (wCast x y s)) = decimalDate (wCast x y s) + 1 := by
    intro x y s
    obtain ⟨t, ht⟩ := readable_date
    have h := moved_year "2010".toList "2011".toList "0615120000".toList rfl rfl 2010 2011 (by decide +kernel) (by decide +kernel) t ht
    rw [decimalDate_eq, decimalDate_eq]
    change dateValue ("2011".toList ++ "0615120000".toList) = dateValue ("2010".toList ++ "0615120000".toList) + 1
    unfold dateValue
    rw [h, ht]
    norm_num
  intro t n F h c hc
  unfold wDisk at h
  split_ifs at h
  · obtain rfl := Option.some.inj h
    simp only [wSix, List.mem_cons, List.not_mem_nil, or_false] at hc
    rcases hc with rfl | rfl | rfl | rfl | rfl | rfl <;> exact key _ _ _
  · obtain rfl := Option.some.inj h
    simp only [wTwo, List.mem_cons, List.not_mem_nil, or_false] at hc
    rcases hc with rfl | rfl <;> exact key _ _ _

/-- A run that saves its numbers, with all dates one year later. -/
example : (updateMapping ((wRun (wEnv 91 108 170 186) [wLost, wFloat 105] [1, 2]).redated 1 nextYear).args (fun _ => none)).1 = none := by
  rw [mapping_dates_relative _ 1 nextYear (wDisk_moved 91 108 170 186)]
  exact world_runs 91 108 108 105 170 186 10 world_open [wLost, wFloat 105] [1, 2] rfl (by simp) (by simp) (fun _ => none) rfl

/-- A run that saves its numbers, in a sea that is 7 m deep everywhere. -/
example : (updateMapping ((wRun (wEnv 91 108 170 186) [wLost, wFloat 105] [1, 2]).onSeaFloor (List.replicate (2160 * 4320) (-7)) fun _ _ _ _ _ => 7).args (fun _ => none)).1 = none := by
  rw [mapping_ignores_depths (wRun (wEnv 91 108 170 186) [wLost, wFloat 105] [1, 2]) _ _ (by simp [wRun, wEnv, wConfig])
    (by rw [List.length_replicate]; exact (wEnv_topo 91 108 170 186).symm)]
  exact world_runs 91 108 108 105 170 186 10 world_open [wLost, wFloat 105] [1, 2] rfl (by simp) (by simp) (fun _ => none) rfl

end Verif.Props
