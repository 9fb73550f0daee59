import Verif.Props.FitMore
import Verif.Spec.FitErrors

/-!
# Lemmas: the observations counted for a profile
-/

set_option linter.unusedSectionVars false

namespace Verif.Lemmas

open Verif.Np Verif.Spec Verif.BreakFit Verif.FitCond Verif.Props Matrix

/-- Whatever the arguments, a result of `fit_cond` is built by `finish`. -/
theorem fitCore_finish {n m : ℕ} (xfit : Fin (m + 1) → ℝ) (x y err : Fin (n + 1) → ℝ) (cov : Matrix (Fin (n + 1)) (Fin (n + 1)) ℝ)
    (args : List Arg) (opt : Externals) (fit : Fit m) (hfit : fitCore xfit x y err cov args opt = .ok fit) :
    ∃ loops f, fit = finish loops opt x y (scaled x y err) cov xfit f := by
  revert hfit
  unfold fitCore
  simp only [bind, Except.bind, pure, Except.pure]
  cases parseArgs args with
  | error e => intro h; cases h
  | ok o0 =>
    simp only
    generalize ({ o0 with breaks := o0.breaks.map fun l => l.map fun v => (v - xCentre x) / xScale x } : Opts) = o
    cases maxBreaks o with
    | error e => intro h; cases h
    | ok maxIn =>
      simp only
      by_cases hpf : presetFails (scaled x y err) o maxIn
      · intro h; simp only [if_pos hpf] at h; cases h
      simp only [if_neg hpf]
      generalize (List.mapM _ _ : Except PyErr (List Fitted)) = t
      cases t with
      | error e => intro h; cases h
      | ok tried =>
        simp only
        generalize chooseModel _ _ _ _ _ = cm
        cases cm with
        | error e => intro h; cases h
        | ok f =>
          simp only
          split_ifs with hdet
          · intro h; cases h
          · cases f with
            | offset a r => intro h; exact ⟨_, _, (Except.ok.inj h).symm⟩
            | line b br co r =>
              simp only
              generalize errorLoop _ _ = el
              cases el with
              | error e => intro h; cases h
              | ok u => intro h; exact ⟨_, _, (Except.ok.inj h).symm⟩

theorem idxOf_ofFn_first {n : ℕ} (f : Fin n → ℝ) (v : ℝ) (k : Fin n) (hk : f k = v) (hmin : ∀ j < k, f j ≠ v) : (List.ofFn f).idxOf v = k.val := by
  have hlt : (List.ofFn f).idxOf v < (List.ofFn f).length := List.idxOf_lt_length_iff.2 (by rw [List.mem_ofFn]; exact ⟨k, hk⟩)
  have hget : f ⟨(List.ofFn f).idxOf v, by simpa using hlt⟩ = v := by
    have := List.getElem_idxOf hlt
    rwa [List.getElem_ofFn] at this
  rcases lt_trichotomy ((List.ofFn f).idxOf v) k.val with h | h | h
  · exact absurd hget (hmin _ h)
  · exact h
  · exfalso
    have := List.not_of_lt_findIdx (p := fun a => a == v) (xs := List.ofFn f) (i := k.val) (by exact h)
    rw [List.getElem_ofFn] at this
    simp [hk] at this

theorem exists_first {n : ℕ} (f : Fin n → ℝ) (v : ℝ) (j : Fin n) (h : f j = v) : ∃ k, f k = v ∧ ∀ i < k, f i ≠ v := by
  classical
  have hne : (Finset.univ.filter fun i => f i = v).Nonempty := ⟨j, by simp [h]⟩
  refine ⟨(Finset.univ.filter fun i => f i = v).min' hne, ?_, fun i hi hv => ?_⟩
  · have := Finset.min'_mem _ hne
    simpa using this
  · exact absurd (Finset.min'_le _ i (by simp [hv])) (not_le.2 hi)

theorem staWindow_eq {n : ℕ} (d : Scaled n) (hx : Monotone d.xf) (v : ℝ) (j0 : Fin (n + 1)) (h0 : d.xf j0 = v) : staWindow d v = stationWindow d.xf v := by
  obtain ⟨k, hk, hkmin⟩ := exists_first d.xf v j0 h0
  have hu := uniqueReal_strict (List.ofFn d.xf)
  have hmem : v ∈ uniqueReal (List.ofFn d.xf) := by rw [uniqueReal_mem, List.mem_ofFn]; exact ⟨j0, h0⟩
  have hidx : (uniqueReal (List.ofFn d.xf)).idxOf v < (uniqueReal (List.ofFn d.xf)).length := List.idxOf_lt_length_iff.2 hmem
  have hgetv := List.getElem_idxOf hidx
  rw [List.pairwise_iff_getElem] at hu
  have hbefore : ∀ j, d.xf j < v → j < k := fun j hj => by
    by_contra h
    have := hx (not_lt.1 h)
    rw [hk] at this
    linarith
  have hafter : ∀ j, j < k → d.xf j < v := fun j hj => lt_of_le_of_ne (hk ▸ hx hj.le) (hkmin j hj)
  ext j
  unfold staWindow stationWindow
  simp only [Finset.mem_filter, Finset.mem_univ, true_and]
  rw [idxOf_ofFn_first d.xf v k hk hkmin]
  split_ifs with hz
  · -- the first profile
    have hfirst : ∀ j, v ≤ d.xf j := fun j => by
      have hj : d.xf j ∈ uniqueReal (List.ofFn d.xf) := by rw [uniqueReal_mem, List.mem_ofFn]; exact ⟨j, rfl⟩
      obtain ⟨i, hi, hij⟩ := List.getElem_of_mem hj
      rw [← hij, ← hgetv]
      simp only [hz]
      rcases Nat.eq_zero_or_pos i with h | h
      · simp [h]
      · exact (hu 0 i (by omega) hi h).le
    have hk0 : k.val = 0 := by
      by_contra h
      have := hafter ⟨k.val - 1, by omega⟩ (Fin.lt_def.2 (by show k.val - 1 < k.val; omega))
      have := hfirst ⟨k.val - 1, by omega⟩
      linarith
    constructor
    · rintro ⟨-, h⟩
      have hjk : j = k := Fin.ext (by omega)
      subst hjk
      exact Or.inl ⟨hk, hkmin⟩
    · rintro (⟨h1, h2⟩ | ⟨h1, -, -⟩)
      · refine ⟨Nat.zero_le _, ?_⟩
        by_contra h
        exact h2 k (Fin.lt_def.2 (by omega)) hk
      · exact absurd h1 (not_lt.2 (hfirst j))
  · set i0 := (uniqueReal (List.ofFn d.xf)).idxOf v with hi0
    have hpl : i0 - 1 < (uniqueReal (List.ofFn d.xf)).length := by omega
    set p := (uniqueReal (List.ofFn d.xf))[i0 - 1] with hp
    have hgetD : (uniqueReal (List.ofFn d.xf)).getD (i0 - 1) 0 = p := by
      rw [List.getD_eq_getElem?_getD, List.getElem?_eq_getElem hpl]; rfl
    rw [hgetD]
    have hpm : p ∈ List.ofFn d.xf := by rw [← uniqueReal_mem]; exact List.getElem_mem hpl
    rw [List.mem_ofFn] at hpm
    obtain ⟨q0, hq0⟩ := hpm
    obtain ⟨q, hq, hqmin⟩ := exists_first d.xf p q0 hq0
    rw [idxOf_ofFn_first d.xf p q hq hqmin]
    have hpv : p < v := by rw [← hgetv]; exact hu (i0 - 1) i0 hpl hidx (by omega)
    have hmax : ∀ j, d.xf j < v → d.xf j ≤ p := fun j hj => by
      have hjm : d.xf j ∈ uniqueReal (List.ofFn d.xf) := by rw [uniqueReal_mem, List.mem_ofFn]; exact ⟨j, rfl⟩
      obtain ⟨i, hi, hij⟩ := List.getElem_of_mem hjm
      have hlt : i < i0 := by
        by_contra h
        rcases Nat.lt_or_ge i0 i with h' | h'
        · have := hu i0 i hidx hi h'
          rw [hgetv, hij] at this
          linarith
        · have : i = i0 := by omega
          subst this
          rw [hgetv] at hij
          linarith
      rcases Nat.lt_or_ge i (i0 - 1) with h' | h'
      · have := hu i (i0 - 1) hi hpl h'
        rw [hij] at this
        exact this.le
      · have : i = i0 - 1 := by omega
        subst this
        exact hij.ge
    constructor
    · rintro ⟨h1, h2⟩
      rcases Nat.lt_or_ge j.val k.val with h | h
      · right
        have hjv := hafter j h
        have hjp : d.xf j = p := le_antisymm (hmax j hjv) (hq ▸ hx (Fin.le_def.2 (by omega)))
        exact ⟨hjv, fun j' hj' => hjp ▸ hmax j' hj', q, Fin.lt_def.2 (by omega), by rw [hq, hjp]⟩
      · have hjk : j = k := Fin.ext (by omega)
        subst hjk
        exact Or.inl ⟨hk, hkmin⟩
    · rintro (⟨h1, h2⟩ | ⟨h1, h2, j', h3, h4⟩)
      · have hjk : j = k := by
          rcases lt_trichotomy j k with h | h | h
          · exact absurd h1 (hkmin j h)
          · exact h
          · exact absurd hk (h2 k h)
        subst hjk
        refine ⟨?_, le_rfl⟩
        have := hbefore q (by rw [hq]; exact hpv)
        exact this
      · have hjp : d.xf j = p := le_antisymm (hmax j h1) (hq ▸ h2 q (by rw [hq]; exact hpv))
        refine ⟨?_, (Fin.lt_def.1 (hbefore j h1)).le⟩
        have : q ≤ j' := by
          by_contra h
          exact hqmin j' (not_le.1 h) (by rw [h4, hjp])
        have := Fin.le_def.1 this
        have := Fin.lt_def.1 h3
        omega

theorem stationWindow_nonempty {n : ℕ} (x : Fin n → ℝ) (v : ℝ) (j : Fin n) (h : x j = v) : (stationWindow x v).Nonempty := by
  obtain ⟨k, h1, h2⟩ := exists_first x v j h
  exact ⟨k, by simp only [stationWindow, Finset.mem_filter, Finset.mem_univ, true_and]; exact Or.inl ⟨h1, h2⟩⟩

section

variable {n m : ℕ} (xfit : Fin (m + 1) → ℝ) (x y err : Fin (n + 1) → ℝ) (hx : Monotone x) (he : ∀ i, 0 < err i)
  (cov : Matrix (Fin (n + 1)) (Fin (n + 1)) ℝ) (args : List Arg) (opt : Externals)

include hx in
theorem scaled_window (v : ℝ) : stationWindow (scaled x y err).xf ((v - xCentre x) / xScale x) = stationWindow x v := by
  have hs := xScale_pos x hx
  have e1 : ∀ a b : ℝ, (a - xCentre x) / xScale x = (b - xCentre x) / xScale x ↔ a = b := fun a b => by
    rw [div_left_inj' hs.ne', sub_left_inj]
  have e2 : ∀ a b : ℝ, (a - xCentre x) / xScale x < (b - xCentre x) / xScale x ↔ a < b := fun a b => by
    rw [div_lt_div_iff_of_pos_right hs, sub_lt_sub_iff_right]
  have e3 : ∀ a b : ℝ, (a - xCentre x) / xScale x ≤ (b - xCentre x) / xScale x ↔ a ≤ b := fun a b => by
    rw [div_le_div_iff_of_pos_right hs, sub_le_sub_iff_right]
  ext j
  unfold stationWindow
  simp only [Finset.mem_filter, Finset.mem_univ, true_and]
  show (((x j - xCentre x) / xScale x = _ ∧ ∀ j' < j, (x j' - xCentre x) / xScale x ≠ _) ∨ ((x j - xCentre x) / xScale x < _ ∧
    (∀ j', (x j' - xCentre x) / xScale x < _ → (x j' - xCentre x) / xScale x ≤ (x j - xCentre x) / xScale x) ∧
      ∃ j' < j, (x j' - xCentre x) / xScale x = (x j - xCentre x) / xScale x)) ↔ _
  simp only [ne_eq, e1, e2, e3]

end

end Verif.Lemmas
