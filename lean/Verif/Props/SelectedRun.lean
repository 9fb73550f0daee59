import Verif.Lemmas.Profile
import Verif.Props.Helper

/-!
# The selected historical points that a run saves (C182)
-/

set_option linter.unusedSectionVars false

namespace Verif.Props

open Verif.Np Verif.Helper Verif.Region Verif.Profile Verif.Update Verif.Spec Verif.Spec.Profile Verif.Level
open Verif.Lemmas.Profile

section
variable {K : Type} [Field K] [LinearOrder K] [IsStrictOrderedRing K]

/-- Being close does not depend on the order of the points. -/
theorem closeTo_symm {x y x' y' : K} (h : CloseTo x y x' y') : CloseTo x' y' x y := by
  unfold CloseTo at *
  rwa [abs_sub_comm x' x, abs_sub_comm y' y]

private theorem peelOk {α β : Type} {x : Except PyErr α} {f : α → Except PyErr β} {b : β} (h : x >>= f = .ok b) :
    ∃ a, x = .ok a ∧ f a = .ok b := by
  cases x with
  | error e => cases h
  | ok a => exact ⟨a, rfl, h⟩

/-- What storing one level does to the selection. -/
theorem storeLevel_selected (cfg : Setting → K) (k n : ℕ) (d d' : Mapped K) (o : LevelOut K) (h : storeLevel cfg k n d o = .ok d') :
    d'.profileNo = d.profileNo ∧ ∃ v, d.profileNo[k]? = some v ∧ selectedHistoricalPoints v d.selected o.points = .ok d'.selected := by
  unfold storeLevel at h
  obtain ⟨_, -, h⟩ := peelOk h
  obtain ⟨_, -, h⟩ := peelOk h
  obtain ⟨_, -, h⟩ := peelOk h
  obtain ⟨_, -, h⟩ := peelOk h
  obtain ⟨_, -, h⟩ := peelOk h
  obtain ⟨v, hv, h⟩ := peelOk h
  obtain ⟨s, hs, h⟩ := peelOk h
  cases h
  refine ⟨rfl, v, ?_, hs⟩
  unfold item at hv
  cases hd : d.profileNo[k]? with
  | none => rw [hd] at hv; cases hv
  | some w => rw [hd] at hv; cases hv; rfl

/-- What the level loop does to the selection. -/
theorem levelLoop_selected (cfg : Setting → K) (k : ℕ) (f : ℕ → Except PyErr (Option (LevelOut K))) (v : K) (ns : List ℕ)
    (hpts : ∀ n ∈ ns, ∀ o, f n = .ok (some o) → o.points.long ≠ [] ∧ o.points.lat.length = o.points.long.length) (d d' : Mapped K)
    (hv : d.profileNo[k]? = some v) (hsep : WellSeparated d.selected) (h : levelLoop cfg k f ns d = .ok d') :
    d.selected <+: d'.selected ∧ WellSeparated d'.selected ∧
      (∀ n ∈ ns, ∀ o, f n = .ok (some o) → ∀ (j : ℕ) (x y : K), o.points.long[j]? = some x → o.points.lat[j]? = some y →
        ∃ s ∈ d'.selected, CloseTo s.long s.lat x y) ∧
      ∀ s ∈ d'.selected, s ∈ d.selected ∨ (s.profileNo = v ∧ ∃ n ∈ ns, ∃ o, f n = .ok (some o) ∧
        ∃ j : ℕ, o.points.long[j]? = some s.long ∧ o.points.lat[j]? = some s.lat) := by
  induction ns generalizing d with
  | nil =>
    cases h
    exact ⟨List.prefix_rfl, hsep, by simp, fun s hs => Or.inl hs⟩
  | cons a ns ih =>
    have hpts' := fun n hn => hpts n (List.mem_cons_of_mem a hn)
    rw [levelLoop] at h
    obtain ⟨q, hq, h⟩ := peelOk h
    cases q with
    | none =>
      obtain ⟨i1, i2, i3, i4⟩ := ih hpts' d hv hsep h
      refine ⟨i1, i2, ?_, ?_⟩
      · intro n hn o ho
        rcases List.mem_cons.1 hn with rfl | hn
        · rw [hq] at ho; cases ho
        · exact i3 n hn o ho
      · intro s hs
        rcases i4 s hs with h1 | ⟨h1, n, hn, h2⟩
        · exact Or.inl h1
        · exact Or.inr ⟨h1, n, List.mem_cons_of_mem _ hn, h2⟩
    | some o =>
      obtain ⟨d1, hd1, h⟩ := peelOk h
      obtain ⟨hno, w, hw, hsel⟩ := storeLevel_selected cfg k a d d1 o hd1
      rw [hv] at hw
      cases hw
      obtain ⟨hne, hlen⟩ := hpts a List.mem_cons_self o hq
      obtain ⟨r, hr, j1, j2, j3, j4⟩ := selected_points_spec v d.selected o.points hsep hlen.symm (List.length_pos_iff.2 hne)
      rw [hsel] at hr
      cases hr
      obtain ⟨i1, i2, i3, i4⟩ := ih hpts' d1 (by rw [hno, hv]) j2 h
      refine ⟨j1.trans i1, i2, ?_, ?_⟩
      · intro n hn o' ho' j x y hx hy
        rcases List.mem_cons.1 hn with rfl | hn
        · rw [hq] at ho'
          cases ho'
          obtain ⟨s, hs, hc⟩ := j3 j x y hx hy
          exact ⟨s, i1.subset hs, hc⟩
        · exact i3 n hn o' ho' j x y hx hy
      · intro s hs
        rcases i4 s hs with h1 | ⟨h1, n, hn, h2⟩
        · rcases j4 s h1 with h1 | ⟨h1, h2⟩
          · exact Or.inl h1
          · exact Or.inr ⟨h1, a, List.mem_cons_self, o, hq, h2⟩
        · exact Or.inr ⟨h1, n, List.mem_cons_of_mem _ hn, h2⟩

private theorem levelOut_some {P : Profile K} {i n : ℕ} {o : LevelOut K} (h : levelOut P i n = some o) :
    ∃ f, P i = .ok (some f) ∧ f n = .ok (some o) := by
  unfold levelOut at h
  split at h
  · rename_i f hf
    split at h
    · rename_i q hq
      subst h
      exact ⟨f, hf, hq⟩
    · cases h
  · cases h

private theorem levelOut_of {P : Profile K} {i n : ℕ} {o : LevelOut K} {f : ℕ → Except PyErr (Option (LevelOut K))}
    (hf : P i = .ok (some f)) (ho : f n = .ok (some o)) : levelOut P i n = some o := by
  unfold levelOut
  rw [hf]
  dsimp only
  rw [ho]

/-- What one pass of the profile loop does to the selection. -/
theorem processProfile_selected (cfg : Setting → K) (P : Profile K) (no : List K) (levels k i : ℕ) (d d' : Mapped K)
    (hpts : ∀ n < levels, ∀ o, levelOut P i n = some o → o.points.long ≠ [] ∧ o.points.lat.length = o.points.long.length)
    (hsep : WellSeparated d.selected) (h : processProfile cfg P no levels d k i = .ok d') :
    d.selected <+: d'.selected ∧ WellSeparated d'.selected ∧
      (∀ n < levels, ∀ o, levelOut P i n = some o → ∀ (j : ℕ) (x y : K), o.points.long[j]? = some x → o.points.lat[j]? = some y →
        ∃ s ∈ d'.selected, CloseTo s.long s.lat x y) ∧
      ∀ s ∈ d'.selected, s ∈ d.selected ∨ (no[i]? = some s.profileNo ∧ ∃ n < levels, ∃ o, levelOut P i n = some o ∧
        ∃ j : ℕ, o.points.long[j]? = some s.long ∧ o.points.lat[j]? = some s.lat) := by
  unfold processProfile at h
  obtain ⟨v, hv, h⟩ := peelOk h
  obtain ⟨nos, hnos, h⟩ := peelOk h
  have hvi : no[i]? = some v := by
    unfold item at hv
    cases hd : no[i]? with
    | none => rw [hd] at hv; cases hv
    | some w => rw [hd] at hv; cases hv; rfl
  have hk : nos[k]? = some v := by
    unfold npInsert at hnos
    split at hnos
    · rename_i hkl
      cases hnos
      have hl : (d.profileNo.take k).length = k := by rw [List.length_take]; omega
      rw [List.getElem?_append_right (by omega), hl]
      simp
    · cases hnos
  split at h
  · obtain ⟨d1, hd1, h⟩ := peelOk h
    have h1 : d1.profileNo = nos ∧ d1.selected = d.selected := by
      unfold laVariables at hd1
      dsimp only at hd1
      split at hd1
      · split at hd1 <;> (cases hd1; exact ⟨rfl, rfl⟩)
      · cases hd1
    obtain ⟨q, hq, h⟩ := peelOk h
    cases q with
    | none =>
      cases h
      rw [h1.2]
      refine ⟨List.prefix_rfl, hsep, ?_, fun s hs => Or.inl hs⟩
      intro n _ o ho
      obtain ⟨f, hf, -⟩ := levelOut_some ho
      rw [hq] at hf
      cases hf
    | some f =>
      obtain ⟨i1, i2, i3, i4⟩ := levelLoop_selected cfg k f v (List.range levels)
        (fun n hn o ho => hpts n (List.mem_range.1 hn) o (levelOut_of hq ho)) d1 d' (by rw [h1.1, hk]) (by rw [h1.2]; exact hsep) h
      rw [h1.2] at i1 i4
      refine ⟨i1, i2, ?_, ?_⟩
      · intro n hn o ho
        obtain ⟨f', hf', ho'⟩ := levelOut_some ho
        rw [hq] at hf'
        cases hf'
        exact i3 n (List.mem_range.2 hn) o ho'
      · intro s hs
        rcases i4 s hs with h2 | ⟨h2, n, hn, o, ho, h3⟩
        · exact Or.inl h2
        · exact Or.inr ⟨by rw [hvi, h2], n, List.mem_range.1 hn, o, levelOut_of hq ho, h3⟩
  · cases h

/-- What the profile loop does to the selection. -/
theorem profileLoop_selected (cfg : Setting → K) (P : Profile K) (no : List K) (levels : ℕ) (is : List ℕ)
    (hpts : ∀ i ∈ is, ∀ n < levels, ∀ o, levelOut P i n = some o → o.points.long ≠ [] ∧ o.points.lat.length = o.points.long.length)
    (k : ℕ) (d d' : Mapped K) (hsep : WellSeparated d.selected) (h : (profileLoop cfg P no levels is k d).2 = .ok d') :
    d.selected <+: d'.selected ∧ WellSeparated d'.selected ∧
      (∀ i ∈ is, ∀ n < levels, ∀ o, levelOut P i n = some o → ∀ (j : ℕ) (x y : K), o.points.long[j]? = some x →
        o.points.lat[j]? = some y → ∃ s ∈ d'.selected, CloseTo s.long s.lat x y) ∧
      ∀ s ∈ d'.selected, s ∈ d.selected ∨ ∃ i ∈ is, no[i]? = some s.profileNo ∧ ∃ n < levels, ∃ o, levelOut P i n = some o ∧
        ∃ j : ℕ, o.points.long[j]? = some s.long ∧ o.points.lat[j]? = some s.lat := by
  induction is generalizing k d with
  | nil =>
    rw [profileLoop] at h
    cases h
    exact ⟨List.prefix_rfl, hsep, by simp, fun s hs => Or.inl hs⟩
  | cons a is ih =>
    rw [profileLoop] at h
    cases hp : processProfile cfg P no levels d k a with
    | error e => rw [hp] at h; cases h
    | ok d2 =>
      rw [hp] at h
      obtain ⟨j1, j2, j3, j4⟩ := processProfile_selected cfg P no levels k a d d2 (hpts a List.mem_cons_self) hsep hp
      obtain ⟨i1, i2, i3, i4⟩ := ih (fun i hi => hpts i (List.mem_cons_of_mem _ hi)) _ d2 j2 h
      refine ⟨j1.trans i1, i2, ?_, ?_⟩
      · intro i hi n hn o ho j x y hx hy
        rcases List.mem_cons.1 hi with rfl | hi
        · obtain ⟨s, hs, hc⟩ := j3 n hn o ho j x y hx hy
          exact ⟨s, i1.subset hs, hc⟩
        · exact i3 i hi n hn o ho j x y hx hy
      · intro s hs
        rcases i4 s hs with h1 | ⟨i, hi, h1⟩
        · rcases j4 s h1 with h1 | h1
          · exact Or.inl h1
          · exact Or.inr ⟨a, List.mem_cons_self, h1⟩
        · exact Or.inr ⟨i, List.mem_cons_of_mem _ hi, h1⟩

/-- C182, for any computation of the levels. -/
theorem selected_of_run (A : RunArgs K) (fs : Fs K) (hload : fs A.loadPath = none) (hP : Computable A.P A.no.length A.levels)
    (h : (updateMapping A fs).1 = none) :
    ∃ f : MapFile K, finalFs A fs A.savePath = some (.whole f) ∧ f.selected ≠ [] ∧ WellSeparated f.selected ∧
      (∀ i < A.no.length, ∀ n < A.levels, ∀ o, levelOut A.P i n = some o → ∀ (j : ℕ) (x y : K), o.points.long[j]? = some x →
        o.points.lat[j]? = some y → ∃ s ∈ f.selected, CloseTo s.long s.lat x y) ∧
      ∀ s ∈ f.selected, ∃ i < A.no.length, A.no[i]? = some s.profileNo ∧ ∃ n < A.levels, ∃ o, levelOut A.P i n = some o ∧
        ∃ j : ℕ, o.points.long[j]? = some s.long ∧ o.points.lat[j]? = some s.lat := by
  unfold finalFs
  unfold updateMapping at h ⊢
  rw [hload] at h ⊢
  unfold loadVariables at h ⊢
  dsimp only at h ⊢
  rw [missing_fresh] at h ⊢
  generalize hd0 : (⟨[], A.levels, fun _ => [], fun _ => [], [], 0, true⟩ : Mapped K) = d0 at h ⊢
  have hs0 : d0.selected = [] := by rw [← hd0]
  match hp : profileLoop A.cfg A.P A.no A.levels (List.range' 0 A.no.length) 0 d0 with
  | (k, .error e) => rw [hp] at h; simp at h
  | (k, .ok d) =>
    rw [hp] at h
    dsimp only at h ⊢
    have hmem : ∀ i, i ∈ List.range' 0 A.no.length ↔ i < A.no.length := fun i => by
      rw [← List.range_eq_range', List.mem_range]
    obtain ⟨-, i2, i3, i4⟩ := profileLoop_selected A.cfg A.P A.no A.levels (List.range' 0 A.no.length)
      (fun i hi => hP.points i ((hmem i).1 hi)) 0 d0 d (by rw [hs0]; exact List.Pairwise.nil) (by rw [hp])
    cases hc : sortAndCollect A.argsort d with
    | error e => rw [hc] at h; simp at h
    | ok f =>
      have hperm : f.selected.Perm d.selected ∧ d.selected ≠ [] := by
        unfold sortAndCollect at hc
        obtain ⟨_, -, hc⟩ := peelOk hc
        obtain ⟨_, -, hc⟩ := peelOk hc
        obtain ⟨_, -, hc⟩ := peelOk hc
        obtain ⟨_, -, hc⟩ := peelOk hc
        split at hc
        · rename_i hpos
          cases hc
          exact ⟨List.mergeSort_perm _ _, List.length_pos_iff.1 hpos⟩
        · cases hc
      obtain ⟨hperm, hne⟩ := hperm
      refine ⟨f, by dsimp only; rw [getLast_two]; simp, fun h0 => hne (by rw [h0] at hperm; exact hperm.nil_eq.symm), ?_, ?_, ?_⟩
      · unfold WellSeparated at i2 ⊢
        exact (hperm.pairwise_iff (fun hab hba => hab (closeTo_symm hba))).2 i2
      · intro i hi n hn o ho j x y hx hy
        obtain ⟨s, hs, hcl⟩ := i3 i ((hmem i).2 hi) n hn o ho j x y hx hy
        exact ⟨s, hperm.mem_iff.2 hs, hcl⟩
      · intro s hs
        rcases i4 s (hperm.mem_iff.1 hs) with h1 | ⟨i, hi, h1⟩
        · rw [hs0] at h1; cases h1
        · exact ⟨i, (hmem i).1 hi, h1⟩

end

/-- C182. The selected points of a run for a float without a mapped file. -/
theorem selected_of_float (R : FloatRun) (fs : Fs ℝ) (hload : fs R.loadPath = none) (h : (updateMapping R.args fs).1 = none) :
    ∃ f : MapFile ℝ, finalFs R.args fs R.savePath = some (.whole f) ∧ f.selected ≠ [] ∧ WellSeparated f.selected ∧
      (∀ i < R.no.length, ∀ n < R.levels, ∀ o, levelOut R.args.P i n = some o → ∀ (j : ℕ) (x y : ℝ), o.points.long[j]? = some x →
        o.points.lat[j]? = some y → ∃ s ∈ f.selected, CloseTo s.long s.lat x y) ∧
      ∀ s ∈ f.selected, ∃ i < R.no.length, R.no[i]? = some s.profileNo ∧ ∃ n < R.levels, ∃ o, levelOut R.args.P i n = some o ∧
        ∃ j : ℕ, o.points.long[j]? = some s.long ∧ o.points.lat[j]? = some s.lat :=
  selected_of_run R.args fs hload (fresh_computable R fs hload h) h

end Verif.Props
