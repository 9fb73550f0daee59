import Verif.Spec.Update
import Verif.Lemmas.Helper
import Verif.Lemmas.Np

/-!
# Lemmas about the outer loop of the mapping
-/

set_option linter.unusedSectionVars false

namespace Verif.Update

open Verif.Np Verif.Helper Verif.Spec

variable {K : Type} [Field K] [LinearOrder K] [IsStrictOrderedRing K]

/-! ## Selected points -/

theorem selectPoint_ne_nil (no : K) (sel : List (Selected K)) (x y : K) (h : sel ≠ []) : selectPoint no sel x y ≠ [] := by
  unfold selectPoint
  dsimp only
  split
  · simp
  · exact h

theorem selectFold_ne_nil (no : K) (l : List (K × K)) (sel : List (Selected K)) (h : sel ≠ []) :
    l.foldl (fun s p => selectPoint no s p.1 p.2) sel ≠ [] := by
  induction l generalizing sel with
  | nil => exact h
  | cons p l ih => exact ih _ (selectPoint_ne_nil no sel p.1 p.2 h)

theorem selectedHistoricalPoints_ok (no : K) (sel : List (Selected K)) (h : HistData K) (h1 : h.long ≠ [])
    (h2 : h.lat.length = h.long.length) :
    ∃ sel', selectedHistoricalPoints no sel h = .ok sel' ∧ sel' ≠ [] := by
  haveI : Inhabited K := ⟨0⟩
  have hg : gather h.lat (List.range h.long.length) = .ok ((List.range h.long.length).map (fun (i : ℕ) => h.lat[i]!)) :=
    gather_ok _ _ (fun i hi => by rw [h2]; exact List.mem_range.1 hi)
  unfold selectedHistoricalPoints
  by_cases hs : sel.length = 0
  · rw [if_pos hs]
    have hl : 0 < h.long.length := List.length_pos_iff.2 h1
    have e1 : item h.long 0 = .ok (h.long[0]'hl) := by simp [item, hl]
    have e2 : item h.lat 0 = .ok (h.lat[0]'(by omega)) := by simp [item, h2, hl]
    rw [e1, e2, hg]
    exact ⟨_, rfl, selectFold_ne_nil _ _ _ (by simp)⟩
  · rw [if_neg hs, hg]
    exact ⟨_, rfl, selectFold_ne_nil _ _ _ (by rintro rfl; simp at hs)⟩

/-! ## The loops -/

/-- A column before the quality control, with the levels below `j` filled in. -/
def rawColumn (P : Profile K) (levels : ℕ) (m : Mat) (i j : ℕ) : List (Option K) :=
  (List.range levels).map fun n => if n < j then (levelOut P i n).bind fun o => o.values m else none

open Classical in
/-- A setting when the levels below `j` have been processed. -/
noncomputable def rawSetting (P : Profile K) (cfg : Setting → K) (s : Setting) (i j : ℕ) : Option K :=
  if ∃ n < j, (levelOut P i n).isSome then some (cfg s) else none

/-- The data when `k` profiles have been processed. -/
noncomputable def doneData (P : Profile K) (cfg : Setting → K) (no : List K) (levels k : ℕ) (sel : List (Selected K)) : Mapped K :=
  ⟨no.take k, levels, fun m => (List.range k).map fun i => rawColumn P levels m i levels,
    fun s => (List.range k).map fun i => rawSetting P cfg s i levels, sel, 0, true⟩

/-- The data when `k` profiles and `j` levels of the next have been processed. -/
noncomputable def midData (P : Profile K) (cfg : Setting → K) (no : List K) (levels k j : ℕ) (sel : List (Selected K)) : Mapped K :=
  ⟨no.take (k + 1), levels, fun m => ((List.range k).map fun i => rawColumn P levels m i levels) ++ [rawColumn P levels m k j],
    fun s => ((List.range k).map fun i => rawSetting P cfg s i levels) ++ [rawSetting P cfg s k j], sel, 0, true⟩

theorem midData_full (P : Profile K) (cfg : Setting → K) (no : List K) (levels k : ℕ) (sel : List (Selected K)) :
    midData P cfg no levels k levels sel = doneData P cfg no levels (k + 1) sel := by
  unfold midData doneData
  simp [List.range_succ]

theorem rawColumn_length (P : Profile K) (levels : ℕ) (m : Mat) (i j : ℕ) : (rawColumn P levels m i j).length = levels := by
  simp [rawColumn]

theorem rawColumn_none (P : Profile K) (levels : ℕ) (m : Mat) (i j : ℕ) (h : levelOut P i j = none) :
    rawColumn P levels m i (j + 1) = rawColumn P levels m i j := by
  unfold rawColumn
  apply List.map_congr_left
  intro n _
  by_cases hn : n = j
  · subst hn; simp [h]
  · by_cases hlt : n < j
    · simp [hlt, Nat.lt_succ_of_lt hlt]
    · have : ¬ n < j + 1 := by omega
      simp [hlt, this]

theorem rawColumn_some (P : Profile K) (levels : ℕ) (m : Mat) (i j : ℕ) (o : LevelOut K) (h : levelOut P i j = some o) :
    rawColumn P levels m i (j + 1) = (rawColumn P levels m i j).set j (o.values m) := by
  apply List.ext_getElem
  · simp [rawColumn]
  · intro n h1 h2
    rw [List.getElem_set]
    by_cases hn : j = n
    · subst hn; simp [rawColumn, h]
    · rw [if_neg hn]
      simp only [rawColumn, List.getElem_map, List.getElem_range]
      by_cases hlt : n < j
      · simp [hlt, Nat.lt_succ_of_lt hlt]
      · have : ¬ n < j + 1 := by omega
        simp [hlt, this]

theorem rawSetting_none (P : Profile K) (cfg : Setting → K) (s : Setting) (i j : ℕ) (h : levelOut P i j = none) :
    rawSetting P cfg s i (j + 1) = rawSetting P cfg s i j := by
  unfold rawSetting
  congr 1
  apply propext
  constructor
  · rintro ⟨n, hn, hs⟩
    refine ⟨n, ?_, hs⟩
    rcases Nat.lt_succ_iff_lt_or_eq.1 hn with h' | rfl
    · exact h'
    · rw [h] at hs; simp at hs
  · rintro ⟨n, hn, hs⟩
    exact ⟨n, by omega, hs⟩

theorem rawSetting_some (P : Profile K) (cfg : Setting → K) (s : Setting) (i j : ℕ) (o : LevelOut K) (h : levelOut P i j = some o) :
    rawSetting P cfg s i (j + 1) = some (cfg s) := by
  unfold rawSetting
  rw [if_pos ⟨j, by omega, by rw [h]; rfl⟩]

theorem setEntry_last (a : List (List (Option K))) (c : List (Option K)) (k n : ℕ) (hk : a.length = k) (v : Option K)
    (hn : n < c.length) : setEntry (a ++ [c]) n k v = .ok (a ++ [c.set n v]) := by
  subst hk
  unfold setEntry
  simp [hn]

theorem storeLevel_mid (P : Profile K) (cfg : Setting → K) (no : List K) (levels k j : ℕ) (hk : k < no.length) (hj : j < levels)
    (sel : List (Selected K)) (o : LevelOut K) (ho : levelOut P k j = some o) (h1 : o.points.long ≠ [])
    (h2 : o.points.lat.length = o.points.long.length) :
    ∃ sel', sel' ≠ [] ∧ selectedHistoricalPoints (no[k]) sel o.points = .ok sel' ∧
      storeLevel cfg k j (midData P cfg no levels k j sel) o = .ok (midData P cfg no levels k (j + 1) sel') := by
  obtain ⟨sel', hs, hne⟩ := selectedHistoricalPoints_ok (no[k]) sel o.points h1 h2
  refine ⟨sel', hne, hs, ?_⟩
  have he : ∀ m, setEntry ((midData P cfg no levels k j sel).mats m) j k (o.values m) =
      .ok ((midData P cfg no levels k (j + 1) sel').mats m) := by
    intro m
    unfold midData
    dsimp only
    rw [setEntry_last _ _ _ _ (by simp) _ (by rw [rawColumn_length]; exact hj), rawColumn_some P levels m k j o ho]
  have hi : item (midData P cfg no levels k j sel).profileNo k = .ok no[k] := by
    unfold midData item
    dsimp only
    rw [List.getElem?_take_of_lt (by omega), List.getElem?_eq_getElem hk]
  unfold storeLevel
  rw [he, he, he, he, he, hi]
  simp only [bind, Except.bind, pure, Except.pure]
  have hsel : (midData P cfg no levels k j sel).selected = sel := rfl
  rw [hsel, hs]
  dsimp only
  congr 1
  unfold midData
  dsimp only
  congr 1
  · funext m; cases m <;> rfl
  · funext s
    rw [rawSetting_some P cfg s k j o ho]
    rw [List.set_append_right _ _ (by simp)]
    simp

/-- The level loop. -/
theorem levelLoop_mid (P : Profile K) (cfg : Setting → K) (no : List K) (levels profiles k : ℕ) (hk : k < no.length)
    (hkp : k < profiles) (hP : Computable P profiles levels) (f : ℕ → Except PyErr (Option (LevelOut K))) (hf : P k = .ok (some f))
    (c j : ℕ) (hj : j + c = levels) (sel : List (Selected K)) :
    ∃ sel', levelLoop cfg k f (List.range' j c) (midData P cfg no levels k j sel) = .ok (midData P cfg no levels k levels sel') ∧
      (sel' ≠ [] ↔ sel ≠ [] ∨ ∃ n, j ≤ n ∧ n < levels ∧ (levelOut P k n).isSome) := by
  induction c generalizing j sel with
  | zero =>
    obtain rfl : j = levels := by omega
    refine ⟨sel, rfl, ?_⟩
    constructor
    · exact Or.inl
    · rintro (h | ⟨n, h1, h2, _⟩)
      · exact h
      · omega
  | succ c ih =>
    rw [List.range'_succ]
    unfold levelLoop
    obtain ⟨r, hr, hq⟩ := hP.profile k hkp
    rw [hf] at hr
    obtain ⟨q, hq⟩ := hq f (Except.ok.inj hr).symm j (by omega)
    rw [hq]
    have hlo : levelOut P k j = q := by unfold levelOut; rw [hf]; dsimp only; rw [hq]
    simp only [bind, Except.bind]
    cases q with
    | none =>
      obtain ⟨sel', h1, h2⟩ := ih (j + 1) (by omega) sel
      refine ⟨sel', ?_, ?_⟩
      · rw [← h1]
        unfold midData
        simp only [rawColumn_none P levels _ k j hlo, rawSetting_none P cfg _ k j hlo]
      · rw [h2]
        constructor
        · rintro (h | ⟨n, a, b, c⟩)
          · exact Or.inl h
          · exact Or.inr ⟨n, by omega, b, c⟩
        · rintro (h | ⟨n, a, b, c⟩)
          · exact Or.inl h
          · refine Or.inr ⟨n, ?_, b, c⟩
            rcases Nat.lt_or_eq_of_le a with h | rfl
            · omega
            · rw [hlo] at c; simp at c
    | some o =>
      dsimp only
      obtain ⟨p1, p2⟩ := hP.points k hkp j (by omega) o hlo
      obtain ⟨sel1, hne, -, hst⟩ := storeLevel_mid P cfg no levels k j hk (by omega) sel o hlo p1 p2
      rw [hst]
      dsimp only
      obtain ⟨sel', h1, h2⟩ := ih (j + 1) (by omega) sel1
      refine ⟨sel', h1, ?_⟩
      rw [h2]
      constructor
      · intro _; exact Or.inr ⟨j, le_refl _, by omega, by rw [hlo]; rfl⟩
      · intro _; exact Or.inl hne

/-- One profile. -/
theorem processProfile_done (P : Profile K) (cfg : Setting → K) (no : List K) (levels k : ℕ) (hk : k < no.length)
    (hP : Computable P no.length levels) (sel : List (Selected K)) :
    ∃ sel', processProfile cfg P no levels (doneData P cfg no levels k sel) k k = .ok (doneData P cfg no levels (k + 1) sel') ∧
      (sel' ≠ [] ↔ sel ≠ [] ∨ ∃ n < levels, (levelOut P k n).isSome) := by
  have hi : item no k = .ok no[k] := by unfold item; rw [List.getElem?_eq_getElem hk]
  have hins : npInsert (doneData P cfg no levels k sel).profileNo k no[k] = .ok (no.take (k + 1)) := by
    unfold npInsert doneData
    dsimp only
    rw [if_pos (by rw [List.length_take]; omega)]
    congr 1
    rw [List.take_of_length_le (by rw [List.length_take]; omega), List.drop_of_length_le (by rw [List.length_take]; omega)]
    rw [List.take_add_one, List.getElem?_eq_getElem hk]
    rfl
  unfold processProfile
  rw [hi]
  simp only [bind, Except.bind]
  rw [hins]
  dsimp only
  have hl : (doneData P cfg no levels k sel).lists = true := rfl
  rw [hl]
  simp only [if_true]
  have hla : laVariables levels k ({ doneData P cfg no levels k sel with
      profileNo := no.take (k + 1), settings := fun s => (doneData P cfg no levels k sel).settings s ++ [none], lists := true } : Mapped K) =
      .ok (midData P cfg no levels k 0 sel) := by
    unfold laVariables doneData
    dsimp only
    rw [if_pos rfl, if_neg (by simp)]
    unfold midData
    simp [rawColumn, rawSetting]
  have hla' : laVariables levels k
      ({ profileNo := List.take (k + 1) no, rows := (doneData P cfg no levels k sel).rows, mats := (doneData P cfg no levels k sel).mats,
          settings := fun s => (doneData P cfg no levels k sel).settings s ++ [none], selected := (doneData P cfg no levels k sel).selected,
          profileIndex := (doneData P cfg no levels k sel).profileIndex, lists := true } : Mapped K) =
      .ok (midData P cfg no levels k 0 sel) := hla
  rw [hla']
  dsimp only
  obtain ⟨r, hr, hq⟩ := hP.profile k hk
  rw [hr]
  dsimp only
  cases r with
  | none =>
    have hlo : ∀ n, levelOut P k n = none := by intro n; unfold levelOut; rw [hr]
    refine ⟨sel, ?_, ?_⟩
    · simp only [pure, Except.pure]
      rw [← midData_full]
      congr 1
      unfold midData
      congr 1
      · funext m
        congr 2
        unfold rawColumn
        simp [hlo]
      · funext s
        congr 2
        unfold rawSetting
        simp [hlo]
    · simp [hlo]
  | some f =>
    dsimp only
    obtain ⟨sel', h1, h2⟩ := levelLoop_mid P cfg no levels no.length k hk hk hP f hr levels 0 (by omega) sel
    rw [← List.range_eq_range'] at h1
    refine ⟨sel', ?_, ?_⟩
    · rw [h1, midData_full]
    · rw [h2]
      simp

/-- All profiles. -/
theorem profileLoop_done (P : Profile K) (cfg : Setting → K) (no : List K) (levels : ℕ) (hP : Computable P no.length levels)
    (c k : ℕ) (hk : k + c = no.length) (sel : List (Selected K)) :
    ∃ sel', profileLoop cfg P no levels (List.range' k c) k (doneData P cfg no levels k sel) =
        (c, .ok (doneData P cfg no levels no.length sel')) ∧
      (sel' ≠ [] ↔ sel ≠ [] ∨ ∃ i, k ≤ i ∧ i < no.length ∧ ∃ n < levels, (levelOut P i n).isSome) := by
  induction c generalizing k sel with
  | zero =>
    obtain rfl : k = no.length := by omega
    refine ⟨sel, rfl, ?_⟩
    constructor
    · exact Or.inl
    · rintro (h | ⟨n, h1, h2, _⟩)
      · exact h
      · omega
  | succ c ih =>
    rw [List.range'_succ]
    unfold profileLoop
    obtain ⟨sel1, h1, h2⟩ := processProfile_done P cfg no levels k (by omega) hP sel
    rw [h1]
    obtain ⟨sel', h3, h4⟩ := ih (k + 1) (by omega) sel1
    dsimp only
    rw [h3]
    refine ⟨sel', rfl, ?_⟩
    rw [h4, h2]
    constructor
    · rintro ((h | h) | ⟨i, a, b, c⟩)
      · exact Or.inl h
      · exact Or.inr ⟨k, le_refl _, by omega, h⟩
      · exact Or.inr ⟨i, by omega, b, c⟩
    · rintro (h | ⟨i, a, b, c⟩)
      · exact Or.inl (Or.inl h)
      · rcases Nat.lt_or_eq_of_le a with h | rfl
        · exact Or.inr ⟨i, by omega, b, c⟩
        · exact Or.inl (Or.inr c)

theorem missing_fresh (no : List K) : missingProfiles [] no = List.range' 0 no.length := by
  unfold missingProfiles
  rw [← List.range_eq_range']
  rw [List.filter_eq_self]
  intro i hi
  rw [List.getElem?_eq_getElem (List.mem_range.1 hi)]
  simp [argwhere, argwhereFrom]

/-! ## Sorting -/

theorem Mat.mem_all (m : Mat) : m ∈ Mat.all := by cases m <;> decide

theorem Setting.mem_all (s : Setting) : s ∈ Setting.all := by cases s <;> decide

theorem gatherAll_ok {ι α : Type} [DecidableEq ι] [Inhabited α] (keys : List ι) (f : ι → List α) (idx : List ℕ) (hkeys : ∀ k, k ∈ keys)
    (h : ∀ k, ∀ i ∈ idx, i < (f k).length) : gatherAll keys f idx = .ok fun k => idx.map fun (i : ℕ) => (f k)[i]! := by
  unfold gatherAll
  rw [if_pos (by simpa using fun k _ i hi => h k i hi)]
  congr 1
  funext k
  rw [if_pos (hkeys k)]
  have hk := h k
  clear h
  induction idx with
  | nil => rfl
  | cons i idx ih =>
    have hi := hk i (by simp)
    rw [List.filterMap_cons, List.getElem?_eq_getElem hi]
    dsimp only
    rw [List.map_cons, ih (fun j hj => hk j (by simp [hj]))]
    simp [hi]

theorem checkSal_eq (v : Option K) : checkSal v = plausible .mappedSal v := by
  unfold checkSal plausible
  rw [if_pos rfl]
  cases v with
  | none => rfl
  | some x =>
    by_cases h : x < 30 ∨ 40 < x
    · have : ¬ (30 ≤ x ∧ x ≤ 40) := by rintro ⟨a, b⟩; rcases h with h | h <;> linarith
      simp only [h, if_true, Option.filter, this, decide_false, Bool.false_eq_true, if_false]
    · have h' := not_or.1 h
      have : 30 ≤ x ∧ x ≤ 40 := ⟨not_lt.1 h'.1, not_lt.1 h'.2⟩
      simp only [h, if_false, Option.filter, this, and_self, decide_true, if_true]

theorem argsort_strict (argsort : List (Option K) → List ℕ) (hs : IsArgsort argsort) (no : List K) (hno : no.Pairwise (· < ·)) :
    argsort (no.map some) = List.range no.length := by
  obtain ⟨h1, h2⟩ := hs (no.map some)
  rw [List.length_map] at h1
  apply List.Perm.eq_of_pairwise' (r := (· ≤ ·)) ?_ (List.pairwise_le_range) h1
  have hlt : ∀ i ∈ argsort (no.map some), i < no.length := fun i hi => List.mem_range.1 (h1.mem_iff.1 hi)
  refine List.Pairwise.imp_of_mem ?_ h2
  intro i j hi hj hij
  have li := hlt i hi
  have lj := hlt j hj
  by_contra hc
  have hji : j < i := not_le.1 hc
  have := hij (some no[i]) (some no[j]) (by simp [li]) (by simp [lj])
  have hle : no[i] ≤ no[j] := by simpa [NpLe] using this
  have := List.pairwise_iff_getElem.1 hno j i lj li hji
  exact absurd this (not_lt.2 hle)

theorem argsort_sorted (argsort : List (Option K) → List ℕ) (hs : IsArgsort argsort) (no : List K) (hno : no.Nodup) [Inhabited K] :
    ((argsort (no.map some)).map fun (i : ℕ) => no[i]!).Pairwise (· < ·) := by
  obtain ⟨h1, h2⟩ := hs (no.map some)
  rw [List.length_map] at h1
  have hlt : ∀ i ∈ argsort (no.map some), i < no.length := fun i hi => List.mem_range.1 (h1.mem_iff.1 hi)
  have hnd : (argsort (no.map some)).Nodup := h1.nodup_iff.2 List.nodup_range
  rw [List.pairwise_map]
  have h3 := List.Pairwise.and h2 hnd
  refine List.Pairwise.imp_of_mem ?_ h3
  rintro i j hi hj ⟨hij, hne⟩
  have li := hlt i hi
  have lj := hlt j hj
  have := hij (some no[i]) (some no[j]) (by simp [li]) (by simp [lj])
  have hle : no[i] ≤ no[j] := by simpa [NpLe] using this
  have hne' : no[i] ≠ no[j] := fun h => hne ((hno.getElem_inj_iff).1 h)
  simpa [li, lj] using lt_of_le_of_ne hle hne'

end Verif.Update
