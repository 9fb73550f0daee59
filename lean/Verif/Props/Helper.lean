import Verif.Lemmas.Helper

/-!
# C49-C51: choosing the historical casts of a level
-/

set_option linter.unusedSectionVars false

namespace Verif.Props

open Verif.Np Verif.Spec Verif.Helper

variable {K : Type} [Field K] [LinearOrder K] [IsStrictOrderedRing K]

/-! ## C51 -/

/-- C51. The casts kept are exactly the comparable ones, in the original order, and all six arrays are cut at the same places.
There may be more depths than casts. -/
theorem hist_casts_are_comparable (g : GridData K) (floatPres : List (Option K)) (interpSal interpPres : List (List (Option K)))
    (n m : ℕ) (delta p : K) (salRow presRow : List (Option K)) (hs : interpSal[n]? = some salRow) (hp : interpPres[n]? = some presRow)
    (hf : floatPres[n]? = some (some p)) (h1 : salRow.length = m) (h2 : presRow.length = m) (h3 : g.long.length = m)
    (h4 : g.lat.length = m) (h5 : g.dates.length = m) (h6 : m ≤ g.z.length) :
    ∃ (h : HistData K) (js : List ℕ), processProfileHist g floatPres interpSal interpPres n delta = .ok h ∧
      js.Pairwise (· < ·) ∧ (∀ j, j ∈ js ↔ ComparableCast salRow presRow p delta j) ∧
      h.sal.map some = js.map (fun j => (salRow[j]?).join) ∧ h.pres.map some = js.map (fun j => (presRow[j]?).join) ∧
      h.long.map some = js.map (fun j => g.long[j]?) ∧ h.lat.map some = js.map (fun j => g.lat[j]?) ∧
      h.dates.map some = js.map (fun j => g.dates[j]?) ∧ h.z.map some = js.map (fun j => g.z[j]?) := by
  have : Inhabited K := ⟨0⟩
  set casts := argwhere Option.isSome salRow with hcasts
  have hmem : ∀ i, i ∈ casts ↔ ∃ s, salRow[i]? = some (some s) := by
    intro i
    rw [hcasts, argwhere_mem]
    constructor
    · rintro ⟨a, ha, hb⟩
      obtain ⟨s, rfl⟩ := Option.isSome_iff_exists.1 hb
      exact ⟨s, ha⟩
    · rintro ⟨s, hs⟩; exact ⟨some s, hs, rfl⟩
  have hlt : ∀ i ∈ casts, i < m := by intro i hi; rw [← h1]; exact argwhere_lt _ _ i hi
  have hg : ∀ {α : Type} [Inhabited α] (l : List α), m ≤ l.length → gather l casts = .ok (casts.map fun i => l[i]!) :=
    fun l hl => gather_ok l casts fun i hi => lt_of_lt_of_le (hlt i hi) hl
  have hsal : gatherKnown salRow casts = casts.map fun i => ((salRow[i]?).join).getD 0 := by
    unfold gatherKnown
    exact filterMap_known casts _ 0 (fun j hj => by obtain ⟨s, hs⟩ := (hmem j).1 hj; simp [hs])
  set js := casts.filter fun i => within delta (some p) presRow[i]! with hjs
  have hjlt : ∀ j ∈ js, j < m := fun j hj => hlt j (List.mem_filter.1 hj).1
  have hget : ∀ {α : Type} [Inhabited α] (l : List α), m ≤ l.length → ∀ j ∈ js, l[j]? = some l[j]! := by
    intro α _ l hl j hj
    have := hjlt j hj
    rw [List.getElem!_eq_getElem?_getD, List.getElem?_eq_getElem (by omega)]; rfl
  have hpresmem : ∀ j ∈ js, ∃ q, presRow[j]? = some (some q) ∧ |q - p| < delta := by
    intro j hj
    have h := (List.mem_filter.1 hj).2
    rw [hget presRow h2.ge j hj]
    revert h
    cases presRow[j]! with
    | none => simp [within]
    | some q => intro h; exact ⟨q, rfl, by simpa [within] using h⟩
  refine ⟨⟨js.map fun i => ((salRow[i]?).join).getD 0, js.filterMap fun i => presRow[i]!, js.map fun i => g.long[i]!,
    js.map fun i => g.lat[i]!, js.map fun i => g.dates[i]!, js.map fun i => g.z[i]!⟩, js, ?_, ?_, ?_, ?_, ?_, ?_, ?_, ?_, ?_⟩
  · unfold processProfileHist item
    rw [hs, hp, hf]
    simp only [bind, Except.bind, pure, Except.pure]
    rw [← hcasts, hg presRow h2.ge, hg g.long h3.ge, hg g.lat h4.ge, hg g.dates h5.ge, hg g.z h6]
    simp only
    rw [hsal, gather_argwhere, gather_argwhere, gather_argwhere, gather_argwhere, gather_argwhere, gatherKnown_argwhere]
  · exact (argwhere_sorted _ _).filter _
  · intro j
    constructor
    · intro hj
      obtain ⟨s, hs⟩ := (hmem j).1 (List.mem_filter.1 hj).1
      obtain ⟨q, hq, hd⟩ := hpresmem j hj
      exact ⟨s, q, hs, hq, hd⟩
    · rintro ⟨s, q, e1, e2, e3⟩
      refine List.mem_filter.2 ⟨(hmem j).2 ⟨s, e1⟩, ?_⟩
      rw [List.getElem!_eq_getElem?_getD, e2]
      simpa [within] using e3
  · rw [List.map_map]
    refine List.map_congr_left fun j hj => ?_
    obtain ⟨s, hs⟩ := (hmem j).1 (List.mem_filter.1 hj).1
    simp [hs]
  · rw [map_some_filterMap _ _ (fun j hj => by
      obtain ⟨q, hq, -⟩ := hpresmem j hj
      rw [List.getElem!_eq_getElem?_getD, hq]; simp)]
    refine List.map_congr_left fun j hj => ?_
    obtain ⟨q, hq, -⟩ := hpresmem j hj
    rw [List.getElem!_eq_getElem?_getD, hq]; simp
  all_goals
    rw [List.map_map]
    refine List.map_congr_left fun j hj => ?_
  · exact (hget g.long h3.ge j hj).symm
  · exact (hget g.lat h4.ge j hj).symm
  · exact (hget g.dates h5.ge j hj).symm
  · exact (hget g.z h6 j hj).symm

/-- C51. At a level where the float has no pressure no cast is comparable. -/
theorem hist_casts_need_pressure (g : GridData K) (floatPres : List (Option K)) (interpSal interpPres : List (List (Option K)))
    (n : ℕ) (delta : K) (hf : floatPres[n]? = some none) (h : HistData K)
    (hr : processProfileHist g floatPres interpSal interpPres n delta = .ok h) : h = ⟨[], [], [], [], [], []⟩ := by
  have hw : ∀ l : List (Option K), argwhere (within delta none) l = [] := by
    intro l
    rw [List.eq_nil_iff_forall_not_mem]
    intro i hi
    obtain ⟨a, -, hb⟩ := (argwhere_mem _ _ _).1 hi
    simp [within] at hb
  unfold processProfileHist item at hr
  rw [hf] at hr
  simp only [bind, Except.bind, pure, Except.pure] at hr
  repeat' split at hr
  all_goals simp_all [gather, gatherKnown, pure, Except.pure]

/-- C51's hypotheses are met: four casts, one without salinity, one at a distant pressure, one without pressure. -/
example : processProfileHist (⟨[1, 2, 3, 4], [5, 6, 7, 8], [9, 10, 11, 12], [13, 14, 15, 16]⟩ : GridData ℚ) [some 100, some 200]
    [[], [some 35, none, some 36, some 37]] [[], [some 205, some 200, none, some 190]] 1 10 =
    .ok ⟨[35], [205], [1], [5], [9], [13]⟩ := by
  decide +kernel

/-! ## C50 -/

/-- C50. `remove_statical_outliers` removes the given casts from all six arrays and keeps the others in order. -/
theorem remove_outliers_exact (idx : List ℕ) (n : ℕ) (h : HistData K) (ha : HistAligned n h) (hi : ∀ i ∈ idx, i < n) :
    ∃ h' js, removeOutliers idx h = .ok h' ∧ js.Pairwise (· < ·) ∧ (∀ j, j ∈ js ↔ j < n ∧ j ∉ idx) ∧ HistAt h js h' := by
  obtain ⟨h', e, hA⟩ := removeOutliers_at idx n h ha hi
  refine ⟨h', _, e, ?_, ?_, hA⟩
  · exact (List.pairwise_lt_range).filter _
  · intro j; simp

example : removeOutliers [1, 3] (⟨[1, 2, 3, 4], [5, 6, 7, 8], [9, 10, 11, 12], [13, 14, 15, 16], [1, 2, 3, 4], [5, 6, 7, 8]⟩ : HistData ℚ) =
    .ok ⟨[1, 3], [5, 7], [9, 11], [13, 15], [1, 3], [5, 7]⟩ := by
  rfl

/-! ## C49 -/

theorem selectPoint_cases (no : K) (sel : List (Selected K)) (x y : K) :
    (selectPoint no sel x y = sel ∧ ∃ s ∈ sel, CloseTo s.long s.lat x y) ∨
    (selectPoint no sel x y = sel ++ [⟨x, y, no⟩] ∧ ∀ s ∈ sel, ¬ CloseTo s.long s.lat x y) := by
  unfold selectPoint
  simp only
  rw [List.filter_filter]
  split_ifs with h
  · right
    refine ⟨rfl, fun s hs hc => ?_⟩
    have hnil := List.length_eq_zero_iff.1 h
    rw [List.filter_eq_nil_iff] at hnil
    apply hnil s hs
    simpa [CloseTo, and_comm] using hc
  · left
    refine ⟨rfl, ?_⟩
    obtain ⟨s, hs⟩ := List.exists_mem_of_length_pos (Nat.pos_of_ne_zero h)
    obtain ⟨h1, h2⟩ := List.mem_filter.1 hs
    exact ⟨s, h1, by simpa [CloseTo, and_comm] using h2⟩

theorem closeTo_self (x y : K) : CloseTo x y x y := by
  unfold CloseTo; simp

theorem selectFold (no : K) (pts : List (K × K)) (sel : List (Selected K)) (hsep : WellSeparated sel) :
    let r := pts.foldl (fun s p => selectPoint no s p.1 p.2) sel
    sel <+: r ∧ WellSeparated r ∧ (∀ p ∈ pts, ∃ s ∈ r, CloseTo s.long s.lat p.1 p.2) ∧
      ∀ s ∈ r, s ∈ sel ∨ (s.profileNo = no ∧ (s.long, s.lat) ∈ pts) := by
  induction pts generalizing sel with
  | nil => exact ⟨List.prefix_rfl, hsep, by simp, fun s hs => Or.inl hs⟩
  | cons p pts ih =>
    simp only [List.foldl_cons]
    rcases selectPoint_cases no sel p.1 p.2 with ⟨e, s0, hs0, hc0⟩ | ⟨e, hfar⟩
    · rw [e]
      obtain ⟨i1, i2, i3, i4⟩ := ih sel hsep
      refine ⟨i1, i2, ?_, ?_⟩
      · intro q hq
        rcases List.mem_cons.1 hq with rfl | hq
        · exact ⟨s0, i1.subset hs0, hc0⟩
        · exact i3 q hq
      · intro s hs
        rcases i4 s hs with h | ⟨h, h'⟩
        · exact Or.inl h
        · exact Or.inr ⟨h, List.mem_cons_of_mem _ h'⟩
    · rw [e]
      have hsep' : WellSeparated (sel ++ [(⟨p.1, p.2, no⟩ : Selected K)]) := by
        unfold WellSeparated
        rw [List.pairwise_append]
        refine ⟨hsep, by simp, ?_⟩
        intro a ha b hb
        rw [List.mem_singleton] at hb
        subst hb
        exact hfar a ha
      obtain ⟨i1, i2, i3, i4⟩ := ih _ hsep'
      refine ⟨(List.prefix_append _ _).trans i1, i2, ?_, ?_⟩
      · intro q hq
        rcases List.mem_cons.1 hq with rfl | hq
        · exact ⟨⟨q.1, q.2, no⟩, i1.subset (by simp), closeTo_self _ _⟩
        · exact i3 q hq
      · intro s hs
        rcases i4 s hs with h | ⟨h, h'⟩
        · rcases List.mem_append.1 h with h | h
          · exact Or.inl h
          · rw [List.mem_singleton] at h
            subst h
            exact Or.inr ⟨rfl, by simp⟩
        · exact Or.inr ⟨h, List.mem_cons_of_mem _ h'⟩

/-- C49. One call: earlier selections stay first, the selection stays well separated, every cast offered is close to a selected point, and
new points are casts of this call with this profile number. -/
theorem selected_points_spec (no : K) (sel : List (Selected K)) (h : HistData K) (hsep : WellSeparated sel)
    (hl : h.long.length = h.lat.length) (hne : 0 < h.long.length) :
    ∃ r, selectedHistoricalPoints no sel h = .ok r ∧ sel <+: r ∧ WellSeparated r ∧
      (∀ (j : ℕ) (x y : K), h.long[j]? = some x → h.lat[j]? = some y → ∃ s ∈ r, CloseTo s.long s.lat x y) ∧
      ∀ s ∈ r, s ∈ sel ∨ (s.profileNo = no ∧ ∃ j : ℕ, h.long[j]? = some s.long ∧ h.lat[j]? = some s.lat) := by
  have : Inhabited K := ⟨0⟩
  have hlats : gather h.lat (List.range h.long.length) = .ok h.lat := by
    rw [hl, gather_ok h.lat _ (by simp), map_getElem!_range]
  have hzip : ∀ (j : ℕ) (x y : K), h.long[j]? = some x → h.lat[j]? = some y → (x, y) ∈ h.long.zip h.lat := by
    intro j x y h1 h2
    refine List.mem_of_getElem? (i := j) ?_
    rw [List.getElem?_zip_eq_some]; exact ⟨h1, h2⟩
  have hzip' : ∀ x y : K, (x, y) ∈ h.long.zip h.lat → ∃ j : ℕ, h.long[j]? = some x ∧ h.lat[j]? = some y := by
    intro x y hm
    obtain ⟨j, hj⟩ := List.mem_iff_getElem?.1 hm
    rw [List.getElem?_zip_eq_some] at hj
    exact ⟨j, hj⟩
  unfold selectedHistoricalPoints
  by_cases hz : sel.length = 0
  · have hnil := List.length_eq_zero_iff.1 hz
    subst hnil
    obtain ⟨x0, hx0⟩ : ∃ x, h.long[0]? = some x := ⟨_, List.getElem?_eq_getElem hne⟩
    obtain ⟨y0, hy0⟩ : ∃ y, h.lat[0]? = some y := ⟨_, List.getElem?_eq_getElem (hl ▸ hne)⟩
    have hsep1 : WellSeparated [(⟨x0, y0, no⟩ : Selected K)] := by simp [WellSeparated]
    obtain ⟨i1, i2, i3, i4⟩ := selectFold no (h.long.zip h.lat) [(⟨x0, y0, no⟩ : Selected K)] hsep1
    refine ⟨_, ?_, List.nil_prefix, i2, fun j x y h1 h2 => i3 (x, y) (hzip j x y h1 h2), ?_⟩
    · simp only [List.length_nil, if_true, item, hx0, hy0, hlats, bind, Except.bind, pure, Except.pure]
    · intro s hs
      right
      rcases i4 s hs with hh | ⟨hh, h'⟩
      · rw [List.mem_singleton] at hh
        subst hh
        exact ⟨rfl, 0, hx0, hy0⟩
      · exact ⟨hh, hzip' _ _ h'⟩
  · obtain ⟨i1, i2, i3, i4⟩ := selectFold no (h.long.zip h.lat) sel hsep
    refine ⟨_, ?_, i1, i2, fun j x y h1 h2 => i3 (x, y) (hzip j x y h1 h2), ?_⟩
    · simp only [hz, if_false, hlats, bind, Except.bind, pure, Except.pure]
    · intro s hs
      rcases i4 s hs with hh | ⟨hh, h'⟩
      · exact Or.inl hh
      · exact Or.inr ⟨hh, hzip' _ _ h'⟩

/-- A history of calls: profile numbers with the casts offered. -/
def selectAll (sel : List (Selected K)) : List (K × HistData K) → Except PyErr (List (Selected K))
  | [] => .ok sel
  | (no, h) :: rest => do
    let s ← selectedHistoricalPoints no sel h
    selectAll s rest

/-- C49. Every history of calls that starts without a selection ends with a well separated one that is close to every cast ever offered. -/
theorem selected_points_history (calls : List (K × HistData K))
    (hc : ∀ c ∈ calls, c.2.long.length = c.2.lat.length ∧ 0 < c.2.long.length) :
    ∃ r, selectAll [] calls = .ok r ∧ WellSeparated r ∧
      (∀ c ∈ calls, ∀ (j : ℕ) (x y : K), c.2.long[j]? = some x → c.2.lat[j]? = some y → ∃ s ∈ r, CloseTo s.long s.lat x y) ∧
      ∀ s ∈ r, ∃ c ∈ calls, s.profileNo = c.1 ∧ ∃ j : ℕ, c.2.long[j]? = some s.long ∧ c.2.lat[j]? = some s.lat := by
  have gen : ∀ (calls : List (K × HistData K)) (sel : List (Selected K)),
      (∀ c ∈ calls, c.2.long.length = c.2.lat.length ∧ 0 < c.2.long.length) → WellSeparated sel →
      ∃ r, selectAll sel calls = .ok r ∧ sel <+: r ∧ WellSeparated r ∧
        (∀ c ∈ calls, ∀ (j : ℕ) (x y : K), c.2.long[j]? = some x → c.2.lat[j]? = some y → ∃ s ∈ r, CloseTo s.long s.lat x y) ∧
        ∀ s ∈ r, s ∈ sel ∨ ∃ c ∈ calls, s.profileNo = c.1 ∧ ∃ j : ℕ, c.2.long[j]? = some s.long ∧ c.2.lat[j]? = some s.lat := by
    intro calls
    induction calls with
    | nil => intro sel _ hs; exact ⟨sel, rfl, List.prefix_rfl, hs, by simp, fun s h => Or.inl h⟩
    | cons c calls ih =>
      intro sel hc hs
      obtain ⟨hl, hne⟩ := hc c (by simp)
      obtain ⟨r1, e1, p1, s1, c1, m1⟩ := selected_points_spec c.1 sel c.2 hs hl hne
      obtain ⟨r, e, p2, s2, c2, m2⟩ := ih r1 (fun d hd => hc d (by simp [hd])) s1
      refine ⟨r, ?_, p1.trans p2, s2, ?_, ?_⟩
      · simp only [selectAll, e1, bind, Except.bind, e]
      · intro d hd j x y h1 h2
        rcases List.mem_cons.1 hd with rfl | hd
        · obtain ⟨s, hs, hcl⟩ := c1 j x y h1 h2
          exact ⟨s, p2.subset hs, hcl⟩
        · exact c2 d hd j x y h1 h2
      · intro s hs
        rcases m2 s hs with h | ⟨d, hd, h⟩
        · rcases m1 s h with h | h
          · exact Or.inl h
          · exact Or.inr ⟨c, by simp, h⟩
        · exact Or.inr ⟨d, by simp [hd], h⟩
  obtain ⟨r, e, -, h2, h3, h4⟩ := gen calls [] hc (by simp [WellSeparated])
  exact ⟨r, e, h2, h3, fun s hs => (h4 s hs).resolve_left (by simp)⟩

/-- C49. A first call without casts fails. -/
theorem selected_points_no_cast (no : K) (h : HistData K) (hl : h.long = []) :
    selectedHistoricalPoints no [] h = .error .indexError := by
  unfold selectedHistoricalPoints item
  simp [hl, bind, Except.bind]

/-- Two casts closer than a sixtieth of a degree in longitude but not in latitude are both kept; a third one close to the first is not. -/
example : selectedHistoricalPoints (7 : ℚ) [] ⟨[], [], [10, 10, 10 + 1 / 100], [20, 21, 20 + 1 / 100], [], []⟩ =
    .ok [⟨10, 20, 7⟩, ⟨10, 21, 7⟩] := by
  decide +kernel

end Verif.Props
