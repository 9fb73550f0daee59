import Verif.Spec.Region
import Verif.Lemmas.Helper
import Verif.Lemmas.Utilities
import Mathlib.Tactic.Ring

set_option linter.unusedSectionVars false

namespace Verif.Region

open Verif.Np Verif.Utilities Verif.Helper Verif.Spec

variable {K : Type} [Field K] [LinearOrder K] [IsStrictOrderedRing K]

/-! ## npDelete of argwhere -/

theorem range_filterMap_get {ι β : Type} (Q : ι → Bool) (g : ι → β) (l : List ι) :
    (((List.range l.length).filter fun (i : ℕ) => !((l[i]?).any Q)).filterMap fun (i : ℕ) => (l.map g)[i]?) =
      (l.filter fun a => !Q a).map g := by
  induction l using List.reverseRecOn with
  | nil => rfl
  | append_singleton l a ih =>
    rw [List.length_append, List.length_singleton, List.range_succ, List.filter_append, List.filterMap_append,
      List.filter_append, List.map_append, List.map_append]
    congr 1
    · rw [← ih]
      have hf : (List.range l.length).filter (fun (i : ℕ) => !(((l ++ [a])[i]?).any Q)) =
          (List.range l.length).filter (fun (i : ℕ) => !((l[i]?).any Q)) := by
        apply List.filter_congr
        intro i hi
        rw [List.mem_range] at hi
        rw [List.getElem?_append_left hi]
      rw [hf]
      apply List.filterMap_congr
      intro i hi
      have hi' : i < l.length := List.mem_range.1 (List.mem_filter.1 hi).1
      rw [List.getElem?_append_left (by simpa using hi')]
    · by_cases hQ : Q a <;> simp [hQ]

theorem npDelete_argwhere {ι α β : Type} (P : α → Bool) (f : ι → α) (g : ι → β) (l : List ι) :
    npDelete (l.map g) (argwhere P (l.map f)) = .ok ((l.filter fun a => !P (f a)).map g) := by
  unfold npDelete
  rw [if_pos]
  · rw [← range_filterMap_get (fun a => P (f a)) g l]
    congr 2
    rw [List.length_map]
    apply List.filter_congr
    intro i _
    have : i ∈ argwhere P (l.map f) ↔ (l[i]?).any (fun a => P (f a)) = true := by
      rw [argwhere_mem]
      simp only [List.getElem?_map]
      cases l[i]? with
      | none => simp
      | some a => simp
    by_cases h : (l[i]?).any (fun a => P (f a)) = true
    · simp [this, h]
    · simp [this, h]
  · simp only [List.all_eq_true, decide_eq_true_eq]
    intro i hi
    have := argwhere_lt _ _ _ hi
    simpa using this

/-! ## One cast -/

theorem levels_split (c : RefCast K) (n : ℕ) (h1 : c.pres.length = n) (h2 : c.sal.length = n) (h3 : c.ptmp.length = n) :
    c.pres = (levelsOf c).map (·.1) ∧ c.ptmp = (levelsOf c).map (·.2.1) ∧ c.sal = (levelsOf c).map (·.2.2) := by
  unfold levelsOf
  refine ⟨?_, ?_, ?_⟩
  · rw [List.map_fst_zip (by rw [List.length_zip]; omega)]
  · have : (c.pres.zip (c.ptmp.zip c.sal)).map (fun l : CastLevel K => l.2.1) =
        ((c.pres.zip (c.ptmp.zip c.sal)).map (·.2)).map (·.1) := by rw [List.map_map]; rfl
    rw [this, List.map_snd_zip (by rw [List.length_zip]; omega), List.map_fst_zip (by omega)]
  · have : (c.pres.zip (c.ptmp.zip c.sal)).map (fun l : CastLevel K => l.2.2) =
        ((c.pres.zip (c.ptmp.zip c.sal)).map (·.2)).map (·.2) := by rw [List.map_map]; rfl
    rw [this, List.map_snd_zip (by rw [List.length_zip]; omega), List.map_snd_zip (by omega)]

theorem usable_filter (limit : Option K) (c : RefCast K) :
    ((levelsOf c).filter fun l => l.1.isSome).filter (fun l => !tooDeep limit l.1) = usableLevels limit c := by
  unfold usableLevels
  rw [List.filter_filter]
  apply List.filter_congr
  rintro ⟨p, t, s⟩ _
  unfold UsableLevel
  cases p with
  | none => simp
  | some p =>
    cases limit with
    | none => simp [tooDeep]
    | some m =>
      by_cases h : p ≤ m
      · simp [tooDeep, h]
      · simp [tooDeep, h, not_le.1 h]

theorem castLevels_ok (limit : Option K) (c : RefCast K) (n : ℕ) (h1 : c.pres.length = n) (h2 : c.sal.length = n)
    (h3 : c.ptmp.length = n) :
    castLevels limit c = .ok ((usableLevels limit c).map (·.1), (usableLevels limit c).map (·.2.1),
      (usableLevels limit c).map (·.2.2)) := by
  obtain ⟨e1, e2, e3⟩ := levels_split c n h1 h2 h3
  unfold castLevels
  rw [e1, e2, e3]
  simp only [gather_argwhere Option.isSome (fun l : CastLevel K => l.1) _ (levelsOf c)]
  simp only [bind, Except.bind]
  have := fun g : CastLevel K → Option K => npDelete_argwhere (tooDeep limit) (fun l : CastLevel K => l.1) g
    ((levelsOf c).filter fun l => l.1.isSome)
  simp only [this, usable_filter]
  rfl

/-! ## Reshaping -/

theorem chunks {α : Type} (l : List (List α)) (c : ℕ) (h : ∀ r ∈ l, r.length = c) :
    (List.range l.length).map (fun (i : ℕ) => (l.flatten.drop (i * c)).take c) = l := by
  induction l with
  | nil => rfl
  | cons a l ih =>
    rw [List.length_cons, List.range_succ_eq_map, List.map_cons, List.map_map]
    have ha : a.length = c := h a (by simp)
    congr 1
    · simp [← ha]
    · conv_rhs => rw [← ih (fun r hr => h r (by simp [hr]))]
      apply List.map_congr_left
      intro i _
      simp only [Function.comp, List.flatten_cons]
      rw [List.drop_append_of_le_length' i c a l.flatten ha]
where
  List.drop_append_of_le_length' {α : Type} (i c : ℕ) (a b : List α) (ha : a.length = c) :
      (a ++ b).drop ((i + 1) * c) = b.drop (i * c) := by
    rw [List.drop_append, List.drop_eq_nil_of_le (by rw [ha]; nlinarith)]
    rw [List.nil_append]
    congr 1
    rw [ha, Nat.add_mul, Nat.one_mul, Nat.add_sub_cancel]

theorem flatten_len {α : Type} (l : List (List α)) (c : ℕ) (h : ∀ r ∈ l, r.length = c) :
    l.flatten.length = l.length * c := by
  induction l with
  | nil => simp
  | cons a l ih =>
    rw [List.flatten_cons, List.length_append, ih (fun r hr => h r (by simp [hr])), h a (by simp),
      List.length_cons]
    ring

theorem reshape_append {α : Type} (grid : List (List α)) (row : List α) (c : ℕ) (h : ∀ r ∈ grid, r.length = c)
    (hr : row.length = c) : reshape (grid.flatten ++ row) (grid.length + 1) c = .ok (grid ++ [row]) := by
  have e : grid.flatten ++ row = (grid ++ [row]).flatten := by simp
  have h' : ∀ r ∈ grid ++ [row], r.length = c := by
    intro r hr'
    rcases List.mem_append.1 hr' with h1 | h1
    · exact h r h1
    · rw [List.mem_singleton.1 h1, hr]
  unfold reshape
  rw [e, if_pos (by rw [flatten_len _ c h']; simp)]
  have := chunks (grid ++ [row]) c h'
  rw [List.length_append, List.length_singleton] at this
  rw [this]

/-! ## The loop invariant -/

/-- The usable levels of a cast filled up to `d` levels. -/
noncomputable def padCol (limit : Option K) (d : ℕ) (c : RefCast K) : List (CastLevel K) :=
  usableLevels limit c ++ List.replicate (d - (usableLevels limit c).length) (none, none, none)

/-- The state holds exactly the casts `sel`. -/
structure Good (limit : Option K) (sel : List (RefCast K)) (st : RegionState K) : Prop where
  pres : st.pres = sel.map fun c => (padCol limit (depthOf limit sel) c).map (·.1)
  ptmp : st.ptmp = sel.map fun c => (padCol limit (depthOf limit sel) c).map (·.2.1)
  sal : st.sal = sel.map fun c => (padCol limit (depthOf limit sel) c).map (·.2.2)
  lat : st.lat = sel.map (·.lat)
  long : st.long = sel.map (·.long)
  dates : st.dates = sel.map (·.date)
  maxDepth : st.maxDepth = depthOf limit sel
  cols : st.cols = sel.length

theorem le_depthOf (limit : Option K) (sel : List (RefCast K)) (c : RefCast K) (hc : c ∈ sel) :
    (usableLevels limit c).length ≤ depthOf limit sel := by
  unfold depthOf
  induction sel with
  | nil => cases hc
  | cons a l ih =>
    simp only [List.map_cons, List.foldr_cons]
    rcases List.mem_cons.1 hc with rfl | h
    · exact le_max_left _ _
    · exact le_trans (ih h) (le_max_right _ _)

theorem depthOf_append (limit : Option K) (sel : List (RefCast K)) (c : RefCast K) :
    depthOf limit (sel ++ [c]) = max (usableLevels limit c).length (depthOf limit sel) := by
  unfold depthOf
  induction sel with
  | nil => simp
  | cons a l ih =>
    simp only [List.cons_append, List.map_cons, List.foldr_cons] at ih ⊢
    rw [ih]
    omega

theorem padCol_length (limit : Option K) (d : ℕ) (c : RefCast K) (h : (usableLevels limit c).length ≤ d) :
    (padCol limit d c).length = d := by
  unfold padCol
  rw [List.length_append, List.length_replicate]; omega

theorem padCol_widen (limit : Option K) (d d' : ℕ) (c : RefCast K) (h : (usableLevels limit c).length ≤ d)
    (hd : d ≤ d') : padCol limit d c ++ List.replicate (d' - d) (none, none, none) = padCol limit d' c := by
  unfold padCol
  rw [List.append_assoc, ← List.replicate_add]
  congr 2
  omega

theorem mem_index_iff (index : List ℕ) (k : ℕ) :
    (argwhere (fun (j : ℕ) => decide (j = k)) index).length > 0 ↔ k ∈ index := by
  constructor
  · intro h
    obtain ⟨i, hi⟩ := List.exists_mem_of_length_pos h
    rw [argwhere_mem] at hi
    obtain ⟨a, ha, hk⟩ := hi
    rw [decide_eq_true_eq] at hk
    subst hk
    exact List.mem_of_getElem? ha
  · intro h
    obtain ⟨i, hi⟩ := List.mem_iff_getElem?.1 h
    exact List.length_pos_of_mem ((argwhere_mem _ _ i).2 ⟨k, hi, by simp⟩)

/-- Rows after the padding, for one of the three columns. -/
theorem addRow_good (limit : Option K) (sel : List (RefCast K)) (c : RefCast K) (f : CastLevel K → Option K)
    (hf : f (none, none, none) = none)
    (hcase : sel = [] ∨ 0 < depthOf limit sel ∨ (usableLevels limit c).length = 0) :
    addRow (decide (sel.length = 0))
      (if decide ((usableLevels limit c).length > depthOf limit sel ∧ depthOf limit sel ≠ 0) then
        widen (sel.map fun c => (padCol limit (depthOf limit sel) c).map f) (depthOf limit sel) (usableLevels limit c).length
        else sel.map fun c => (padCol limit (depthOf limit sel) c).map f)
      ((usableLevels limit c).map f ++
        (if ¬ decide ((usableLevels limit c).length > depthOf limit sel ∧ depthOf limit sel ≠ 0) = true ∧
          (usableLevels limit c).length < depthOf limit sel then
          List.replicate (depthOf limit sel - (usableLevels limit c).length) none else []))
      sel.length (max (usableLevels limit c).length (depthOf limit sel)) =
    .ok ((sel ++ [c]).map fun c' => (padCol limit (depthOf limit (sel ++ [c])) c').map f) := by
  rw [depthOf_append]
  have hle : ∀ c' ∈ sel, (usableLevels limit c').length ≤ depthOf limit sel := fun c' h => le_depthOf limit sel c' h
  generalize depthOf limit sel = d at *
  generalize hu : (usableLevels limit c).length = n at *
  have hpadc : ∀ m, n ≤ m → (usableLevels limit c).map f ++ List.replicate (m - n) none = (padCol limit m c).map f := by
    intro m _
    unfold padCol
    rw [List.map_append, List.map_replicate, hf, hu]
  by_cases hs : sel = []
  · subst hs
    have hd : d = 0 ∨ True := Or.inr trivial
    simp only [addRow, List.length_nil, decide_true, if_true, List.nil_append, List.map_cons, List.map_nil]
    congr 2
    by_cases hg : n > d ∧ d ≠ 0
    · rw [if_neg (by simp [hg]), ← hpadc _ (le_max_left n d), max_eq_left hg.1.le]; simp
    · by_cases hlt : n < d
      · rw [if_pos ⟨by simpa using hg, hlt⟩, max_eq_right hlt.le, hpadc d hlt.le]
      · rw [if_neg (fun h => hlt h.2), max_eq_left (not_lt.1 hlt), ← hpadc n le_rfl]; simp
  · have hs' : sel.length ≠ 0 := fun h => hs (List.length_eq_zero_iff.1 h)
    have hlen : ∀ m, d ≤ m → ∀ r ∈ sel.map (fun c => (padCol limit m c).map f), r.length = m := by
      intro m hm r hr
      obtain ⟨c', hc', rfl⟩ := List.mem_map.1 hr
      rw [List.length_map, padCol_length _ _ _ (le_trans (hle c' hc') hm)]
    have hrow : ∀ m, n ≤ m → ((padCol limit m c).map f).length = m := by
      intro m hm
      rw [List.length_map, padCol_length _ _ _ (by omega)]
    simp only [addRow, hs', decide_false, Bool.false_eq_true, if_false]
    by_cases hg : n > d ∧ d ≠ 0
    · rw [if_pos (by simpa using hg), if_neg (by simp [hg]), max_eq_left hg.1.le, List.append_nil]
      have hw : widen (sel.map fun c => (padCol limit d c).map f) d n =
          sel.map fun c => (padCol limit n c).map f := by
        unfold widen
        rw [List.map_map]
        apply List.map_congr_left
        intro c' hc'
        simp only [Function.comp]
        rw [← padCol_widen limit d n c' (hle c' hc') hg.1.le, List.map_append, List.map_replicate, hf]
      have hc : (usableLevels limit c).map f = (padCol limit n c).map f := by
        rw [← hpadc n le_rfl]; simp
      rw [hw, hc]
      have := reshape_append (sel.map fun c => (padCol limit n c).map f) _ n (hlen n hg.1.le) (hrow n le_rfl)
      rw [List.length_map] at this
      rw [this, List.map_append]
      rfl
    · have hnd : n ≤ d := by
        rcases hcase with h | h | h
        · exact absurd h hs
        · by_contra hc
          exact hg ⟨not_le.1 hc, by omega⟩
        · omega
      rw [if_neg (by simpa using hg), max_eq_right hnd]
      have hc : (usableLevels limit c).map f ++ (if ¬ decide (n > d ∧ d ≠ 0) = true ∧ n < d then
          List.replicate (d - n) none else []) = (padCol limit d c).map f := by
        by_cases hlt : n < d
        · rw [if_pos ⟨by simpa using hg, hlt⟩, hpadc d hnd]
        · have : n = d := le_antisymm hnd (not_lt.1 hlt)
          rw [if_neg (fun h => hlt h.2), ← hpadc d hnd, this]; simp
      rw [hc]
      have := reshape_append (sel.map fun c => (padCol limit d c).map f) _ d (hlen d le_rfl) (hrow d hnd)
      rw [List.length_map] at this
      rw [this, List.map_append]
      rfl

theorem loadCast_good (limit : Option K) (index : List ℕ) (levels : ℕ) (hl : 2 ≤ levels) (sel : List (RefCast K))
    (st : RegionState K) (hG : Good limit sel st) (c : RefCast K) (k : ℕ) (hk : k ∈ index)
    (h1 : c.pres.length = levels) (h2 : c.sal.length = levels) (h3 : c.ptmp.length = levels)
    (hcase : sel = [] ∨ 0 < depthOf limit sel ∨ (usableLevels limit c).length = 0) :
    ∃ st', loadCast index limit levels st c k = .ok st' ∧ Good limit (sel ++ [c]) st' ∧ st'.start = st.start := by
  unfold loadCast
  rw [if_pos ((mem_index_iff index k).2 hk), if_neg (by omega), castLevels_ok limit c levels h1 h2 h3]
  simp only [bind, Except.bind]
  have hlen : (if decide ((usableLevels limit c).length > depthOf limit sel ∧ depthOf limit sel ≠ 0) then
        widen (sel.map fun c => (padCol limit (depthOf limit sel) c).map (fun l : CastLevel K => l.1)) (depthOf limit sel)
          (usableLevels limit c).length
        else sel.map fun c => (padCol limit (depthOf limit sel) c).map (fun l : CastLevel K => l.1)).length = sel.length := by
    split
    · simp [widen]
    · simp
  rw [hG.pres, hG.ptmp, hG.sal, hG.maxDepth, hG.cols, hG.lat, hG.long, hG.dates, List.length_map, hlen]
  have a1 := addRow_good limit sel c (fun l => l.1) rfl hcase
  have a2 := addRow_good limit sel c (fun l => l.2.1) rfl hcase
  have a3 := addRow_good limit sel c (fun l => l.2.2) rfl hcase
  rw [a1, a2, a3]
  refine ⟨_, rfl, ⟨rfl, rfl, rfl, by simp, by simp, by simp, ?_, by simp⟩, rfl⟩
  dsimp only
  have hh : (((sel ++ [c]).map fun c' => (padCol limit (depthOf limit (sel ++ [c])) c').map
      (fun l : CastLevel K => l.1)).headD []).length = depthOf limit (sel ++ [c]) := by
    obtain ⟨c0, l0, he⟩ : ∃ c0 l0, sel ++ [c] = c0 :: l0 := by
      cases hs : sel with
      | nil => exact ⟨c, [], rfl⟩
      | cons a l => exact ⟨a, l ++ [c], rfl⟩
    rw [he]
    simp only [List.map_cons, List.headD_cons, List.length_map]
    rw [padCol_length]
    exact le_depthOf _ _ _ (by simp)
  exact hh

theorem loadCast_skip (limit : Option K) (index : List ℕ) (levels : ℕ) (st : RegionState K) (c : RefCast K) (k : ℕ)
    (hk : k ∉ index) : loadCast index limit levels st c k = .ok st := by
  unfold loadCast
  rw [if_neg (fun h => hk ((mem_index_iff index k).1 h))]

/-- With only empty casts loaded, a cast with data cannot be added. -/
theorem loadCast_stuck (limit : Option K) (index : List ℕ) (levels : ℕ) (hl : 2 ≤ levels) (sel : List (RefCast K))
    (hs : sel ≠ []) (st : RegionState K) (hG : Good limit sel st) (hd : depthOf limit sel = 0) (c : RefCast K) (k : ℕ)
    (hk : k ∈ index) (h1 : c.pres.length = levels) (h2 : c.sal.length = levels) (h3 : c.ptmp.length = levels)
    (hu : 0 < (usableLevels limit c).length) :
    loadCast index limit levels st c k = .error .valueError := by
  unfold loadCast
  rw [if_pos ((mem_index_iff index k).2 hk), if_neg (by omega), castLevels_ok limit c levels h1 h2 h3]
  simp only [bind, Except.bind]
  have hs' : sel.length ≠ 0 := fun h => hs (List.length_eq_zero_iff.1 h)
  rw [hG.pres, hG.maxDepth, hG.cols, hd]
  have hw : ¬ ((usableLevels limit c).map (fun l : CastLevel K => l.1)).length < 0 := by omega
  simp only [ne_eq, not_true_eq_false, and_false, decide_false, Bool.false_eq_true, if_false, addRow, List.length_map, hs',
    Nat.not_lt_zero, List.append_nil]
  have hz : (sel.map fun c => (padCol limit 0 c).map (fun l : CastLevel K => l.1)).flatten.length = 0 := by
    rw [flatten_len _ 0]
    · simp
    · intro r hr
      obtain ⟨c', hc', rfl⟩ := List.mem_map.1 hr
      have := le_depthOf limit sel c' hc'
      rw [List.length_map, padCol_length _ _ _ (by omega)]
  have hr : reshape ((sel.map fun c => (padCol limit 0 c).map (fun l : CastLevel K => l.1)).flatten ++
      (usableLevels limit c).map (fun l : CastLevel K => l.1)) (sel.length + 1) (max (usableLevels limit c).length 0) =
      .error .valueError := by
    unfold reshape
    rw [if_neg]
    rw [List.length_append, hz, List.length_map, Nat.max_zero, Nat.zero_add]
    intro h
    have : 1 * (usableLevels limit c).length < (sel.length + 1) * (usableLevels limit c).length :=
      Nat.mul_lt_mul_of_pos_right (by omega) hu
    omega
  rw [hr]

end Verif.Region
