import Verif.Lemmas.Region

set_option linter.unusedSectionVars false

namespace Verif.Region

open Verif.Np Verif.Utilities Verif.Helper Verif.Spec

variable {K : Type} [Field K] [LinearOrder K] [IsStrictOrderedRing K]

/-- The chosen casts of a list whose first cast has number `k`. -/
def selFrom (index : List ℕ) (k : ℕ) (casts : List (RefCast K)) : List (RefCast K) :=
  ((casts.zipIdx k).filter fun p => decide (p.2 ∈ index)).map (·.1)

theorem selFrom_nil (index : List ℕ) (k : ℕ) : selFrom index k ([] : List (RefCast K)) = [] := rfl

theorem selFrom_cons (index : List ℕ) (k : ℕ) (c : RefCast K) (cs : List (RefCast K)) :
    selFrom index k (c :: cs) = (if k ∈ index then [c] else []) ++ selFrom index (k + 1) cs := by
  unfold selFrom
  rw [List.zipIdx_cons, List.filter_cons]
  by_cases h : k ∈ index <;> simp [h]

theorem selFrom_append (index : List ℕ) (k : ℕ) (a b : List (RefCast K)) :
    selFrom index k (a ++ b) = selFrom index k a ++ selFrom index (k + a.length) b := by
  unfold selFrom
  rw [List.zipIdx_append, List.filter_append, List.map_append]

theorem selFrom_mem (index : List ℕ) (k : ℕ) (a : List (RefCast K)) (c : RefCast K) (h : c ∈ selFrom index k a) :
    c ∈ a := by
  induction a generalizing k with
  | nil => simp [selFrom_nil] at h
  | cons x xs ih =>
    rw [selFrom_cons, List.mem_append] at h
    rcases h with h | h
    · split at h
      · rw [List.mem_singleton] at h; simp [h]
      · simp at h
    · exact List.mem_cons_of_mem _ (ih _ h)

/-- All casts have `levels` rows. -/
def CastsOk (levels : ℕ) (casts : List (RefCast K)) : Prop :=
  2 ≤ levels ∧ ∀ c ∈ casts, c.pres.length = levels ∧ c.sal.length = levels ∧ c.ptmp.length = levels

/-- The first cast of the list has a usable level. -/
def HeadOk (limit : Option K) (l : List (RefCast K)) : Prop :=
  ∀ c l', l = c :: l' → 0 < (usableLevels limit c).length

theorem headOk_case (limit : Option K) (sel l : List (RefCast K)) (h : HeadOk limit (sel ++ l)) :
    sel = [] ∨ 0 < depthOf limit sel := by
  cases sel with
  | nil => exact Or.inl rfl
  | cons a s =>
    right
    have := h a (s ++ l) rfl
    exact lt_of_lt_of_le this (le_depthOf _ _ _ (by simp))

theorem loadCasts_good (limit : Option K) (index : List ℕ) (levels : ℕ) (casts : List (RefCast K))
    (hc : CastsOk levels casts) (k : ℕ) (sel : List (RefCast K)) (st : RegionState K) (hG : Good limit sel st)
    (hh : HeadOk limit (sel ++ selFrom index k casts)) :
    Good limit (sel ++ selFrom index k casts) (loadCasts index limit levels st casts k) ∧
      (loadCasts index limit levels st casts k).start = st.start := by
  induction casts generalizing k sel st with
  | nil => simpa [selFrom_nil, loadCasts] using hG
  | cons c cs ih =>
    have hcs : CastsOk levels cs := ⟨hc.1, fun x hx => hc.2 x (by simp [hx])⟩
    obtain ⟨h1, h2, h3⟩ := hc.2 c (by simp)
    rw [selFrom_cons] at hh ⊢
    by_cases hk : k ∈ index
    · rw [if_pos hk] at hh ⊢
      obtain ⟨st', he, hG', hs'⟩ := loadCast_good limit index levels hc.1 sel st hG c k hk h1 h2 h3
        (by rcases headOk_case limit sel _ hh with h | h
            · exact Or.inl h
            · exact Or.inr (Or.inl h))
      have hh' : HeadOk limit ((sel ++ [c]) ++ selFrom index (k + 1) cs) := by
        rw [List.append_assoc]; exact hh
      obtain ⟨g, hs⟩ := ih hcs (k + 1) (sel ++ [c]) st' hG' hh'
      simp only [loadCasts, he]
      rw [← List.append_assoc]
      exact ⟨g, hs.trans hs'⟩
    · rw [if_neg hk, List.nil_append] at hh ⊢
      simp only [loadCasts, loadCast_skip limit index levels st c k hk]
      exact ih hcs (k + 1) sel st hG hh

/-- Only casts without usable levels have been loaded, and at least one. -/
def Stuck (limit : Option K) (st : RegionState K) : Prop :=
  ∃ sel, sel ≠ [] ∧ Good limit sel st ∧ depthOf limit sel = 0

theorem loadCasts_stuck (limit : Option K) (index : List ℕ) (levels : ℕ) (casts : List (RefCast K))
    (hc : CastsOk levels casts) (k : ℕ) (st : RegionState K) (hG : Stuck limit st) :
    Stuck limit (loadCasts index limit levels st casts k) ∧
      (loadCasts index limit levels st casts k).start = st.start := by
  induction casts generalizing k st with
  | nil => exact ⟨hG, rfl⟩
  | cons c cs ih =>
    have hcs : CastsOk levels cs := ⟨hc.1, fun x hx => hc.2 x (by simp [hx])⟩
    obtain ⟨h1, h2, h3⟩ := hc.2 c (by simp)
    by_cases hk : k ∈ index
    · obtain ⟨sel, hs, hg, hd⟩ := hG
      by_cases hu : (usableLevels limit c).length = 0
      · obtain ⟨st', he, hG', hs'⟩ := loadCast_good limit index levels hc.1 sel st hg c k hk h1 h2 h3
          (Or.inr (Or.inr hu))
        simp only [loadCasts, he]
        obtain ⟨a, b⟩ := ih hcs (k + 1) st' ⟨sel ++ [c], by simp, hG', by rw [depthOf_append, hu, hd]; rfl⟩
        exact ⟨a, b.trans hs'⟩
      · have he := loadCast_stuck limit index levels hc.1 sel hs st hg hd c k hk h1 h2 h3 (by omega)
        simp only [loadCasts, he]
        exact ⟨⟨sel, hs, hg, hd⟩, trivial⟩
    · simp only [loadCasts, loadCast_skip limit index levels st c k hk]
      exact ih hcs (k + 1) st hG

theorem loadCasts_first_empty (limit : Option K) (index : List ℕ) (levels : ℕ) (casts : List (RefCast K))
    (hc : CastsOk levels casts) (k : ℕ) (st : RegionState K) (hG : Good limit [] st) (c0 : RefCast K)
    (l0 : List (RefCast K)) (he : selFrom index k casts = c0 :: l0) (hu : (usableLevels limit c0).length = 0) :
    Stuck limit (loadCasts index limit levels st casts k) ∧
      (loadCasts index limit levels st casts k).start = st.start := by
  induction casts generalizing k st with
  | nil => simp [selFrom_nil] at he
  | cons c cs ih =>
    have hcs : CastsOk levels cs := ⟨hc.1, fun x hx => hc.2 x (by simp [hx])⟩
    obtain ⟨h1, h2, h3⟩ := hc.2 c (by simp)
    rw [selFrom_cons] at he
    by_cases hk : k ∈ index
    · rw [if_pos hk] at he
      have hc0 : c = c0 := by simpa using (List.cons.inj he).1
      subst hc0
      obtain ⟨st', he', hG', hs'⟩ := loadCast_good limit index levels hc.1 [] st hG c k hk h1 h2 h3 (Or.inl rfl)
      simp only [loadCasts, he']
      obtain ⟨a, b⟩ := loadCasts_stuck limit index levels cs hcs (k + 1) st'
        ⟨[] ++ [c], by simp, hG', by rw [depthOf_append, hu]; rfl⟩
      exact ⟨a, b.trans hs'⟩
    · rw [if_neg hk, List.nil_append] at he
      simp only [loadCasts, loadCast_skip limit index levels st c k hk]
      exact ih hcs (k + 1) st hG he

/-- The casts that a result of `get_data` contributes. -/
def castsOf (d : Except PyErr (Option (Loaded K))) : List (RefCast K) :=
  match d with
  | .ok (some d) => if d.scalar then [] else d.casts
  | _ => []

/-- The profiles of a result of `get_data` are rectangular with at least two rows. -/
def LoadOk (d : Except PyErr (Option (Loaded K))) : Prop :=
  ∀ l, d = .ok (some l) → l.scalar = false → CastsOk l.levels l.casts

theorem good_start (limit : Option K) (sel : List (RefCast K)) (st : RegionState K) (n : ℕ) (hG : Good limit sel st) :
    Good limit sel { st with start := n } := ⟨hG.1, hG.2, hG.3, hG.4, hG.5, hG.6, hG.7, hG.8⟩

theorem stuck_start (limit : Option K) (st : RegionState K) (n : ℕ) (hG : Stuck limit st) :
    Stuck limit { st with start := n } := by
  obtain ⟨sel, a, b, c⟩ := hG
  exact ⟨sel, a, good_start _ _ _ _ b, c⟩

theorem regionStep_cases (index : List ℕ) (limit : Option K) (st : RegionState K)
    (d : Except PyErr (Option (Loaded K))) (hd : LoadOk d) :
    (castsOf d = [] ∧ regionStep index limit st d = st) ∨
    ∃ levels, CastsOk levels (castsOf d) ∧ regionStep index limit st d =
      loadCasts index limit levels { st with start := st.start + (castsOf d).length } (castsOf d) st.start := by
  match d with
  | .error _ => exact Or.inl ⟨rfl, rfl⟩
  | .ok none => exact Or.inl ⟨rfl, rfl⟩
  | .ok (some l) =>
    by_cases hs : l.scalar = true
    · left; simp [castsOf, regionStep, hs]
    · right
      refine ⟨l.levels, ?_, ?_⟩
      · have := hd l rfl (by simpa using hs)
        simpa [castsOf, hs] using this
      · simp [castsOf, regionStep, hs]

theorem region_fold_good (index : List ℕ) (limit : Option K) (loads : List (Except PyErr (Option (Loaded K))))
    (hd : ∀ d ∈ loads, LoadOk d) (sel : List (RefCast K)) (st : RegionState K) (hG : Good limit sel st)
    (hh : HeadOk limit (sel ++ selFrom index st.start (loads.flatMap castsOf))) :
    Good limit (sel ++ selFrom index st.start (loads.flatMap castsOf)) (loads.foldl (regionStep index limit) st) := by
  induction loads generalizing sel st with
  | nil => simpa [selFrom_nil] using hG
  | cons d ds ih =>
    have hds : ∀ d ∈ ds, LoadOk d := fun x hx => hd x (by simp [hx])
    rw [List.foldl_cons]
    rw [List.flatMap_cons, selFrom_append] at hh ⊢
    rcases regionStep_cases index limit st d (hd d (by simp)) with ⟨h0, he⟩ | ⟨levels, hc, he⟩
    · rw [he]
      rw [h0] at hh ⊢
      simp only [selFrom_nil, List.nil_append, List.length_nil, Nat.add_zero] at hh ⊢
      exact ih hds sel st hG hh
    · rw [he]
      have hh' := hh
      rw [← List.append_assoc] at hh'
      have hh1 : HeadOk limit (sel ++ selFrom index st.start (castsOf d)) := by
        intro c l hcl
        exact hh' c (l ++ selFrom index (st.start + (castsOf d).length) (ds.flatMap castsOf)) (by rw [hcl]; rfl)
      obtain ⟨g, hs⟩ := loadCasts_good limit index levels (castsOf d) hc st.start sel
        { st with start := st.start + (castsOf d).length } (good_start _ _ _ _ hG) hh1
      have := ih hds _ _ g (by rw [hs]; exact hh')
      rw [hs, List.append_assoc] at this
      exact this

theorem region_fold_stuck (index : List ℕ) (limit : Option K) (loads : List (Except PyErr (Option (Loaded K))))
    (hd : ∀ d ∈ loads, LoadOk d) (st : RegionState K) (hG : Stuck limit st) :
    Stuck limit (loads.foldl (regionStep index limit) st) := by
  induction loads generalizing st with
  | nil => exact hG
  | cons d ds ih =>
    have hds : ∀ d ∈ ds, LoadOk d := fun x hx => hd x (by simp [hx])
    rw [List.foldl_cons]
    rcases regionStep_cases index limit st d (hd d (by simp)) with ⟨h0, he⟩ | ⟨levels, hc, he⟩
    · rw [he]; exact ih hds st hG
    · rw [he]
      exact ih hds _ (loadCasts_stuck limit index levels _ hc _ _ (stuck_start _ _ _ hG)).1

theorem region_fold_first_empty (index : List ℕ) (limit : Option K)
    (loads : List (Except PyErr (Option (Loaded K)))) (hd : ∀ d ∈ loads, LoadOk d) (st : RegionState K)
    (hG : Good limit [] st) (c0 : RefCast K) (l0 : List (RefCast K))
    (he0 : selFrom index st.start (loads.flatMap castsOf) = c0 :: l0) (hu : (usableLevels limit c0).length = 0) :
    Stuck limit (loads.foldl (regionStep index limit) st) := by
  induction loads generalizing st with
  | nil => simp [selFrom_nil] at he0
  | cons d ds ih =>
    have hds : ∀ d ∈ ds, LoadOk d := fun x hx => hd x (by simp [hx])
    rw [List.foldl_cons]
    rw [List.flatMap_cons, selFrom_append] at he0
    rcases regionStep_cases index limit st d (hd d (by simp)) with ⟨h0, he⟩ | ⟨levels, hc, he⟩
    · rw [he]
      rw [h0] at he0
      simp only [selFrom_nil, List.nil_append, List.length_nil, Nat.add_zero] at he0
      exact ih hds st hG he0
    · rw [he]
      cases hsel : selFrom index st.start (castsOf d) with
      | nil =>
        rw [hsel, List.nil_append] at he0
        have hh : HeadOk limit ([] ++ selFrom index st.start (castsOf d)) := by
          rw [hsel]; intro c l h; simp at h
        obtain ⟨g, hs⟩ := loadCasts_good limit index levels (castsOf d) hc st.start []
          { st with start := st.start + (castsOf d).length } (good_start _ _ _ _ hG) hh
        rw [hsel] at g
        exact ih hds _ g (by rw [hs]; exact he0)
      | cons c l =>
        rw [hsel] at he0
        have hc0 : c = c0 := by simpa using (List.cons.inj he0).1
        subst hc0
        exact region_fold_stuck index limit ds hds _
          (loadCasts_first_empty limit index levels _ hc _ _ (good_start _ _ _ _ hG) c l hsel hu).1

/-! ## The results of `get_data` -/

theorem getData_casts (disk : Disk K) (hw : WellFormedDisk disk) (name : List Char) (b : WmoBox) (t : ℕ)
    (ht : t = 1 ∨ t = 2 ∨ t = 3) :
    castsOf (getData disk name b t) = fileCasts disk name b t ∧ LoadOk (getData disk name b t) := by
  unfold getData fileCasts
  cases hb : b.number with
  | none => exact ⟨rfl, fun l h => by simp at h⟩
  | some n =>
    dsimp only
    unfold WmoBox.flag
    by_cases hfl : (if t = 1 then b.ctd else if t = 2 then b.bottle else b.argo) = 1
    · rw [if_pos hfl, if_pos hfl]
      cases hdk : disk t n with
      | none => exact ⟨rfl, fun l h => by simp at h⟩
      | some f =>
        dsimp only
        obtain ⟨hl, hcs⟩ := hw t n f hdk
        rcases ht with rfl | rfl | rfl
        · simp only [if_true, readCtd, Except.map, true_or]
          refine ⟨?_, ?_⟩
          · simp only [castsOf, decide_eq_true_eq]
            by_cases h1 : f.casts.length = 1
            · rw [if_pos h1, if_pos (by omega)]
            · rw [if_neg h1]
              by_cases h2 : f.casts.length < 2
              · rw [if_pos h2]; exact List.length_eq_zero_iff.1 (by omega)
              · rw [if_neg h2]
          · intro l hl' _
            simp only [Except.ok.injEq, Option.some.injEq] at hl'
            subst hl'
            exact ⟨hl, hcs⟩
        · simp only [OfNat.ofNat_ne_one, if_false, if_true, readBottle, or_true]
          by_cases h1 : f.casts.length = 1
          · rw [if_pos h1, if_pos (by omega)]
            exact ⟨rfl, fun l h => by simp [Except.map] at h⟩
          · rw [if_neg h1]
            by_cases h2 : f.casts.length = f.casts.length * f.levels
            · rw [if_pos h2]
              have : f.casts.length < 2 := by nlinarith
              rw [if_pos this]
              exact ⟨rfl, fun l h => by simp [Except.map] at h⟩
            · rw [if_neg h2]
              have h0 : f.casts.length ≠ 0 := by intro h; rw [h] at h2; simp at h2
              rw [if_neg (by omega)]
              refine ⟨by simp [castsOf, Except.map], ?_⟩
              intro l hl' _
              simp only [Except.map, Except.ok.injEq, Option.some.injEq] at hl'
              subst hl'
              exact ⟨hl, hcs⟩
        · have e1 : (3 : ℕ) ≠ 1 := by decide
          have e2 : (3 : ℕ) ≠ 2 := by decide
          simp only [e1, e2, if_false, readArgo, or_self]
          by_cases h1 : f.casts.length = 1
          · rw [if_pos h1, if_pos (by omega)]
            exact ⟨rfl, fun l h => by simp [Except.map] at h⟩
          · rw [if_neg h1, if_neg (by omega)]
            have hdel : npDelete f.casts (argwhere (hasName name) f.casts) =
                .ok (f.casts.filter fun c => !hasName name c) := by
              have := npDelete_argwhere (hasName name) (fun c : RefCast K => c) (fun c => c) f.casts
              simpa using this
            rw [hdel]
            have hfe : (f.casts.filter fun c => !hasName name c) =
                f.casts.filter fun c => decide (¬ name <:+: c.source) := by
              apply List.filter_congr
              intro c _
              unfold hasName
              by_cases h : name <:+: c.source <;> simp [h]
            rw [hfe]
            refine ⟨?_, ?_⟩
            · simp only [bind, Except.bind, Except.map, castsOf, Bool.false_eq_true, if_false]
              by_cases h2 : f.casts.length < 2
              · rw [if_pos h2, List.length_eq_zero_iff.1 (by omega : f.casts.length = 0)]; rfl
              · rw [if_neg h2]
            · intro l hl' _
              simp only [bind, Except.bind, Except.map, Except.ok.injEq, Option.some.injEq] at hl'
              subst hl'
              exact ⟨hl, fun c hc => hcs c (List.mem_filter.1 hc).1⟩
    · rw [if_neg hfl, if_neg hfl]
      exact ⟨rfl, fun l h => by simp at h⟩

theorem loads_casts (disk : Disk K) (hw : WellFormedDisk disk) (name : List Char) (boxes : List WmoBox) :
    ((visits boxes).map fun v => getData disk name v.1 v.2).flatMap castsOf = refCasts disk name boxes ∧
      ∀ d ∈ (visits boxes).map (fun v => getData disk name v.1 v.2), LoadOk d := by
  constructor
  · unfold visits refCasts
    induction boxes with
    | nil => rfl
    | cons b bs ih =>
      simp only [List.flatMap_cons, List.map_append, List.flatMap_append, ih]
      congr 1
      simp [getData_casts disk hw name b 1 (by simp), getData_casts disk hw name b 2 (by simp),
        getData_casts disk hw name b 3 (by simp)]
  · intro d hd
    obtain ⟨v, hv, rfl⟩ := List.mem_map.1 hd
    unfold visits at hv
    obtain ⟨b, _, hb⟩ := List.mem_flatMap.1 hv
    obtain ⟨t, ht, rfl⟩ := List.mem_map.1 hb
    exact (getData_casts disk hw name b t (by simpa using ht)).2

theorem hist_fold (loads : List (Except PyErr (Option (Loaded K)))) (st : Locations K) :
    loads.foldl histStep st = (st.1 ++ (loads.flatMap castsOf).map (·.lat), st.2.1 ++ (loads.flatMap castsOf).map (·.long),
      st.2.2 ++ (loads.flatMap castsOf).map (·.date)) := by
  induction loads generalizing st with
  | nil => simp
  | cons d ds ih =>
    rw [List.foldl_cons, ih, List.flatMap_cons]
    match d with
    | .error _ => simp [histStep, castsOf]
    | .ok none => simp [histStep, castsOf]
    | .ok (some l) =>
      by_cases hs : l.scalar = true
      · simp [histStep, castsOf, hs]
      · simp [histStep, castsOf, hs]

/-! ## Removing casts without data -/

/-- A cast of the result. -/
structure OutCast (K : Type) where
  sal : List (Option K)
  ptmp : List (Option K)
  pres : List (Option K)
  lat : Option K
  long : Option K
  date : K

/-- The arrays of a list of casts. -/
def toData (l : List (OutCast K)) : RegionData K :=
  ⟨l.map (·.sal), l.map (·.ptmp), l.map (·.pres), l.map (·.lat), l.map (·.long), l.map (·.date)⟩

/-- The test of `dropStep`. -/
def blank (o : OutCast K) : Bool := o.sal.all Option.isNone || o.pres.all Option.isNone

theorem dropStep_toData (l : List (OutCast K)) (n col : ℕ) (o : OutCast K) (h : l[col - n]? = some o) :
    dropStep (toData l, n) col = if blank o then (toData (l.eraseIdx (col - n)), n + 1) else (toData l, n) := by
  unfold dropStep toData blank
  simp only [List.getElem?_map, h, Option.map_some, Option.getD_some, List.eraseIdx_map]

theorem eraseIdx_middle {α : Type} (a : List α) (x : α) (b : List α) : (a ++ x :: b).eraseIdx a.length = a ++ b := by
  rw [List.eraseIdx_append_of_length_le le_rfl]; simp

theorem drop_fold (l : List (OutCast K)) (k : ℕ) (hk : k ≤ l.length) :
    (List.range k).foldl dropStep (toData l, 0) =
      (toData ((l.take k).filter (fun o => !blank o) ++ l.drop k), k - ((l.take k).filter (fun o => !blank o)).length) := by
  induction k with
  | zero => simp
  | succ k ih =>
    have hkl : k < l.length := by omega
    have hle : ((l.take k).filter (fun o => !blank o)).length ≤ k := by
      refine le_trans (List.length_filter_le _ _) ?_
      rw [List.length_take]; omega
    have hd : l.drop k = l[k] :: l.drop (k + 1) := List.drop_eq_getElem_cons hkl
    have ht : l.take (k + 1) = l.take k ++ [l[k]] := by rw [List.take_succ, List.getElem?_eq_getElem hkl]; rfl
    rw [List.range_succ, List.foldl_append, ih (by omega), List.foldl_cons, List.foldl_nil]
    set A := (l.take k).filter (fun o => !blank o) with hA
    have hj : k - (k - A.length) = A.length := by omega
    rw [dropStep_toData _ _ _ l[k] (by
      rw [hj, List.getElem?_append_right le_rfl, hd, Nat.sub_self, List.getElem?_cons_zero])]
    rw [ht, List.filter_append, ← hA, hj, hd]
    by_cases hb : blank l[k] = true
    · rw [if_pos hb, eraseIdx_middle]
      simp [hb]; omega
    · rw [if_neg hb]
      simp [hb]

theorem drop_all (l : List (OutCast K)) :
    ((List.range (toData l).sal.length).foldl dropStep (toData l, 0)).1 = toData (l.filter fun o => !blank o) := by
  have : (toData l).sal.length = l.length := by simp [toData]
  rw [this, drop_fold l l.length le_rfl]
  simp

end Verif.Region
