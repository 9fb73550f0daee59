import Verif.Model.Cache
import Verif.Lemmas.RegionLoop

/-!
# C47: reading reference data is repeatable
-/

set_option linter.unusedSectionVars false

namespace Verif.Props

open Verif.Np Verif.Utilities Verif.Helper Verif.Spec Verif.Region

variable {K : Type} [Field K] [LinearOrder K] [IsStrictOrderedRing K]

/-- Every cached dictionary is what the files give now. -/
def Fresh (disk : Disk K) (s : CacheState K) : Prop :=
  ∀ (name : List Char) (b : WmoBox) (t : ℕ) (n : ℤ) (d : Loaded K), (t = 1 ∨ t = 2 ∨ t = 3) → b.number = some n →
    b.flag t = 1 → s.get (keyOf name t n) = some d → getData disk name b t = .ok (some d)

theorem getData_key (disk : Disk K) (name name' : List Char) (b b' : WmoBox) (t t' : ℕ) (n n' : ℤ)
    (hb : b.number = some n) (hb' : b'.number = some n') (hf : b.flag t = 1) (hf' : b'.flag t' = 1)
    (ht : t = 1 ∨ t = 2 ∨ t = 3) (hk : keyOf name t n = keyOf name' t' n') : getData disk name b t = getData disk name' b' t' := by
  unfold keyOf at hk
  simp only [Prod.mk.injEq] at hk
  obtain ⟨rfl, rfl, hn⟩ := hk
  unfold getData
  rw [hb, hb']
  dsimp only
  rw [if_pos hf, if_pos hf']
  rcases ht with rfl | rfl | rfl
  · rfl
  · rfl
  · rw [if_pos rfl, if_pos rfl] at hn
    rw [hn]

theorem evict_fresh (disk : Disk K) (ev : ℕ → Key → Bool) (s : CacheState K) (h : Fresh disk s) : Fresh disk (evict ev s) := by
  intro name b t n d ht hb hf hs
  unfold evict at hs
  dsimp only at hs
  split at hs
  · cases hs
  · exact h name b t n d ht hb hf hs

theorem put_fresh (disk : Disk K) (s : CacheState K) (h : Fresh disk s) (name : List Char) (b : WmoBox) (t : ℕ) (n : ℤ)
    (d : Loaded K) (hb : b.number = some n) (hf : b.flag t = 1) (hd : getData disk name b t = .ok (some d)) :
    Fresh disk (s.put (keyOf name t n) d) := by
  intro name' b' t' n' d' ht' hb' hf' hs
  unfold CacheState.put at hs
  dsimp only at hs
  split at hs
  · rename_i hk
    rw [getData_key disk name' name b' b t' t n' n hb' hb hf' hf ht' hk, hd, Option.some.inj hs]
  · exact h name' b' t' n' d' ht' hb' hf' hs

theorem getDataCached_fresh (disk : Disk K) (ev : ℕ → Key → Bool) (name : List Char) (b : WmoBox) (t : ℕ)
    (ht : t = 1 ∨ t = 2 ∨ t = 3) (s : CacheState K) (h : Fresh disk s) :
    (getDataCached disk ev name b t s).1 = getData disk name b t ∧ Fresh disk (getDataCached disk ev name b t s).2 := by
  unfold getDataCached
  cases hb : b.number with
  | none => exact ⟨by unfold getData; rw [hb], h⟩
  | some n =>
    dsimp only
    by_cases hf : b.flag t = 1
    · rw [if_pos hf]
      have he := evict_fresh disk ev s h
      cases hs : (evict ev s).get (keyOf name t n) with
      | some d => exact ⟨(he name b t n d ht hb hf hs).symm, he⟩
      | none =>
        dsimp only
        match hg : getData disk name b t with
        | .error e => exact ⟨rfl, he⟩
        | .ok none => exact ⟨rfl, he⟩
        | .ok (some d) => exact ⟨rfl, put_fresh disk _ he name b t n d hb hf hg⟩
    · rw [if_neg hf]
      refine ⟨?_, h⟩
      unfold getData
      rw [hb]
      dsimp only
      rw [if_neg hf]

/-- Files never show the form that is edited in place. -/
theorem presLen_ne_one (disk : Disk K) (name : List Char) (b : WmoBox) (t : ℕ) (d : Loaded K)
    (h : getData disk name b t = .ok (some d)) : presLen d ≠ some 1 := by
  unfold getData at h
  cases hb : b.number with
  | none => rw [hb] at h; simp at h
  | some n =>
    rw [hb] at h
    dsimp only at h
    split at h
    · cases hd : disk t n with
      | none => rw [hd] at h; simp at h
      | some f =>
        rw [hd] at h
        dsimp only at h
        by_cases h1 : t = 1
        · rw [if_pos h1] at h
          simp only [readCtd, Except.map, Except.ok.injEq, Option.some.injEq] at h
          subst h
          unfold presLen
          dsimp only
          by_cases h0 : f.levels = 0
          · simp [h0]
          · by_cases h1 : f.levels = 1
            · by_cases hc : f.casts.length = 1
              · simp [h1, hc]
              · simp [h1, hc]
            · simp [h0, h1]
        · rw [if_neg h1] at h
          by_cases h2 : t = 2
          · rw [if_pos h2] at h
            unfold readBottle at h
            split at h
            · simp [Except.map] at h
            · split at h
              · simp [Except.map] at h
              · simp only [Except.map, Except.ok.injEq, Option.some.injEq] at h
                subst h
                unfold presLen
                dsimp only
                rename_i hne
                have hl1 : f.levels ≠ 1 := by intro hl; rw [hl] at hne; simp at hne
                by_cases h0 : f.levels = 0
                · simp [h0]
                · simp [h0, hl1]
          · rw [if_neg h2] at h
            unfold readArgo at h
            split at h
            · simp [Except.map] at h
            · split at h
              · simp [Except.map] at h
              · rename_i hl
                dsimp only at h
                cases hdel : npDelete f.casts (argwhere (hasName name) f.casts) with
                | error e => rw [hdel] at h; simp [bind, Except.bind, Except.map] at h
                | ok cs =>
                  rw [hdel] at h
                  simp only [bind, Except.bind, Except.map, Except.ok.injEq, Option.some.injEq] at h
                  subst h
                  unfold presLen
                  dsimp only
                  have h0 : f.levels ≠ 0 := by omega
                  have hl1 : f.levels ≠ 1 := by omega
                  simp [h0, hl1]
    · simp at h

theorem loadStep_fresh (disk : Disk K) (ev : ℕ → Key → Bool) (unwrap : Loaded K → Loaded K) (name : List Char) (b : WmoBox)
    (t : ℕ) (ht : t = 1 ∨ t = 2 ∨ t = 3) (s : CacheState K) (h : Fresh disk s) :
    ((loadStep disk ev unwrap name b t s).1 = getData disk name b t ∨
      ∃ e d, (loadStep disk ev unwrap name b t s).1 = .error e ∧ getData disk name b t = .ok (some d) ∧ d.scalar = true) ∧
    Fresh disk (loadStep disk ev unwrap name b t s).2 := by
  obtain ⟨h1, h2⟩ := getDataCached_fresh disk ev name b t ht s h
  unfold loadStep
  match hg : getDataCached disk ev name b t s with
  | (.error e, s') => rw [hg] at h1 h2; exact ⟨Or.inl h1, h2⟩
  | (.ok none, s') => rw [hg] at h1 h2; exact ⟨Or.inl h1, h2⟩
  | (.ok (some d), s') =>
    rw [hg] at h1 h2
    dsimp only at h1 h2 ⊢
    have hne := presLen_ne_one disk name b t d h1.symm
    cases hp : presLen d with
    | none =>
      refine ⟨Or.inr ⟨_, d, rfl, h1.symm, ?_⟩, h2⟩
      unfold presLen at hp
      split at hp
      · cases hp
      · split at hp
        · split at hp
          · assumption
          · cases hp
        · cases hp
    | some l =>
      dsimp only
      have : l ≠ 1 := by rintro rfl; exact hne hp
      rw [if_neg this]
      exact ⟨Or.inl h1, h2⟩

/-- Two lists of loading results that differ only in files whose positions are plain numbers, which are ignored anyway. -/
def SameLoads (a b : List (Except PyErr (Option (Loaded K)))) : Prop :=
  List.Forall₂ (fun x y => x = y ∨ ∃ e d, x = .error e ∧ y = .ok (some d) ∧ d.scalar = true) a b

theorem regionFrom_same (index : List ℕ) (floatPres : List (Option K)) (delta : K)
    (a b : List (Except PyErr (Option (Loaded K)))) (h : SameLoads a b) :
    regionFrom index floatPres delta a = regionFrom index floatPres delta b := by
  have key : ∀ st, a.foldl (regionStep index (maxPressure floatPres delta)) st =
      b.foldl (regionStep index (maxPressure floatPres delta)) st := by
    unfold SameLoads at h
    induction h with
    | nil => intro st; rfl
    | cons hx _ ih =>
      intro st
      rw [List.foldl_cons, List.foldl_cons, ih]
      rcases hx with rfl | ⟨e, d, rfl, rfl, hd⟩
      · rfl
      · simp [regionStep, hd]
  unfold regionFrom
  rw [key]

theorem visits_type (boxes : List WmoBox) (v : WmoBox × ℕ) (hv : v ∈ visits boxes) : v.2 = 1 ∨ v.2 = 2 ∨ v.2 = 3 := by
  unfold visits at hv
  obtain ⟨b, _, hb⟩ := List.mem_flatMap.1 hv
  obtain ⟨t, ht, rfl⟩ := List.mem_map.1 hb
  simpa using ht

theorem accessAll_get (disk : Disk K) (ev : ℕ → Key → Bool) (name : List Char) (vs : List (WmoBox × ℕ))
    (hv : ∀ v ∈ vs, v.2 = 1 ∨ v.2 = 2 ∨ v.2 = 3) (s : CacheState K) (h : Fresh disk s) :
    (accessAll (getDataCached disk ev name) vs s).1 = vs.map (fun v => getData disk name v.1 v.2) ∧
      Fresh disk (accessAll (getDataCached disk ev name) vs s).2 := by
  induction vs generalizing s with
  | nil => exact ⟨rfl, h⟩
  | cons v vs ih =>
    obtain ⟨h1, h2⟩ := getDataCached_fresh disk ev name v.1 v.2 (hv v (by simp)) s h
    obtain ⟨h3, h4⟩ := ih (fun w hw => hv w (by simp [hw])) _ h2
    simp only [accessAll, List.map_cons]
    exact ⟨by rw [h1, h3], h4⟩

theorem accessAll_load (disk : Disk K) (ev : ℕ → Key → Bool) (unwrap : Loaded K → Loaded K) (name : List Char)
    (vs : List (WmoBox × ℕ)) (hv : ∀ v ∈ vs, v.2 = 1 ∨ v.2 = 2 ∨ v.2 = 3) (s : CacheState K) (h : Fresh disk s) :
    SameLoads (accessAll (loadStep disk ev unwrap name) vs s).1 (vs.map (fun v => getData disk name v.1 v.2)) ∧
      Fresh disk (accessAll (loadStep disk ev unwrap name) vs s).2 := by
  induction vs generalizing s with
  | nil => exact ⟨List.Forall₂.nil, h⟩
  | cons v vs ih =>
    obtain ⟨h1, h2⟩ := loadStep_fresh disk ev unwrap name v.1 v.2 (hv v (by simp)) s h
    obtain ⟨h3, h4⟩ := ih (fun w hw => hv w (by simp [hw])) _ h2
    simp only [accessAll, List.map_cons]
    exact ⟨List.Forall₂.cons h1 h3, h4⟩

theorem runCall_fresh (disk : Disk K) (ev : ℕ → Key → Bool) (unwrap : Loaded K → Loaded K) (c : Call K) (s : CacheState K)
    (h : Fresh disk s) :
    (runCall disk ev unwrap c s).1 = freshCall disk c ∧ Fresh disk (runCall disk ev unwrap c s).2 := by
  cases c with
  | hist name boxes =>
    obtain ⟨h1, h2⟩ := accessAll_get disk ev name (visits boxes) (visits_type boxes) s h
    simp only [runCall, freshCall, histLocations]
    exact ⟨by rw [h1], h2⟩
  | region name boxes index floatPres delta =>
    obtain ⟨h1, h2⟩ := accessAll_load disk ev unwrap name (visits boxes) (visits_type boxes) s h
    simp only [runCall, freshCall, regionData]
    exact ⟨by rw [regionFrom_same _ _ _ _ _ h1], h2⟩

/-- C47. For every sequence of calls of `get_region_hist_locations` and `get_region_data` in one process, with any arguments and
any choice of entries dropped from the cache, every call returns what it would return when reading the files itself. The arrays are
edited in place only for profiles of length one, and files never give these. -/
theorem cached_reads_repeatable (disk : Disk K) (ev : ℕ → Key → Bool) (unwrap : Loaded K → Loaded K) (calls : List (Call K)) :
    runCalls disk ev unwrap calls emptyCache = calls.map (freshCall disk) := by
  have key : ∀ s, Fresh disk s → runCalls disk ev unwrap calls s = calls.map (freshCall disk) := by
    induction calls with
    | nil => intro s _; rfl
    | cons c cs ih =>
      intro s h
      obtain ⟨h1, h2⟩ := runCall_fresh disk ev unwrap c s h
      simp only [runCalls, List.map_cons]
      rw [h1, ih _ h2]
  exact key _ (fun _ _ _ _ _ _ _ _ h => by simp [emptyCache] at h)

/-- C47. In particular the same call made twice, with any calls before and between, returns the same. -/
theorem cached_call_twice (disk : Disk K) (ev : ℕ → Key → Bool) (unwrap : Loaded K → Loaded K) (before between : List (Call K))
    (c : Call K) :
    ∃ r, (runCalls disk ev unwrap (before ++ c :: between ++ [c]) emptyCache)[before.length]? = some r ∧
      (runCalls disk ev unwrap (before ++ c :: between ++ [c]) emptyCache)[before.length + between.length + 1]? = some r := by
  rw [cached_reads_repeatable]
  refine ⟨freshCall disk c, ?_, ?_⟩
  · simp
  · have : (before ++ c :: between ++ [c])[before.length + between.length + 1]? = some c := by
      rw [List.getElem?_append_right (by simp; omega)]
      simp [Nat.add_assoc]
    rw [List.getElem?_map, this]
    rfl

/-- C84. A file that is in the cache is not read again: what is returned does not depend on the disk. A reference file changed
on disk while the process runs keeps its old content. -/
theorem cached_read_ignores_disk (disk disk' : Disk K) (ev : ℕ → Key → Bool) (name : List Char) (b : WmoBox) (t : ℕ) (n : ℤ)
    (hb : b.number = some n) (hf : b.flag t = 1) (d : Loaded K) (hd : getData disk name b t = .ok (some d)) (s : CacheState K)
    (hev : ev (s.count + 1) (keyOf name t n) = false) (hs : ev s.count (keyOf name t n) = true ∨ s.get (keyOf name t n) = none) :
    (getDataCached disk' ev name b t (getDataCached disk ev name b t s).2).1 = .ok (some d) := by
  have h1 : (getDataCached disk ev name b t s).2 = (evict ev s).put (keyOf name t n) d := by
    unfold getDataCached
    rw [hb]
    dsimp only
    rw [if_pos hf]
    have : (evict ev s).get (keyOf name t n) = none := by
      unfold evict
      dsimp only
      rcases hs with h | h
      · rw [if_pos h]
      · split
        · rfl
        · exact h
    rw [this, hd]
  rw [h1]
  unfold getDataCached
  rw [hb]
  dsimp only
  rw [if_pos hf]
  have : (evict ev ((evict ev s).put (keyOf name t n) d)).get (keyOf name t n) = some d := by
    simp [evict, CacheState.put, hev]
  rw [this]

end Verif.Props
