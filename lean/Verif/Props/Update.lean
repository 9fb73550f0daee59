import Verif.Lemmas.Update

/-!
# C52-C55, C86-C89, C141: a run of `update_salinity_mapping`
-/

set_option linter.unusedSectionVars false

namespace Verif.Props

open Verif.Np Verif.Helper Verif.Spec Verif.Update

variable {K : Type} [Field K] [LinearOrder K] [IsStrictOrderedRing K]

/-! ## Running without a mapped file -/

/-- The file that a run without a mapped file leaves: the matrices are permuted twice, the other arrays once. -/
theorem fresh_run_file (A : RunArgs K) (fs : Fs K) (hload : fs A.loadPath = none) (hsort : IsArgsort A.argsort)
    (hP : Computable A.P A.no.length A.levels) (hm : SomethingMapped A.P A.no.length A.levels) :
    ∃ f : MapFile K, updateMapping A fs = (none, fs :: List.replicate A.no.length fs ++
        [Function.update fs A.savePath (some .torn), Function.update fs A.savePath (some (.whole f))]) ∧
      f.profileNo.map some = (A.argsort (A.no.map some)).map (fun (i : ℕ) => A.no[i]?) ∧ f.rows = A.levels ∧
      (∀ m, f.mats m = (A.argsort (A.no.map some)).map (fun (i : ℕ) =>
        profileColumn A.P A.levels m ((A.argsort (A.no.map some)).getD i 0))) ∧
      (∀ s, f.settings s = (A.argsort (A.no.map some)).map (fun (i : ℕ) => profileSetting A.P A.cfg A.levels s i)) ∧
      f.selected ≠ [] ∧ f.selected.Pairwise (fun a b => a.profileNo ≤ b.profileNo) ∧ f.profileIndex = 0 := by
  classical
  haveI : Inhabited K := ⟨0⟩
  obtain ⟨sel, h1, h2⟩ := profileLoop_done A.P A.cfg A.no A.levels hP A.no.length 0 (by omega) []
  have hsel : sel ≠ [] := by
    rw [h2]
    obtain ⟨i, hi, n, hn, hs⟩ := hm
    exact Or.inr ⟨i, by omega, hi, n, hn, hs⟩
  have hstart : (⟨[], A.levels, fun _ => [], fun _ => [], [], 0, true⟩ : Mapped K) = doneData A.P A.cfg A.no A.levels 0 [] := rfl
  generalize hσ : A.argsort (A.no.map some) = σ
  obtain ⟨hperm, -⟩ := hsort (A.no.map some)
  rw [hσ, List.length_map] at hperm
  have hlen : σ.length = A.no.length := by simpa using hperm.length_eq
  have hlt : ∀ i ∈ σ, i < A.no.length := fun i hi => List.mem_range.1 (hperm.mem_iff.1 hi)
  have hrows : 0 < A.no.length ∧ 0 < A.levels := by
    obtain ⟨i, hi, n, hn, -⟩ := hm
    omega
  -- the checked columns
  let col : Mat → ℕ → List (Option K) := fun m i => profileColumn A.P A.levels m i
  have hchk : (fun m : Mat => if m = .mappedSal then ((doneData A.P A.cfg A.no A.levels A.no.length sel).mats m).map
      (fun c => c.map checkSal) else (doneData A.P A.cfg A.no A.levels A.no.length sel).mats m) =
      fun m => (List.range A.no.length).map (col m) := by
    funext m
    unfold doneData
    dsimp only
    split
    · rename_i hmm
      subst hmm
      rw [List.map_map]
      apply List.map_congr_left
      intro i _
      simp only [Function.comp, rawColumn, List.map_map, col, profileColumn]
      apply List.map_congr_left
      intro n hn
      simp only [Function.comp, List.mem_range.1 hn, if_true]
      rw [checkSal_eq]
      cases levelOut A.P i n with
      | none => simp [plausible]
      | some o => simp
    · rename_i hmm
      apply List.map_congr_left
      intro i _
      simp only [rawColumn, col, profileColumn]
      apply List.map_congr_left
      intro n hn
      simp [List.mem_range.1 hn, plausible, hmm]
  have hno : (doneData A.P A.cfg A.no A.levels A.no.length sel).profileNo = A.no := by
    unfold doneData; simp
  -- first permutation
  have hg1 : gatherAll Mat.all (fun m => (List.range A.no.length).map (col m)) σ = .ok fun m => σ.map (col m) := by
    rw [gatherAll_ok _ _ _ (by first | exact Mat.mem_all | exact Setting.mem_all) (by simpa using fun _ i hi => hlt i hi)]
    congr 1
    funext m
    apply List.map_congr_left
    intro i hi
    simp [hlt i hi]
  have hg2 : gatherAll Mat.all (fun m => σ.map (col m)) σ = .ok fun m => σ.map (fun (i : ℕ) => col m (σ.getD i 0)) := by
    rw [gatherAll_ok _ _ _ Mat.mem_all (by intro m i hi; rw [List.length_map, hlen]; exact hlt i hi)]
    congr 1
    funext m
    apply List.map_congr_left
    intro i hi
    have : i < σ.length := by rw [hlen]; exact hlt i hi
    simp [this]
  have hsort2 : sortAndCollect A.argsort (doneData A.P A.cfg A.no A.levels A.no.length sel) =
      .ok ⟨σ.map (fun (i : ℕ) => A.no[i]!), A.levels, fun m => σ.map (fun (i : ℕ) => col m (σ.getD i 0)),
        fun s => σ.map (fun (i : ℕ) => profileSetting A.P A.cfg A.levels s i),
        sel.mergeSort (fun a b => decide (a.profileNo ≤ b.profileNo)), 0⟩ := by
    unfold sortAndCollect
    dsimp only
    rw [hchk, hno, hσ, hg1]
    simp only [bind, Except.bind]
    have hr : (doneData A.P A.cfg A.no A.levels A.no.length sel).rows = A.levels := rfl
    have hset : (doneData A.P A.cfg A.no A.levels A.no.length sel).settings =
        fun s => (List.range A.no.length).map fun i => profileSetting A.P A.cfg A.levels s i := by
      unfold doneData
      dsimp only
      funext s
      apply List.map_congr_left
      intro i _
      unfold rawSetting profileSetting
      congr 1
    have hs : (doneData A.P A.cfg A.no A.levels A.no.length sel).selected = sel := rfl
    have hpi : (doneData A.P A.cfg A.no A.levels A.no.length sel).profileIndex = 0 := rfl
    rw [hr, hset, hs, hpi]
    have hsl : sel.length > 0 := List.length_pos_iff.2 hsel
    by_cases hone : A.no.length > 1
    · have hsz : A.levels * A.no.length > 1 := by
        calc 1 < A.no.length := hone
          _ = 1 * A.no.length := by omega
          _ ≤ A.levels * A.no.length := Nat.mul_le_mul_right _ hrows.2
      rw [if_pos hsz, hg2]
      dsimp only
      rw [if_pos hone, if_pos hone, gather_ok _ _ hlt]
      dsimp only
      rw [gatherAll_ok _ _ _ (by first | exact Mat.mem_all | exact Setting.mem_all) (by simpa using fun _ i hi => hlt i hi)]
      dsimp only
      rw [if_pos hsl]
      simp only [pure, Except.pure]
      congr 2
      funext s
      apply List.map_congr_left
      intro i hi
      simp [hlt i hi]
    · have h1 : A.no.length = 1 := by omega
      have hσ1 : σ = [0] := by
        rw [h1] at hperm
        simpa using hperm
      obtain ⟨v, hv⟩ := List.length_eq_one_iff.1 h1
      have hif : (if A.levels * A.no.length > 1 then gatherAll Mat.all (fun m => σ.map (col m)) σ else .ok fun m => σ.map (col m)) =
          .ok fun m => σ.map (fun (i : ℕ) => col m (σ.getD i 0)) := by
        split
        · exact hg2
        · rw [hσ1]; rfl
      rw [hif]
      dsimp only
      rw [if_neg hone, if_neg hone]
      dsimp only
      rw [if_pos hsl, hσ1, hv]
      rfl
  have hup : updateMapping A fs = (none, fs :: List.replicate A.no.length fs ++
      [Function.update fs A.savePath (some .torn), Function.update fs A.savePath (some (.whole
        ⟨σ.map (fun (i : ℕ) => A.no[i]!), A.levels, fun m => σ.map (fun (i : ℕ) => col m (σ.getD i 0)),
        fun s => σ.map (fun (i : ℕ) => profileSetting A.P A.cfg A.levels s i),
        sel.mergeSort (fun a b => decide (a.profileNo ≤ b.profileNo)), 0⟩))]) := by
    unfold updateMapping loadVariables
    rw [hload]
    dsimp only
    rw [missing_fresh, hstart, h1]
    dsimp only
    rw [hsort2]
  refine ⟨_, hup, ?_, rfl, fun m => rfl, fun s => rfl, ?_, ?_, rfl⟩
  · dsimp only
    rw [List.map_map]
    apply List.map_congr_left
    intro i hi
    simp [hlt i hi]
  · intro h
    have := congrArg List.length h
    simp at this
    exact hsel this
  · have := List.pairwise_mergeSort (le := fun (a b : Selected K) => decide (a.profileNo ≤ b.profileNo))
      (by intro a b c h1 h2; simp only [decide_eq_true_eq] at *; exact h1.trans h2)
      (by intro a b; simp only [Bool.or_eq_true, decide_eq_true_eq]; exact le_total _ _) sel
    exact this.imp (by intro a b h; simpa using h)

theorem ite_ok {α : Type} (p : Prop) [Decidable p] (a b : α) :
    (if p then (.ok a : Except PyErr α) else .ok b) = .ok (if p then a else b) := by split <;> rfl

theorem range_get_self {α : Type} (l : List α) : ((List.range l.length).filterMap fun (i : ℕ) => l[i]?) = l := by
  induction l using List.reverseRecOn with
  | nil => rfl
  | append_singleton l a ih =>
    rw [List.length_append, List.length_singleton, List.range_succ, List.filterMap_append]
    congr 1
    · conv_rhs => rw [← ih]
      apply List.filterMap_congr
      intro i hi
      rw [List.getElem?_append_left (List.mem_range.1 hi)]
    · simp

theorem getLast_two {α : Type} (l : List α) (a b : α) : (l ++ [a, b]).getLast? = some b := by
  rw [show l ++ [a, b] = (l ++ [a]) ++ [b] by simp, List.getLast?_concat]

/-- The run's last state of the directory. -/
theorem final_of_trace (A : RunArgs K) (fs : Fs K) (k : ℕ) (f : MapFile K)
    (h : updateMapping A fs = (none, fs :: List.replicate k fs ++
        [Function.update fs A.savePath (some .torn), Function.update fs A.savePath (some (.whole f))])) :
    finalFs A fs = Function.update fs A.savePath (some (.whole f)) := by
  unfold finalFs
  rw [h]
  dsimp only
  rw [getLast_two]
  rfl

/-- C52, in part. If the profile numbers of the source are ascending, a run without a mapped file saves for every profile its number, in column `i`
of every matrix the values computed for profile `i`, and as settings the configuration (missing if no level was mapped); other files are not
touched. Missing: other orders, for which the property is false (`fresh_run_misaligned`). -/
theorem fresh_run_aligned_partial (A : RunArgs K) (fs : Fs K) (hload : fs A.loadPath = none) (hsort : IsArgsort A.argsort)
    (hP : Computable A.P A.no.length A.levels) (hm : SomethingMapped A.P A.no.length A.levels) (hno : A.no.Pairwise (· < ·)) :
    ∃ f : MapFile K, (updateMapping A fs).1 = none ∧ finalFs A fs = Function.update fs A.savePath (some (.whole f)) ∧
      f.profileNo = A.no ∧ f.rows = A.levels ∧
      (∀ m, f.mats m = (List.range A.no.length).map (profileColumn A.P A.levels m)) ∧
      (∀ s, f.settings s = (List.range A.no.length).map (profileSetting A.P A.cfg A.levels s)) := by
  obtain ⟨f, h1, h2, h3, h4, h5, -, -, -⟩ := fresh_run_file A fs hload hsort hP hm
  rw [argsort_strict A.argsort hsort A.no hno] at h2 h4 h5
  refine ⟨f, by rw [h1], final_of_trace A fs _ f h1, ?_, h3, ?_, h5⟩
  · have : f.profileNo.map some = A.no.map some := by
      rw [h2]
      apply List.ext_getElem
      · simp
      · intro i h1 h2
        simp at h1 h2
        simp [h1]
    exact List.map_injective_iff.2 (Option.some_injective _) this
  · intro m
    rw [h4]
    apply List.map_congr_left
    intro i hi
    congr 1
    simp [List.getD, List.mem_range.1 hi]

/-- C52 is false of the code. If the profile numbers of the source are distinct and not ascending, there is a saved column that
belongs to another profile than the number and the settings saved with it: number and settings are those of profile `j`, the columns of all
matrices those of profile `j' ≠ j`. -/
theorem fresh_run_misaligned (A : RunArgs K) (fs : Fs K) (hload : fs A.loadPath = none) (hsort : IsArgsort A.argsort)
    (hP : Computable A.P A.no.length A.levels) (hm : SomethingMapped A.P A.no.length A.levels) (hnd : A.no.Nodup)
    (hno : ¬ A.no.Pairwise (· < ·)) :
    ∃ (f : MapFile K) (i j j' : ℕ), (updateMapping A fs).1 = none ∧ finalFs A fs = Function.update fs A.savePath (some (.whole f)) ∧
      j < A.no.length ∧ j' < A.no.length ∧ j ≠ j' ∧ f.profileNo[i]? = A.no[j]? ∧
      (∀ s, (f.settings s)[i]? = some (profileSetting A.P A.cfg A.levels s j)) ∧
      ∀ m, (f.mats m)[i]? = some (profileColumn A.P A.levels m j') := by
  obtain ⟨f, h1, h2, h3, h4, h5, -, -, -⟩ := fresh_run_file A fs hload hsort hP hm
  obtain ⟨hperm, hpw⟩ := hsort (A.no.map some)
  have hsorted := @argsort_sorted K _ _ _ A.argsort hsort A.no hnd ⟨0⟩
  generalize A.argsort (A.no.map some) = σ at *
  rw [List.length_map] at hperm
  have hlen : σ.length = A.no.length := by simpa using hperm.length_eq
  have hlt : ∀ i ∈ σ, i < A.no.length := fun i hi => List.mem_range.1 (hperm.mem_iff.1 hi)
  have hndσ : σ.Nodup := hperm.nodup_iff.2 List.nodup_range
  have hex : ∃ (i : ℕ) (hi : i < σ.length), σ[i] ≠ i := by
    by_contra hc
    push Not at hc
    have : σ = List.range A.no.length := by
      apply List.ext_getElem
      · simp [hlen]
      · intro i h1 h2
        rw [hc i h1, List.getElem_range]
    apply hno
    rw [this] at hsorted
    have e : (List.range A.no.length).map (fun (i : ℕ) => @getElem! (List K) ℕ K _ _ ⟨0⟩ A.no i) = A.no := by
      apply List.ext_getElem
      · simp
      · intro i h1 h2
        simp [h2]
    rwa [e] at hsorted
  obtain ⟨i, hi, hne⟩ := hex
  have hj : σ[i] < σ.length := by rw [hlen]; exact hlt _ (List.getElem_mem hi)
  refine ⟨f, i, σ[i], σ[σ[i]], by rw [h1], final_of_trace A fs _ f h1, by omega, hlt _ (List.getElem_mem hj), ?_, ?_, ?_, ?_⟩
  · intro h
    exact hne ((hndσ.getElem_inj_iff).1 h).symm
  · have := congrArg (fun l => l[i]?) h2
    simp only [List.getElem?_map, List.getElem?_eq_getElem hi, Option.map_some] at this
    have hjn : σ[i] < A.no.length := by omega
    rw [List.getElem?_eq_getElem hjn] at this ⊢
    cases hf : f.profileNo[i]? with
    | none => rw [hf] at this; simp at this
    | some x => rw [hf] at this; simpa using this
  · intro s
    rw [h5, List.getElem?_map, List.getElem?_eq_getElem hi]
    rfl
  · intro m
    rw [h4, List.getElem?_map, List.getElem?_eq_getElem hi]
    simp [List.getD, hj]

/-- The file a run without a mapped file leaves is consistent, if the profile numbers are distinct. -/
theorem fresh_run_consistent (A : RunArgs K) (fs : Fs K) (hload : fs A.loadPath = none) (hsort : IsArgsort A.argsort)
    (hP : Computable A.P A.no.length A.levels) (hm : SomethingMapped A.P A.no.length A.levels) (hnd : A.no.Nodup) :
    ∃ f : MapFile K, (updateMapping A fs).1 = none ∧ finalFs A fs = Function.update fs A.savePath (some (.whole f)) ∧
      Consistent f ∧ f.rows = A.levels ∧ ∀ v, v ∈ f.profileNo ↔ v ∈ A.no := by
  obtain ⟨f, h1, h2, h3, h4, h5, h6, h7, -⟩ := fresh_run_file A fs hload hsort hP hm
  obtain ⟨hperm, hpw⟩ := hsort (A.no.map some)
  have hsorted := @argsort_sorted K _ _ _ A.argsort hsort A.no hnd ⟨0⟩
  generalize A.argsort (A.no.map some) = σ at *
  rw [List.length_map] at hperm
  have hlen : σ.length = A.no.length := by simpa using hperm.length_eq
  have hlt : ∀ i ∈ σ, i < A.no.length := fun i hi => List.mem_range.1 (hperm.mem_iff.1 hi)
  have hpn : f.profileNo = σ.map (fun (i : ℕ) => @getElem! (List K) ℕ K _ _ ⟨0⟩ A.no i) := by
    have : f.profileNo.map some = (σ.map (fun (i : ℕ) => @getElem! (List K) ℕ K _ _ ⟨0⟩ A.no i)).map some := by
      rw [h2, List.map_map]
      apply List.map_congr_left
      intro i hi
      simp [hlt i hi]
    exact List.map_injective_iff.2 (Option.some_injective _) this
  refine ⟨f, by rw [h1], final_of_trace A fs _ f h1, ⟨?_, ?_, ?_, ?_, h6, h7⟩, h3, ?_⟩
  · rw [hpn]; exact hsorted
  · intro m; rw [h4, hpn]; simp
  · intro s; rw [h5, hpn]; simp
  · intro c hc x hx
    rw [h4] at hc
    obtain ⟨i, -, rfl⟩ := List.mem_map.1 hc
    unfold profileColumn at hx
    obtain ⟨n, -, he⟩ := List.mem_map.1 hx
    cases ho : levelOut A.P (σ.getD i 0) n with
    | none => rw [ho] at he; simp at he
    | some o =>
      rw [ho] at he
      simp only [Option.bind_some, plausible, if_true, Option.filter_eq_some_iff, decide_eq_true_eq] at he
      exact he.2
  · intro v
    rw [hpn]
    constructor
    · intro hv
      obtain ⟨i, hi, rfl⟩ := List.mem_map.1 hv
      have := hlt i hi
      simp [this]
    · intro hv
      obtain ⟨i, hi, rfl⟩ := List.mem_iff_getElem.1 hv
      refine List.mem_map.2 ⟨i, hperm.mem_iff.2 (List.mem_range.2 hi), by simp [hi]⟩

/-! ## C53 -/

theorem gatherAll_mem {ι α : Type} [DecidableEq ι] (keys : List ι) (f g : ι → List α) (idx : List ℕ) (h : gatherAll keys f idx = .ok g) (k : ι) :
    ∀ x ∈ g k, x ∈ f k := by
  intro x hx
  unfold gatherAll at h
  split at h
  · rw [← Except.ok.inj h] at hx
    dsimp only at hx
    split at hx
    · obtain ⟨i, -, hi⟩ := List.mem_filterMap.1 hx
      exact List.mem_of_getElem? hi
    · exact hx
  · cases h

/-- C53. Every mapped salinity that a run saves is between 30 and 40 or missing, whatever was in the mapped file, whatever the
computations give and whatever the sort does. -/
theorem saved_salinities_plausible (A : RunArgs K) (fs : Fs K) (h : (updateMapping A fs).1 = none) :
    ∃ f : MapFile K, finalFs A fs A.savePath = some (.whole f) ∧
      ∀ c ∈ f.mats .mappedSal, ∀ x, some x ∈ c → 30 ≤ x ∧ x ≤ 40 := by
  unfold finalFs
  unfold updateMapping at h ⊢
  cases hl : loadVariables (fs A.loadPath) A.levels with
  | error e => rw [hl] at h; simp at h
  | ok d =>
    rw [hl] at h
    dsimp only at h ⊢
    match hp : profileLoop A.cfg A.P A.no A.levels (missingProfiles d.profileNo A.no) d.profileIndex d with
    | (k, .error e) => rw [hp] at h; simp at h
    | (k, .ok d) =>
      rw [hp] at h
      dsimp only at h ⊢
      cases hs : sortAndCollect A.argsort d with
      | error e => rw [hs] at h; simp at h
      | ok f =>
        refine ⟨f, by dsimp only; rw [getLast_two]; simp, ?_⟩
        intro c hc x hx
        unfold sortAndCollect at hs
        simp only [bind, Except.bind] at hs
        cases hg1 : gatherAll Mat.all (fun m => if m = .mappedSal then (d.mats m).map (fun c => c.map checkSal) else d.mats m)
            (A.argsort (d.profileNo.map some)) with
        | error e => rw [hg1] at hs; cases hs
        | ok mats1 =>
          rw [hg1] at hs
          dsimp only at hs
          have key : ∀ mats2 : Mat → List (List (Option K)),
              (if d.rows * d.profileNo.length > 1 then gatherAll Mat.all mats1 (A.argsort (d.profileNo.map some)) else .ok mats1) =
                .ok mats2 → c ∈ mats2 .mappedSal → 30 ≤ x ∧ x ≤ 40 := by
            intro mats2 h2 hc2
            have hc1 : c ∈ mats1 .mappedSal := by
              split at h2
              · exact gatherAll_mem _ _ _ _ h2 _ c hc2
              · rw [Except.ok.inj h2]; exact hc2
            have hc0 := gatherAll_mem _ _ _ _ hg1 _ c hc1
            rw [if_pos rfl] at hc0
            obtain ⟨c0, -, rfl⟩ := List.mem_map.1 hc0
            obtain ⟨v, -, hv⟩ := List.mem_map.1 hx
            unfold checkSal at hv
            split at hv
            · rename_i y
              split at hv
              · cases hv
              · rename_i hn
                rw [← Option.some.inj hv]
                exact ⟨not_lt.1 (not_or.1 hn).1, not_lt.1 (not_or.1 hn).2⟩
            · cases hv
          split at hs
          · cases hs
          · rename_i mats2 h2
            split at hs
            · cases hs
            · split at hs
              · cases hs
              · split at hs
                · have := Except.ok.inj hs
                  rw [← this] at hc
                  exact key mats2 h2 hc
                · cases hs

/-! ## C54 -/

theorem missing_none (have' no : List K) (h : ∀ v ∈ no, v ∈ have') : missingProfiles have' no = [] := by
  unfold missingProfiles
  rw [List.filter_eq_nil_iff]
  intro i hi
  rw [List.getElem?_eq_getElem (List.mem_range.1 hi)]
  simp only [decide_eq_true_eq]
  intro h0
  obtain ⟨j, hj, he⟩ := List.mem_iff_getElem.1 (h _ (List.getElem_mem (List.mem_range.1 hi)))
  have := argwhere_mem (fun x => decide (x = no[i]'(List.mem_range.1 hi))) have' j
  have hm : j ∈ argwhere (fun x => decide (x = no[i]'(List.mem_range.1 hi))) have' := by
    rw [this]
    exact ⟨_, List.getElem?_eq_getElem hj, by simp [he]⟩
  rw [List.length_eq_zero_iff.1 h0] at hm
  cases hm

theorem gatherAll_range {ι α : Type} [DecidableEq ι] (keys : List ι) (f : ι → List α) (n : ℕ) (h : ∀ k, (f k).length = n) :
    gatherAll keys f (List.range n) = .ok f := by
  unfold gatherAll
  rw [if_pos (by simp only [List.all_eq_true, decide_eq_true_eq]; intro k _ i hi; rw [h]; exact List.mem_range.1 hi)]
  congr 1
  funext k
  split
  · rw [← h k]
    exact range_get_self (f k)
  · rfl

/-- A run that has loaded the consistent content `f` and finds no new profile saves `f`. -/
theorem rerun_loaded (A : RunArgs K) (fs : Fs K) (f : MapFile K)
    (hl : loadVariables (fs A.loadPath) A.levels = .ok ⟨f.profileNo, f.rows, f.mats, f.settings, f.selected, f.profileNo.length, false⟩)
    (hf : Consistent f) (hsort : IsArgsort A.argsort) (hall : ∀ v ∈ A.no, v ∈ f.profileNo) :
    (updateMapping A fs).1 = none ∧
      finalFs A fs = Function.update fs A.savePath (some (.whole { f with profileIndex := f.profileNo.length })) := by
  classical
  haveI : Inhabited K := ⟨0⟩
  have hσ := argsort_strict A.argsort hsort f.profileNo hf.ascending
  have hchk : (fun m : Mat => if m = .mappedSal then (f.mats m).map (fun c => c.map checkSal) else f.mats m) = f.mats := by
    funext m
    split
    · rename_i hm
      subst hm
      conv_rhs => rw [← List.map_id (f.mats .mappedSal)]
      apply List.map_congr_left
      intro c hc
      conv_rhs => rw [id, ← List.map_id c]
      apply List.map_congr_left
      intro v hv
      cases v with
      | none => rfl
      | some x =>
        have := hf.range c hc x hv
        unfold checkSal
        dsimp only
        rw [if_neg (by rintro (h | h) <;> linarith [this.1, this.2])]
        rfl
    · rfl
  have hsel : f.selected.mergeSort (fun a b => decide (a.profileNo ≤ b.profileNo)) = f.selected :=
    List.mergeSort_of_pairwise (hf.selected.2.imp (by intro a b h; simpa using h))
  have hs : sortAndCollect A.argsort ⟨f.profileNo, f.rows, f.mats, f.settings, f.selected, f.profileNo.length, false⟩ =
      .ok { f with profileIndex := f.profileNo.length } := by
    unfold sortAndCollect
    dsimp only
    rw [hchk, hσ, gatherAll_range _ _ _ hf.mats]
    simp only [bind, Except.bind, gatherAll_range _ _ _ hf.mats, ite_self]
    have hg : gather f.profileNo (List.range f.profileNo.length) = .ok f.profileNo := by
      rw [gather_ok _ _ (fun i hi => List.mem_range.1 hi)]
      congr 1
      apply List.ext_getElem
      · simp
      · intro i h1 h2
        simp [h2]
    rw [hg]
    simp only [gatherAll_range _ _ _ hf.settings, ite_self]
    rw [if_pos (List.length_pos_iff.2 hf.selected.1), hsel]
    rfl
  have hup : updateMapping A fs = (none, fs :: List.replicate 0 fs ++
      [Function.update fs A.savePath (some .torn), Function.update fs A.savePath (some (.whole { f with profileIndex := f.profileNo.length }))]) := by
    unfold updateMapping
    rw [hl]
    dsimp only
    rw [missing_none _ _ hall]
    unfold profileLoop
    dsimp only
    rw [hs]
  exact ⟨by rw [hup], final_of_trace A fs 0 _ hup⟩

/-- C54. If the mapped file is consistent, holds every profile of the source and has at least as many levels, a run does not compute anything (nothing is assumed
about the computations or the configuration), ends without exception and saves the same content; only the entry `profile_index`
becomes the number of profiles. -/
theorem rerun_keeps_content (A : RunArgs K) (fs : Fs K) (f : MapFile K) (hload : fs A.loadPath = some (.whole f))
    (hf : Consistent f) (hsort : IsArgsort A.argsort) (hall : ∀ v ∈ A.no, v ∈ f.profileNo) (hlev : A.levels ≤ f.rows) :
    (updateMapping A fs).1 = none ∧
      finalFs A fs = Function.update fs A.savePath (some (.whole { f with profileIndex := f.profileNo.length })) := by
  have hmore : (if A.levels > f.rows ∧ f.rows ≠ 0 then A.levels - f.rows else 0) = 0 := by
    rw [if_neg (by omega)]
  have hmats : (fun m => (f.mats m).map (extendColumn 0)) = f.mats := by
    funext m
    rw [show (extendColumn 0 : List (Option K) → List (Option K)) = id by funext c; simp [extendColumn]]
    simp
  refine rerun_loaded A fs f ?_ hf hsort hall
  unfold loadVariables
  rw [hload]
  dsimp only
  rw [hmore, hmats, hf.mats]
  rfl

/-- C141, finding. If the mapped file is consistent and holds every profile of the source, but the source has more levels, a run does not compute anything either: it saves
every value at its profile and level, and the new levels as missing. -/
theorem rerun_more_levels (A : RunArgs K) (fs : Fs K) (f : MapFile K) (hload : fs A.loadPath = some (.whole f))
    (hf : Consistent f) (hrows : ∀ m, ∀ c ∈ f.mats m, c.length = f.rows) (hsort : IsArgsort A.argsort) (hall : ∀ v ∈ A.no, v ∈ f.profileNo)
    (h0 : 0 < f.rows) (hlev : f.rows < A.levels) :
    ∃ g : MapFile K, (updateMapping A fs).1 = none ∧ finalFs A fs = Function.update fs A.savePath (some (.whole g)) ∧
      g.profileNo = f.profileNo ∧ g.settings = f.settings ∧ g.selected = f.selected ∧ g.rows = A.levels ∧
      (∀ m, (g.mats m).length = f.profileNo.length) ∧
      ∀ (m : Mat) (i : ℕ) (c : List (Option K)), (f.mats m)[i]? = some c → ∃ c', (g.mats m)[i]? = some c' ∧ c'.length = A.levels ∧
        (∀ n < f.rows, c'[n]? = c[n]?) ∧ ∀ n, f.rows ≤ n → n < A.levels → c'[n]? = some none := by
  have hc : Consistent { f with rows := A.levels, mats := fun m => (f.mats m).map (extendColumn (A.levels - f.rows)) } := by
    refine ⟨hf.ascending, fun m => by simpa using hf.mats m, hf.settings, ?_, hf.selected⟩
    rintro c hc x hx
    obtain ⟨c0, hc0, rfl⟩ := List.mem_map.1 hc
    rcases List.mem_append.1 hx with hx | hx
    · exact hf.range c0 hc0 x hx
    · simp at hx
  obtain ⟨h1, h2⟩ := rerun_loaded A fs _ (by
    unfold loadVariables
    rw [hload]
    dsimp only
    rw [if_pos ⟨hlev, h0.ne'⟩, hf.mats, show f.rows + (A.levels - f.rows) = A.levels by omega]) hc hsort hall
  refine ⟨_, h1, h2, rfl, rfl, rfl, rfl, fun m => by simpa using hf.mats m, ?_⟩
  intro m i c hi
  have hlen : c.length = f.rows := hrows m c (List.mem_of_getElem? hi)
  refine ⟨extendColumn (A.levels - f.rows) c, by simp [hi], by simp [extendColumn, hlen]; omega, ?_, ?_⟩
  · intro n hn
    unfold extendColumn
    rw [List.getElem?_append_left (by omega)]
  · intro n hn hn'
    unfold extendColumn
    rw [List.getElem?_append_right (by omega), List.getElem?_replicate, if_pos (by omega)]

/-- C141, finding. A float is mapped for the first time; then its source gains levels, but no profiles, and it is mapped again. The saved values are those of the first run,
and the new levels stay missing, whatever the second run could compute. -/
theorem gained_levels_not_mapped (A B : RunArgs K) (fs : Fs K) (hload : fs A.loadPath = none) (hsort : IsArgsort A.argsort)
    (hP : Computable A.P A.no.length A.levels) (hm : SomethingMapped A.P A.no.length A.levels) (hno : A.no.Pairwise (· < ·))
    (hpath : B.loadPath = A.savePath) (hsortB : IsArgsort B.argsort) (hB : ∀ v ∈ B.no, v ∈ A.no) (hlev : A.levels < B.levels) :
    (updateMapping B (finalFs A fs)).1 = none ∧ ∃ g : MapFile K, finalFs B (finalFs A fs) B.savePath = some (.whole g) ∧
      g.profileNo = A.no ∧ g.rows = B.levels ∧
      ∀ (m : Mat) (i : ℕ), i < A.no.length → ∃ c, (g.mats m)[i]? = some c ∧ c.length = B.levels ∧
        (∀ n < A.levels, c[n]? = some ((levelOut A.P i n).bind fun o => plausible m (o.values m))) ∧
        ∀ n, A.levels ≤ n → n < B.levels → c[n]? = some none := by
  obtain ⟨f, -, h2, h3, h4, h5, -⟩ := fresh_run_aligned_partial A fs hload hsort hP hm hno
  obtain ⟨f', -, h2', hc, -, -⟩ := fresh_run_consistent A fs hload hsort hP hm (hno.imp fun h => ne_of_lt h)
  have hff : f' = f := by
    rw [h2] at h2'
    have := congrFun h2' A.savePath
    simp only [Function.update_self, Option.some.injEq, FileState.whole.injEq] at this
    exact this.symm
  subst hff
  have h0 : 0 < A.levels := by
    obtain ⟨-, -, n, hn, -⟩ := hm
    omega
  obtain ⟨g, g1, g2, g3, -, -, g6, -, g8⟩ := rerun_more_levels B (finalFs A fs) f' (by rw [h2, hpath]; simp) hc
    (by
      intro m c hc
      rw [h5] at hc
      obtain ⟨i, -, rfl⟩ := List.mem_map.1 hc
      simp [profileColumn, h4]) hsortB (by rw [h3]; exact hB) (by rw [h4]; exact h0) (by rw [h4]; exact hlev)
  refine ⟨g1, g, by rw [g2]; simp, by rw [g3, h3], g6, ?_⟩
  intro m i hi
  obtain ⟨c', c1, c2, c3, c4⟩ := g8 m i (profileColumn A.P A.levels m i) (by rw [h5]; simp [hi])
  rw [h4] at c3 c4
  refine ⟨c', c1, c2, fun n hn => ?_, c4⟩
  rw [c3 n hn]
  unfold profileColumn
  simp [hn]

/-- Runs one after the other, each with its own inputs. -/
def runAll (runs : List (RunArgs K)) (fs : Fs K) : Fs K := runs.foldl (fun fs A => finalFs A fs) fs

/-- C54. A first run, with any distinct profile numbers, and then any number of runs on the same paths for sources without new profiles or levels:
whatever their computations and configurations are, every profile keeps the content of the first run. -/
theorem reruns_keep_content (A : RunArgs K) (fs : Fs K) (hpath : A.loadPath = A.savePath) (hload : fs A.loadPath = none)
    (hsort : IsArgsort A.argsort) (hP : Computable A.P A.no.length A.levels) (hm : SomethingMapped A.P A.no.length A.levels)
    (hnd : A.no.Nodup) (runs : List (RunArgs K)) (hne : runs ≠ [])
    (hruns : ∀ B ∈ runs, B.loadPath = A.loadPath ∧ B.savePath = A.savePath ∧ IsArgsort B.argsort ∧ (∀ v ∈ B.no, v ∈ A.no) ∧
      B.levels ≤ A.levels) :
    ∃ f : MapFile K, finalFs A fs A.savePath = some (.whole f) ∧
      runAll runs (finalFs A fs) = Function.update fs A.savePath (some (.whole { f with profileIndex := f.profileNo.length })) := by
  obtain ⟨f, -, h2, hc, hr, hv⟩ := fresh_run_consistent A fs hload hsort hP hm hnd
  refine ⟨f, by rw [h2]; simp, ?_⟩
  rw [h2]
  have key : ∀ (g : MapFile K) (hg : Consistent g) (hgr : g.rows = A.levels) (hgv : ∀ v, v ∈ g.profileNo ↔ v ∈ A.no) (B : RunArgs K),
      B ∈ runs → finalFs B (Function.update fs A.savePath (some (.whole g))) =
        Function.update fs A.savePath (some (.whole { g with profileIndex := g.profileNo.length })) := by
    intro g hg hgr hgv B hB
    obtain ⟨b1, b2, b3, b4, b5⟩ := hruns B hB
    have := (rerun_keeps_content B (Function.update fs A.savePath (some (.whole g))) g (by rw [b1, hpath]; simp) hg b3
      (fun v hv => (hgv v).2 (b4 v hv)) (by omega)).2
    rw [this, b2, Function.update_idem]
  have hc' : Consistent { f with profileIndex := f.profileNo.length } := ⟨hc.ascending, hc.mats, hc.settings, hc.range, hc.selected⟩
  have rest : ∀ l : List (RunArgs K), (∀ B ∈ l, B ∈ runs) →
      runAll l (Function.update fs A.savePath (some (.whole { f with profileIndex := f.profileNo.length }))) =
        Function.update fs A.savePath (some (.whole { f with profileIndex := f.profileNo.length })) := by
    intro l
    induction l with
    | nil => intro _; rfl
    | cons B l ih =>
      intro hl
      unfold runAll
      rw [List.foldl_cons, key _ hc' hr hv B (hl B (by simp))]
      exact ih (fun B' h => hl B' (by simp [h]))
  cases runs with
  | nil => exact absurd rfl hne
  | cons B runs =>
    unfold runAll
    rw [List.foldl_cons, key f hc hr hv B (by simp)]
    exact rest runs (fun B' h => by simp [h])

/-! ## C55 -/

/-- C55. A run writes to the mapped directory only at its very end. If it ends with an exception, the directory is the same at every point of
the run. If it succeeds, the directory is the same until the file is opened for saving; then the saved path holds a torn file
and at the end the complete new file. Other paths are never touched. -/
theorem run_writes_only_at_end (A : RunArgs K) (fs : Fs K) :
    (∀ e, (updateMapping A fs).1 = some e → ∀ s ∈ (updateMapping A fs).2, s = fs) ∧
    ((updateMapping A fs).1 = none → ∃ (k : ℕ) (f : MapFile K), (updateMapping A fs).2 = List.replicate (k + 1) fs ++
      [Function.update fs A.savePath (some .torn), Function.update fs A.savePath (some (.whole f))]) ∧
    ∀ s ∈ (updateMapping A fs).2, ∀ p, p ≠ A.savePath → s p = fs p := by
  have key : (∃ (e : PyErr) (k : ℕ), updateMapping A fs = (some e, List.replicate (k + 1) fs)) ∨
      ∃ (k : ℕ) (f : MapFile K), updateMapping A fs = (none, List.replicate (k + 1) fs ++
        [Function.update fs A.savePath (some .torn), Function.update fs A.savePath (some (.whole f))]) := by
    unfold updateMapping
    cases hl : loadVariables (fs A.loadPath) A.levels with
    | error e => exact Or.inl ⟨e, 0, rfl⟩
    | ok d =>
      dsimp only
      match hp : profileLoop A.cfg A.P A.no A.levels (missingProfiles d.profileNo A.no) d.profileIndex d with
      | (k, .error e) => exact Or.inl ⟨e, k, rfl⟩
      | (k, .ok d) =>
        dsimp only
        cases hs : sortAndCollect A.argsort d with
        | error e => exact Or.inl ⟨e, k, rfl⟩
        | ok f => exact Or.inr ⟨k, f, rfl⟩
  rcases key with ⟨e, k, h⟩ | ⟨k, f, h⟩
  · rw [h]
    refine ⟨fun _ _ s hs => List.eq_of_mem_replicate hs, fun h' => by simp at h', fun s hs p _ => by rw [List.eq_of_mem_replicate hs]⟩
  · rw [h]
    refine ⟨fun _ h' => by simp at h', fun _ => ⟨k, f, rfl⟩, ?_⟩
    intro s hs p hp
    rcases List.mem_append.1 hs with h1 | h1
    · rw [List.eq_of_mem_replicate h1]
    · simp only [List.mem_cons, List.not_mem_nil, or_false] at h1
      rcases h1 with rfl | rfl <;> simp [hp]

/-! ## C86, C87 -/

/-- C86. A run on an existing mapped file that lacks a profile of the source always fails at the first missing profile and saves nothing: with `AttributeError`,
or with `IndexError` if the file has more columns than numbers of profiles. -/
theorem new_profiles_exception (A : RunArgs K) (fs : Fs K) (f : MapFile K) (hload : fs A.loadPath = some (.whole f)) (v : K) (hv : v ∈ A.no)
    (hnew : v ∉ f.profileNo) :
    updateMapping A fs = (some (if f.profileNo.length < (f.mats .mappedSal).length then .indexError else .attributeError), [fs]) := by
  have hm : missingProfiles f.profileNo A.no ≠ [] := by
    obtain ⟨i, hi, rfl⟩ := List.mem_iff_getElem.1 hv
    apply List.ne_nil_of_mem (a := i)
    unfold missingProfiles
    refine List.mem_filter.2 ⟨List.mem_range.2 hi, ?_⟩
    rw [List.getElem?_eq_getElem hi]
    simp only [decide_eq_true_eq, List.length_eq_zero_iff]
    rw [List.eq_nil_iff_forall_not_mem]
    intro j hj
    rw [argwhere_mem] at hj
    obtain ⟨x, hx, he⟩ := hj
    have : x = A.no[i] := by simpa using he
    exact hnew (this ▸ List.mem_of_getElem? hx)
  unfold updateMapping loadVariables
  rw [hload]
  dsimp only
  obtain ⟨i, is, hcons⟩ := List.exists_cons_of_ne_nil hm
  have hi : i < A.no.length := by
    have : i ∈ missingProfiles f.profileNo A.no := by rw [hcons]; simp
    unfold missingProfiles at this
    exact List.mem_range.1 (List.mem_filter.1 this).1
  rw [hcons]
  unfold profileLoop processProfile
  have e1 : item A.no i = .ok A.no[i] := by unfold item; rw [List.getElem?_eq_getElem hi]
  rw [e1]
  by_cases hlen : f.profileNo.length < (f.mats .mappedSal).length
  · simp only [bind, Except.bind, npInsert, if_neg (not_le.2 hlen), if_pos hlen]
    simp
  · simp only [bind, Except.bind, npInsert, if_pos (not_lt.1 hlen), if_neg hlen, Bool.false_eq_true, if_false]
    simp

/-- C86 for a file with as many columns as numbers of profiles. -/
theorem run_with_new_profiles_fails (A : RunArgs K) (fs : Fs K) (f : MapFile K) (hload : fs A.loadPath = some (.whole f))
    (hlen : (f.mats .mappedSal).length ≤ f.profileNo.length) (v : K) (hv : v ∈ A.no) (hnew : v ∉ f.profileNo) :
    updateMapping A fs = (some .attributeError, [fs]) := by
  rw [new_profiles_exception A fs f hload v hv hnew, if_neg (not_lt.2 hlen)]

/-- A file with profile 1 only and a source with profiles 1 and 2. -/
example (argsort : List (Option ℚ) → List ℕ) (P : Profile ℚ) : updateMapping ⟨"m", "m", fun _ => 0, argsort, P, [1, 2], 1⟩
    (fun _ => some (.whole ⟨[1], 1, fun _ => [[some 35]], fun _ => [some 0], [], 0⟩)) =
      (some .attributeError, [fun _ => some (.whole ⟨[1], 1, fun _ => [[some 35]], fun _ => [some 0], [], 0⟩)]) := by
  rw [new_profiles_exception (K := ℚ) _ _ ⟨[1], 1, fun _ => [[some 35]], fun _ => [some 0], [], 0⟩ rfl 2 (by simp) (by simp)]
  simp

/-- The same with two columns for one number in the file. -/
example (argsort : List (Option ℚ) → List ℕ) (P : Profile ℚ) : updateMapping ⟨"m", "m", fun _ => 0, argsort, P, [1, 2], 1⟩
    (fun _ => some (.whole ⟨[1], 1, fun _ => [[some 35], [some 35]], fun _ => [some 0], [], 0⟩)) =
      (some .indexError, [fun _ => some (.whole ⟨[1], 1, fun _ => [[some 35], [some 35]], fun _ => [some 0], [], 0⟩)]) := by
  rw [new_profiles_exception (K := ℚ) _ _ ⟨[1], 1, fun _ => [[some 35], [some 35]], fun _ => [some 0], [], 0⟩ rfl 2 (by simp) (by simp)]
  simp

/-- C87. A run without a mapped file in which no level of any profile is mapped always fails with `NameError` and saves nothing. -/
theorem run_without_mapped_level_fails (A : RunArgs K) (fs : Fs K) (hload : fs A.loadPath = none) (hsort : IsArgsort A.argsort)
    (hP : Computable A.P A.no.length A.levels) (hm : ¬ SomethingMapped A.P A.no.length A.levels) :
    (updateMapping A fs).1 = some .nameError ∧ ∀ s ∈ (updateMapping A fs).2, s = fs := by
  classical
  haveI : Inhabited K := ⟨0⟩
  obtain ⟨sel, h1, h2⟩ := profileLoop_done A.P A.cfg A.no A.levels hP A.no.length 0 (by omega) []
  have hsel : sel = [] := by
    by_contra hc
    rcases h2.1 hc with h | ⟨i, -, hi, n, hn, hs⟩
    · exact h rfl
    · exact hm ⟨i, hi, n, hn, hs⟩
  have herr : (updateMapping A fs).1 = some .nameError := by
    have hstart : (⟨[], A.levels, fun _ => [], fun _ => [], [], 0, true⟩ : Mapped K) = doneData A.P A.cfg A.no A.levels 0 [] := rfl
    unfold updateMapping loadVariables
    rw [hload]
    dsimp only
    rw [missing_fresh, hstart, h1]
    dsimp only
    have : sortAndCollect A.argsort (doneData A.P A.cfg A.no A.levels A.no.length sel) = .error .nameError := by
      have hno : (doneData A.P A.cfg A.no A.levels A.no.length sel).profileNo = A.no := by unfold doneData; simp
      obtain ⟨hperm, -⟩ := hsort (A.no.map some)
      rw [List.length_map] at hperm
      have hlt : ∀ i ∈ A.argsort (A.no.map some), i < A.no.length := fun i hi => List.mem_range.1 (hperm.mem_iff.1 hi)
      have hlen : (A.argsort (A.no.map some)).length = A.no.length := by simpa using hperm.length_eq
      unfold sortAndCollect
      dsimp only
      rw [hno, gatherAll_ok _ _ _ Mat.mem_all (by
        intro m i hi
        unfold doneData
        dsimp only
        split <;> simpa using hlt i hi)]
      simp only [bind, Except.bind]
      rw [gatherAll_ok (α := List (Option K)) _ _ _ Mat.mem_all (by
        intro m i hi
        rw [List.length_map, hlen]
        exact hlt i hi)]
      have hset : ∀ s, ∀ i ∈ A.argsort (A.no.map some), i < ((doneData A.P A.cfg A.no A.levels A.no.length sel).settings s).length := by
        intro s i hi
        unfold doneData
        simpa using hlt i hi
      rw [gather_ok _ _ hlt, gatherAll_ok _ _ _ Setting.mem_all hset]
      have hsl : ¬ ((doneData A.P A.cfg A.no A.levels A.no.length sel).selected).length > 0 := by
        rw [hsel]; simp [doneData]
      simp only [ite_ok, hsl, if_false]
    rw [this]
  exact ⟨herr, (run_writes_only_at_end A fs).1 _ herr⟩

/-- C88. If the path that is read differs from the path that is saved to (`float_dir` is not empty), a run ignores what lies at the path that is saved to,
such as the results of earlier runs: it ends in the same way and saves the same file. -/
theorem other_path_not_reused (A : RunArgs K) (fs : Fs K) (hpath : A.loadPath ≠ A.savePath) (saved : Option (FileState K)) :
    (updateMapping A (Function.update fs A.savePath saved)).1 = (updateMapping A fs).1 ∧
      ((updateMapping A fs).1 = none → finalFs A (Function.update fs A.savePath saved) A.savePath = finalFs A fs A.savePath) := by
  unfold finalFs updateMapping
  rw [Function.update_of_ne hpath]
  cases hl : loadVariables (fs A.loadPath) A.levels with
  | error e => exact ⟨rfl, fun h => by simp at h⟩
  | ok d =>
    dsimp only
    match hp : profileLoop A.cfg A.P A.no A.levels (missingProfiles d.profileNo A.no) d.profileIndex d with
    | (k, .error e) => exact ⟨rfl, fun h => by simp at h⟩
    | (k, .ok d) =>
      dsimp only
      cases hs : sortAndCollect A.argsort d with
      | error e => exact ⟨rfl, fun h => by simp at h⟩
      | ok f => exact ⟨rfl, fun _ => by dsimp only; rw [getLast_two, getLast_two]; simp⟩

/-! ## Concrete runs -/

/-- Every profile skips its first level and maps the second from one cast. -/
def exProfileRun : Profile ℚ := fun i => .ok (some fun n =>
  .ok (if n = 0 then none else some ⟨fun _ => some (34 + 4 * i), ⟨[35], [1000], [20 + i], [10], [2000], [3000]⟩⟩))

/-- A run for profiles with the numbers `no`. -/
def exRun (no : List ℚ) : RunArgs ℚ :=
  ⟨"map", "map", fun _ => 7, fun l => stableArgsort (K := WithTop ℚ) l, exProfileRun, no, 2⟩

theorem exRun_computable (no : List ℚ) : Computable (exRun no).P (exRun no).no.length (exRun no).levels := by
  constructor
  · intro i _
    exact ⟨_, rfl, fun f hf n _ => by rw [← Option.some.inj hf]; exact ⟨_, rfl⟩⟩
  · intro i _ n _ o ho
    change (if n = 0 then none else some _) = some o at ho
    split at ho
    · cases ho
    · rw [← Option.some.inj ho]; simp

theorem exRun_mapped (no : List ℚ) (h : no ≠ []) : SomethingMapped (exRun no).P (exRun no).no.length (exRun no).levels :=
  ⟨0, List.length_pos_iff.2 h, 1, by simp [exRun], rfl⟩

/-- C88: a second run that reads from another path saves what the first one has saved. -/
example : let A : RunArgs ℚ := { exRun [1, 2, 3] with savePath := "out" }
    (updateMapping A (fun _ => none)).1 = none ∧ (updateMapping A (finalFs A fun _ => none)).1 = none ∧
      finalFs A (finalFs A fun _ => none) "out" = finalFs A (fun _ => none) "out" := by
  intro A
  have hne : A.loadPath ≠ A.savePath := by simp [A, exRun]
  obtain ⟨file, h1, h2, -⟩ := fresh_run_file A (fun _ => none) rfl isArgsort_stable (exRun_computable [1, 2, 3]) (exRun_mapped [1, 2, 3] (by simp))
  have h := other_path_not_reused A (fun _ => none) hne (some (.whole file))
  have hf : finalFs A (fun _ => none) = Function.update (fun _ => none) A.savePath (some (.whole file)) := by
    unfold finalFs
    rw [h1]
    exact congrArg (fun o => Option.getD o _) (getLast_two _ _ _)
  have h0 : (updateMapping A fun _ => none).1 = none := by rw [h1]
  have h3 := h.2 h0
  rw [← hf] at h h3
  exact ⟨h0, h.1.trans h0, h3⟩

/-- C52: the hypotheses of `fresh_run_aligned_partial` are met. -/
example : (fun _ => none : Fs ℚ) (exRun [1, 2, 3]).loadPath = none ∧ IsArgsort (exRun [1, 2, 3]).argsort ∧
    Computable (exRun [1, 2, 3]).P 3 2 ∧ SomethingMapped (exRun [1, 2, 3]).P 3 2 ∧ (exRun [1, 2, 3]).no.Pairwise (· < ·) :=
  ⟨rfl, isArgsort_stable, exRun_computable [1, 2, 3], exRun_mapped [1, 2, 3] (by simp), by simp [exRun]; norm_num⟩

/-- C52: those of `fresh_run_misaligned` are met by the profile numbers 2, 3, 1, and the columns really differ (42 is not plausible). -/
example : (exRun [2, 3, 1]).no.Nodup ∧ ¬ (exRun [2, 3, 1]).no.Pairwise (· < ·) ∧
    profileColumn exProfileRun 2 .mappedSal 0 = [none, some 34] ∧ profileColumn exProfileRun 2 .mappedSal 1 = [none, some 38] ∧
    profileColumn exProfileRun 2 .mappedSal 2 = [none, none] := by
  refine ⟨by simp [exRun], by simp [exRun], ?_, ?_, ?_⟩ <;> decide +kernel

/-- C54: the hypotheses of `reruns_keep_content` are met by reruns with another configuration and with fewer profiles. -/
example : ∀ B ∈ [exRun [3, 1, 2], { exRun [1, 3] with cfg := fun _ => 8 }], B.loadPath = (exRun [2, 3, 1]).loadPath ∧
    B.savePath = (exRun [2, 3, 1]).savePath ∧ IsArgsort B.argsort ∧ (∀ v ∈ B.no, v ∈ (exRun [2, 3, 1]).no) ∧
    B.levels ≤ (exRun [2, 3, 1]).levels := by
  intro B hB
  simp only [List.mem_cons, List.not_mem_nil, or_false] at hB
  rcases hB with rfl | rfl
  · exact ⟨rfl, rfl, isArgsort_stable, by simp [exRun], le_refl _⟩
  · exact ⟨rfl, rfl, isArgsort_stable, by simp [exRun], le_refl _⟩

/-- C141: the hypotheses of `gained_levels_not_mapped` are met by a first run with two levels and a second one with five. -/
example : (exRun [1, 2, 3]).no.Pairwise (· < ·) ∧ ({ exRun [1, 3] with levels := 5 } : RunArgs ℚ).loadPath = (exRun [1, 2, 3]).savePath ∧
    (∀ v ∈ (exRun [1, 3]).no, v ∈ (exRun [1, 2, 3]).no) ∧ (exRun [1, 2, 3]).levels < ({ exRun [1, 3] with levels := 5 } : RunArgs ℚ).levels :=
  ⟨by simp [exRun]; norm_num, rfl, by simp [exRun], by decide⟩

/-- C86: a file with profile 1, and a source with profiles 1 and 2. -/
example : (1 : ℚ) ∈ (exRun [1, 2]).no ∧ (2 : ℚ) ∈ (exRun [1, 2]).no ∧ (2 : ℚ) ∉ [(1 : ℚ)] := by simp [exRun]

/-- C87: a run whose profiles have no position. -/
example : Computable (fun _ => .ok none : Profile ℚ) 3 2 ∧ ¬ SomethingMapped (fun _ => .ok none : Profile ℚ) 3 2 :=
  ⟨⟨fun i _ => ⟨none, rfl, fun f hf => by cases hf⟩, fun i _ n _ o ho => by simp [levelOut] at ho⟩,
    fun ⟨i, _, n, _, h⟩ => by simp [levelOut] at h⟩

end Verif.Props
