import Verif.Lemmas.Calseries
import Mathlib.Algebra.Order.Ring.Rat

/-!
# Properties of `set_calseries` (C58-C60, C98, C99)
-/

set_option linter.unusedSectionVars false

namespace Verif.Props

open Verif.Np Verif.Spec Verif.Calseries Verif.Update

variable {K : Type} [Field K] [LinearOrder K] [IsStrictOrderedRing K]

section helpers

theorem params_known {src : FloatSource K} {file : Option (CalFile K)} {p : Params K} (h : params src file = .ok p) :
    p.calibNo = knownNumbers src file ∧ p.calseries = knownFlags src file := by
  cases file with
  | none => obtain rfl := (Except.ok.inj h).symm; exact ⟨rfl, by simp [knownFlags, List.map_const']⟩
  | some f =>
    cases hp : f.percent with
    | none => dsimp only [params] at h; rw [hp] at h; cases h
    | some q => dsimp only [params] at h; rw [hp] at h; obtain rfl := (Except.ok.inj h).symm; exact ⟨rfl, rfl⟩

/-- All about a successful call when the known numbers are distinct and have one flag each. -/
theorem setCalseries_full (argsort : List (Option K) → List ℕ) (hs : IsArgsort argsort) (src : FloatSource K) (hw : WellFormedSource src)
    (hnd : src.no.Nodup) (file : Option (CalFile K)) (out : CalFile K) (h : setCalseries argsort src file = .ok out)
    (hl : (knownFlags src file).length = (knownNumbers src file).length) :
    ∃ cal : List K, cal.length = (knownNumbers src file).length ∧
      gather (knownNumbers src file) (argsort ((knownNumbers src file).map some)) = .ok out.calibNo.flatten ∧
      gather (knownFlags src file) (argsort ((knownNumbers src file).map some)) = .ok cal ∧
      out.calseries.flatten.length = cal.length ∧ src.no.length ≤ cal.length ∧
      (∀ i : ℕ, (i < src.no.length ∧ ¬ HasGoodData src i) → out.calseries.flatten[i]? = some 0) ∧
      (∀ i : ℕ, ¬ (i < src.no.length ∧ ¬ HasGoodData src i) → out.calseries.flatten[i]? = cal[i]?) := by
  obtain ⟨p, no, cal, cal', hp, hm, hg, hg', hloop, rfl⟩ := setCalseries_inv _ _ _ _ h
  obtain ⟨e1, e2⟩ := params_known hp
  rw [e1] at hm hg hg'
  rw [e2] at hg'
  haveI : Inhabited K := ⟨0⟩
  obtain ⟨hperm, -⟩ := hs ((knownNumbers src file).map some)
  rw [List.length_map] at hperm
  have hlt : ∀ i ∈ argsort ((knownNumbers src file).map some), i < (knownNumbers src file).length :=
    fun i hi => List.mem_range.1 (hperm.mem_iff.1 hi)
  have hcal : cal.length = (knownNumbers src file).length := by
    rw [gather_ok _ _ fun i hi => by rw [hl]; exact hlt i hi] at hg'
    obtain rfl := Except.ok.inj hg'
    rw [List.length_map, hperm.length_eq, List.length_range]
  have hle : src.no.length ≤ cal.length := by
    rw [hcal]
    exact (List.subperm_of_subset hnd fun v hv => hm v hv).length_le
  obtain ⟨o, ho, hlen, hget⟩ := flagLoop_ok src hw cal src.no.length le_rfl hle
  obtain rfl : cal' = o := Except.ok.inj (hloop.symm.trans ho)
  refine ⟨cal, hcal, ?_, hg', ?_, hle, ?_, ?_⟩
  · simpa using hg
  · simpa using hlen
  · intro i hi; simpa [hi] using hget i
  · intro i hi
    have := hget i
    rw [if_neg hi] at this
    simpa using this

theorem gather_get {α : Type} {l m : List α} {idx : List ℕ} (h : gather l idx = .ok m) (k : ℕ) :
    m[k]? = (idx[k]?).bind fun (i : ℕ) => l[i]? := by
  obtain ⟨hlen, hget⟩ := mapM_getElem h
  cases hk : idx[k]? with
  | none =>
    rw [Option.bind_none, List.getElem?_eq_none]
    have := List.getElem?_eq_none_iff.1 hk
    omega
  | some i =>
    obtain ⟨b, hb, hfb⟩ := hget k i hk
    rw [Option.bind_some, hb]
    cases hli : l[i]? with
    | none => rw [hli] at hfb; cases hfb
    | some a => rw [hli] at hfb; exact congrArg some (Except.ok.inj hfb).symm

end helpers

/-! ## C59: which profiles are left out -/

/-- What `set_calseries` saves, for any order of the profiles: the known numbers in ascending order; at position `i` the flag of the number
there, or 0 if column `i` of the source has no salinity, no temperature or no pressure. -/
theorem set_calseries_saved (argsort : List (Option K) → List ℕ) (hs : IsArgsort argsort) (src : FloatSource K) (hw : WellFormedSource src)
    (hnd : src.no.Nodup) (file : Option (CalFile K)) (hf : ∀ f, file = some f → GoodFile f) (out : CalFile K)
    (h : setCalseries argsort src file = .ok out) :
    GoodFile out ∧ out.calibNo.flatten.Pairwise (· < ·) ∧ out.calibNo.flatten.Perm (knownNumbers src file) ∧
      ∀ (i : ℕ) (p : K), out.calibNo.flatten[i]? = some p → ∃ v, EntryOf (knownNumbers src file) (knownFlags src file) p v ∧
        (i < src.no.length ∧ ¬ HasGoodData src i → out.calseries.flatten[i]? = some 0) ∧
        (¬ (i < src.no.length ∧ ¬ HasGoodData src i) → out.calseries.flatten[i]? = some v) := by
  have hkl : (knownFlags src file).length = (knownNumbers src file).length := by
    cases file with
    | none => simp [knownFlags, knownNumbers]
    | some f => exact (hf f rfl).flags
  have hkn : (knownNumbers src file).Nodup := by
    cases file with
    | none => exact hnd
    | some f => exact (hf f rfl).numbers
  obtain ⟨cal, hlen, hg, hg', hol, hle, h0, h1⟩ := setCalseries_full argsort hs src hw hnd file out h hkl
  haveI : Inhabited K := ⟨0⟩
  obtain ⟨hperm, -⟩ := hs ((knownNumbers src file).map some)
  rw [List.length_map] at hperm
  have hlt : ∀ i ∈ argsort ((knownNumbers src file).map some), i < (knownNumbers src file).length :=
    fun i hi => List.mem_range.1 (hperm.mem_iff.1 hi)
  have hgo := hg
  rw [gather_ok _ _ hlt] at hgo
  have heq := (Except.ok.inj hgo).symm
  have hsorted : out.calibNo.flatten.Pairwise (· < ·) := by
    rw [heq]; exact argsort_sorted argsort hs _ hkn
  have hp : out.calibNo.flatten.Perm (knownNumbers src file) := by
    rw [heq]
    exact (hperm.map _).trans (by rw [map_getElem!_range])
  refine ⟨⟨?_, hsorted.imp ne_of_lt, ?_⟩, hsorted, hp, ?_⟩
  · rw [hol, hlen, hp.length_eq]
  · obtain ⟨p, _, _, _, _, _, _, _, _, rfl⟩ := setCalseries_inv _ _ _ _ h; rfl
  · intro i p hi
    have e1 := gather_get hg i
    have e2 := gather_get hg' i
    rw [hi] at e1
    cases hk : (argsort ((knownNumbers src file).map some))[i]? with
    | none => rw [hk] at e1; cases e1
    | some k =>
      rw [hk, Option.bind_some] at e1 e2
      have hk' : k < (knownFlags src file).length := by
        rw [hkl]; exact hlt k (List.mem_of_getElem? hk)
      refine ⟨(knownFlags src file)[k], ⟨k, e1.symm, List.getElem?_eq_getElem hk'⟩, h0 i, fun hn => ?_⟩
      rw [h1 i hn, e2, List.getElem?_eq_getElem hk']

/-- Part of C59: with ascending profile numbers, and a calseries file (if any) for the same profiles, the entry of every profile is 0 if it has no
good data and unchanged otherwise. -/
theorem set_calseries_excludes_partial (argsort : List (Option K) → List ℕ) (hs : IsArgsort argsort) (src : FloatSource K)
    (hw : WellFormedSource src) (hasc : src.no.Pairwise (· < ·)) (file : Option (CalFile K)) (hf : ∀ f, file = some f → GoodFile f)
    (hsame : (knownNumbers src file).Perm src.no) (out : CalFile K) (h : setCalseries argsort src file = .ok out) :
    out.calibNo.flatten = src.no ∧ ∀ (i : ℕ) (p v : K), src.no[i]? = some p → EntryOf (knownNumbers src file) (knownFlags src file) p v →
      (HasGoodData src i → out.calseries.flatten[i]? = some v) ∧ (¬ HasGoodData src i → out.calseries.flatten[i]? = some 0) := by
  obtain ⟨-, hsorted, hperm, hent⟩ := set_calseries_saved argsort hs src hw (hasc.imp ne_of_lt) file hf out h
  have heq : out.calibNo.flatten = src.no :=
    List.Perm.eq_of_pairwise (fun a b _ _ hab hba => absurd hba (not_lt.2 hab.le)) hsorted hasc (hperm.trans hsame)
  refine ⟨heq, ?_⟩
  rintro i p v hi ⟨j, hj, hv⟩
  have hlt := (List.getElem?_eq_some_iff.1 hi).1
  obtain ⟨w, ⟨j', hj', hw'⟩, h0, h1⟩ := hent i p (by rw [heq]; exact hi)
  have hnd : (knownNumbers src file).Nodup := hsame.nodup_iff.2 (hasc.imp ne_of_lt)
  obtain rfl : j = j' := by
    obtain ⟨a, ha⟩ := List.getElem?_eq_some_iff.1 hj
    obtain ⟨b, hb⟩ := List.getElem?_eq_some_iff.1 hj'
    exact (hnd.getElem_inj_iff).1 (ha.trans hb.symm)
  obtain rfl : v = w := Option.some.inj (hv.symm.trans hw')
  exact ⟨fun hg => h1 fun hc => hc.2 hg, fun hg => h0 ⟨hlt, hg⟩⟩

/-- Two profiles, numbered 1 and 2, the second without salinity. -/
def ascSource : FloatSource ℚ := ⟨[1, 2], [[some 35], [none]], [[some 4], [some 4]], [[some 100], [some 100]]⟩

/-- The same profiles in the opposite order: number 2, without salinity, comes first. -/
def descSource : FloatSource ℚ := ⟨[2, 1], [[none], [some 35]], [[some 4], [some 4]], [[some 100], [some 100]]⟩

def qsort (l : List (Option ℚ)) : List ℕ := stableArgsort (K := WithTop ℚ) l

theorem qsort_isArgsort : IsArgsort qsort := isArgsort_stable

/-- A file as `set_calseries` writes it. -/
def calOf (no flags : List ℚ) : CalFile ℚ := ⟨[], [[4]], [flags], [no], [], [], [], [], some [[1 / 2]]⟩

example : setCalseries qsort ascSource none = .ok (calOf [1, 2] [1, 0]) := by decide +kernel

example : WellFormedSource ascSource ∧ ascSource.no.Pairwise (· < ·) ∧ (knownNumbers ascSource none).Perm ascSource.no ∧
    HasGoodData ascSource 0 ∧ ¬ HasGoodData ascSource 1 := by
  refine ⟨⟨rfl, rfl, rfl⟩, by decide +kernel, List.Perm.refl _, ⟨⟨_, rfl, 35, by simp⟩, ⟨_, rfl, 4, by simp⟩, ⟨_, rfl, 100, by simp⟩⟩, ?_⟩
  rintro ⟨⟨col, h, v, hv⟩, -⟩
  obtain rfl := Option.some.inj h
  simp at hv

/-- C59 is false in general: if the profiles are not in ascending order the flag of a profile with good data is cleared, and that of the profile
without data is kept. -/
theorem set_calseries_excludes_wrong_profile :
    WellFormedSource descSource ∧ descSource.no.Nodup ∧ ¬ HasGoodData descSource 0 ∧ HasGoodData descSource 1 ∧
    ∃ out, setCalseries qsort descSource none = .ok out ∧ EntryOf out.calibNo.flatten out.calseries.flatten 1 0 ∧
      EntryOf out.calibNo.flatten out.calseries.flatten 2 1 := by
  refine ⟨⟨rfl, rfl, rfl⟩, by decide +kernel, ?_, ⟨⟨_, rfl, 35, by simp⟩, ⟨_, rfl, 4, by simp⟩, ⟨_, rfl, 100, by simp⟩⟩,
    calOf [1, 2] [0, 1], by decide +kernel, ⟨0, by decide +kernel, by decide +kernel⟩, ⟨1, by decide +kernel, by decide +kernel⟩⟩
  rintro ⟨⟨col, h, v, hv⟩, -⟩
  obtain rfl := Option.some.inj h
  simp at hv

/-- C59 is also false if the source has lost a profile that the calseries file knows: here the flag 0 of profile 1, no longer in the source, stays at the
first position, where the calibration reads the flag of profile 2. -/
theorem set_calseries_lost_profile :
    ∃ (src : FloatSource ℚ) (f out : CalFile ℚ), WellFormedSource src ∧ GoodFile f ∧ src.no = [2] ∧ HasGoodData src 0 ∧
      EntryOf f.calibNo.flatten f.calseries.flatten 2 1 ∧ setCalseries qsort src (some f) = .ok out ∧ out.calseries.flatten[0]? = some 0 := by
  refine ⟨⟨[2], [[some 35]], [[some 4]], [[some 100]]⟩, calOf [1, 2] [0, 1], calOf [1, 2] [0, 1], ⟨rfl, rfl, rfl⟩, ⟨by decide +kernel, by decide +kernel, rfl⟩,
    rfl, ⟨⟨_, rfl, 35, by simp⟩, ⟨_, rfl, 4, by simp⟩, ⟨_, rfl, 100, by simp⟩⟩, ⟨1, by decide +kernel, by decide +kernel⟩, by decide +kernel, by decide +kernel⟩

/-! ## C58: running it again -/

/-- C58. Running `set_calseries` again on the file it has saved leaves the file as it is, if no profile number occurs twice. -/
theorem set_calseries_idempotent (argsort : List (Option K) → List ℕ) (hs : IsArgsort argsort) (src : FloatSource K) (hw : WellFormedSource src)
    (hnd : src.no.Nodup) (file : Option (CalFile K)) (hf : ∀ f, file = some f → GoodFile f) (out : CalFile K)
    (h : setCalseries argsort src file = .ok out) : setCalseries argsort src (some out) = .ok out := by
  obtain ⟨hgood, hsorted, hperm, hent⟩ := set_calseries_saved argsort hs src hw hnd file hf out h
  obtain ⟨p, no, cal, cal', hp, hm, hg, hg', hl, rfl⟩ := setCalseries_inv _ _ _ _ h
  have hno : ([no] : List (List K)).flatten = no := by simp
  have hca : ([cal'] : List (List K)).flatten = cal' := by simp
  have hlen : cal'.length = no.length := by
    have := hgood.flags
    simpa using this
  have hsorted' : no.Pairwise (· < ·) := by simpa using hsorted
  have hord := argsort_strict argsort hs no hsorted'
  have hkn : ∀ v ∈ src.no, v ∈ no := fun v hv => by
    have h1 : v ∈ knownNumbers src file := by rw [← (params_known hp).1]; exact hm v hv
    have := hperm.mem_iff.2 h1
    simpa using this
  have hle : src.no.length ≤ cal'.length := by
    rw [hlen]; exact (List.subperm_of_subset hnd fun v hv => hkn v hv).length_le
  obtain ⟨o, ho, hol, hget⟩ := flagLoop_ok src hw cal' src.no.length le_rfl hle
  have hfix : o = cal' := by
    apply List.ext_getElem?
    intro i
    rw [hget i]
    split
    · next hi =>
      obtain ⟨v, -, h0, -⟩ := hent i (no[i]'(by omega)) (by simp)
      have := h0 hi
      simpa using this.symm
    · rfl
  rw [hfix] at ho
  have hpar : params src (some (⟨p.breaks, p.maxBreaks, [cal'], [no], dropMany p.thetaLt, dropMany p.thetaGt, dropMany p.presLt, dropMany p.presGt, some p.percent⟩ : CalFile K)) =
      .ok ⟨p.breaks, p.maxBreaks, cal', no, dropMany p.thetaLt, dropMany p.thetaGt, dropMany p.presLt, dropMany p.presGt, p.percent⟩ := by
    dsimp only [params]; rw [hno, hca]
  rw [setCalseries_intro argsort src _ _ no cal' cal' hpar hkn (by rw [hord]; exact gather_range no)
    (by rw [hord, ← hlen]; exact gather_range cal') ho]
  simp only [dropMany_idem]

example : setCalseries qsort descSource none = .ok (calOf [1, 2] [0, 1]) ∧
    setCalseries qsort descSource (some (calOf [1, 2] [0, 1])) = .ok (calOf [1, 2] [0, 1]) := by decide +kernel

/-- An order of equal values that the documentation of `np.argsort` allows: the last of the least values first. -/
def swapSort (l : List (Option ℚ)) : List ℕ := if l = [some 1, some 1] then [1, 0] else qsort l

theorem swapSort_isArgsort : IsArgsort swapSort := by
  intro l
  unfold swapSort
  by_cases h : l = [some 1, some 1]
  · subst h
    rw [if_pos rfl]
    refine ⟨by decide, ?_⟩
    simp [NpLe]
  · rw [if_neg h]; exact qsort_isArgsort l

/-- Why C58 excludes repeated numbers: with the profile number 1 twice, flags 1 and 2, an order of the equal numbers that `np.argsort` may choose
exchanges the flags at every call. -/
theorem set_calseries_repeated_numbers :
    ∃ (argsort : List (Option ℚ) → List ℕ) (src : FloatSource ℚ), IsArgsort argsort ∧ WellFormedSource src ∧
      setCalseries argsort src (some (calOf [1, 1] [1, 2])) = .ok (calOf [1, 1] [2, 1]) ∧
      setCalseries argsort src (some (calOf [1, 1] [2, 1])) = .ok (calOf [1, 1] [1, 2]) :=
  ⟨swapSort, ⟨[1, 1], [[some 35], [some 35]], [[some 4], [some 4]], [[some 100], [some 100]]⟩, swapSort_isArgsort, ⟨rfl, rfl, rfl⟩,
    by decide +kernel, by decide +kernel⟩

/-! ## C60: new profiles -/

/-- C60 is false: a profile of the source that the calseries file does not know makes `set_calseries` raise `AttributeError`, whatever else the
files hold, and nothing is saved. -/
theorem set_calseries_new_profile_fails (argsort : List (Option K) → List ℕ) (src : FloatSource K) (f : CalFile K) (hp : f.percent.isSome) (v : K)
    (hv : v ∈ src.no) (hnew : v ∉ f.calibNo.flatten) : setCalseries argsort src (some f) = .error .attributeError := by
  obtain ⟨q, hq⟩ := Option.isSome_iff_exists.1 hp
  unfold setCalseries
  dsimp only [params]
  rw [hq]
  simp only [bind, Except.bind]
  rw [if_pos]
  intro hc
  exact hnew ((missingIndex_nil _ _).1 hc v hv)

/-- Part of C60: `set_calseries` succeeds exactly if no profile is new (and the file has `use_percent_gt`). -/
theorem set_calseries_new_profiles_partial (argsort : List (Option K) → List ℕ) (hs : IsArgsort argsort) (src : FloatSource K)
    (hw : WellFormedSource src) (hnd : src.no.Nodup) (file : Option (CalFile K))
    (hl : (knownFlags src file).length = (knownNumbers src file).length) :
    (∃ out, setCalseries argsort src file = .ok out) ↔
      (∀ f, file = some f → f.percent.isSome) ∧ ∀ v ∈ src.no, v ∈ knownNumbers src file := by
  constructor
  · rintro ⟨out, h⟩
    obtain ⟨p, no, cal, cal', hp, hm, -⟩ := setCalseries_inv _ _ _ _ h
    refine ⟨?_, fun v hv => by rw [← (params_known hp).1]; exact hm v hv⟩
    rintro f rfl
    cases hq : f.percent with
    | none => dsimp only [params] at hp; rw [hq] at hp; cases hp
    | some q => rfl
  · rintro ⟨hf, hm⟩
    obtain ⟨p, hp, e1, e2⟩ := params_ok src file hf
    haveI : Inhabited K := ⟨0⟩
    obtain ⟨hperm, -⟩ := hs ((knownNumbers src file).map some)
    rw [List.length_map] at hperm
    have hlt : ∀ i ∈ argsort ((knownNumbers src file).map some), i < (knownNumbers src file).length :=
      fun i hi => List.mem_range.1 (hperm.mem_iff.1 hi)
    have g1 := gather_ok (knownNumbers src file) _ hlt
    have g2 := gather_ok (knownFlags src file) (argsort ((knownNumbers src file).map some)) fun i hi => by rw [hl]; exact hlt i hi
    obtain ⟨o, ho, -⟩ := flagLoop_ok src hw ((argsort ((knownNumbers src file).map some)).map fun i => (knownFlags src file)[i]!) src.no.length le_rfl
      (by rw [List.length_map, hperm.length_eq, List.length_range]; exact (List.subperm_of_subset hnd fun v hv => hm v hv).length_le)
    exact ⟨_, setCalseries_intro argsort src file p _ _ o hp (by rw [e1]; exact hm) (by rw [e1]; exact g1) (by rw [e1, e2]; exact g2) ho⟩

example : ∃ out, setCalseries qsort ascSource (some (calOf [2, 1] [2, 1])) = .ok out := ⟨calOf [1, 2] [1, 0], by decide +kernel⟩

example : setCalseries qsort ascSource (some (calOf [1] [1])) = .error .attributeError :=
  set_calseries_new_profile_fails qsort ascSource (calOf [1] [1]) rfl 2 (by decide +kernel) (by decide +kernel)

/-! ## C98: the number of limits -/

/-- Part of C98: a limit that is stored as a column of more than one value is removed; every other limit is saved as it was. -/
theorem set_calseries_limits_partial (argsort : List (Option K) → List ℕ) (src : FloatSource K) (f out : CalFile K)
    (h : setCalseries argsort src (some f) = .ok out) :
    ∀ g ∈ ([CalFile.thetaLt, CalFile.thetaGt, CalFile.presLt, CalFile.presGt] : List (CalFile K → List (List K))),
      ((g f).length > 1 → g out = []) ∧ ((g f).length ≤ 1 → g out = g f) := by
  obtain ⟨p, no, cal, cal', hp, -, -, -, -, rfl⟩ := setCalseries_inv _ _ _ _ h
  cases hq : f.percent with
  | none => dsimp only [params] at hp; rw [hq] at hp; cases hp
  | some q =>
    dsimp only [params] at hp; rw [hq] at hp
    obtain rfl := (Except.ok.inj hp).symm
    have key : ∀ l : List (List K), (l.length > 1 → dropMany l = []) ∧ (l.length ≤ 1 → dropMany l = l) := fun l => by
      unfold dropMany
      exact ⟨fun h => by rw [if_pos h], fun h => by rw [if_neg (by omega)]⟩
    intro g hg
    simp only [List.mem_cons, List.not_mem_nil, or_false] at hg
    rcases hg with rfl | rfl | rfl | rfl <;> exact key _

/-- C98 is false: two limits stored as a row, which is how `savemat` stores a list, are kept. -/
theorem set_calseries_keeps_row_of_limits :
    ∃ (f out : CalFile ℚ), GoodFile f ∧ f.thetaLt = [[5, 10]] ∧ setCalseries qsort ascSource (some f) = .ok out ∧ out.thetaLt = [[5, 10]] := by
  refine ⟨{ calOf [1, 2] [1, 1] with thetaLt := [[5, 10]] }, { calOf [1, 2] [1, 0] with thetaLt := [[5, 10]] }, ⟨by decide +kernel, by decide +kernel, rfl⟩, rfl,
    by decide +kernel, rfl⟩

example : ∃ out, setCalseries qsort ascSource (some { calOf [1, 2] [1, 1] with thetaLt := [[5], [10]], presGt := [[800]] }) = .ok out ∧
    out.thetaLt = [] ∧ out.presGt = [[800]] :=
  ⟨{ calOf [1, 2] [1, 0] with presGt := [[800]] }, by decide +kernel, rfl, rfl⟩

/-! ## C99: files from before `use_percent_gt` -/

/-- C99 is false: a calseries file without `use_percent_gt` makes `set_calseries` raise `KeyError`, whatever else the files hold. -/
theorem set_calseries_old_file_fails (argsort : List (Option K) → List ℕ) (src : FloatSource K) (f : CalFile K) (hp : f.percent = none) :
    setCalseries argsort src (some f) = .error .keyError := by
  unfold setCalseries
  dsimp only [params]
  rw [hp]
  rfl

/-- Part of C99: if it is there it is kept, and a new file has 0.5. -/
theorem set_calseries_percent_partial (argsort : List (Option K) → List ℕ) (src : FloatSource K) (file : Option (CalFile K)) (out : CalFile K)
    (h : setCalseries argsort src file = .ok out) :
    (∀ f, file = some f → out.percent = f.percent) ∧ (file = none → out.percent = some [[1 / 2]]) := by
  obtain ⟨p, no, cal, cal', hp, -, -, -, -, rfl⟩ := setCalseries_inv _ _ _ _ h
  refine ⟨?_, ?_⟩
  · rintro f rfl
    cases hq : f.percent with
    | none => dsimp only [params] at hp; rw [hq] at hp; cases hp
    | some q =>
      dsimp only [params] at hp; rw [hq] at hp
      obtain rfl := (Except.ok.inj hp).symm
      rfl
  · rintro rfl
    obtain rfl := (Except.ok.inj hp).symm
    rfl

example : setCalseries qsort ascSource (some { calOf [1, 2] [1, 1] with percent := none }) = .error .keyError :=
  set_calseries_old_file_fails _ _ _ rfl

end Verif.Props
