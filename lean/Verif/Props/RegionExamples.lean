import Verif.Props.RegionMore
import Verif.Props.Cache

/-!
# C83, and concrete reference data that meet the hypotheses of C43-C47
-/

set_option linter.unusedSectionVars false

namespace Verif.Props

open Verif.Np Verif.Utilities Verif.Helper Verif.Spec Verif.Region Verif.Finders

variable {K : Type} [Field K] [LinearOrder K] [IsStrictOrderedRing K]

/-! ## C83: a reference file with a single cast -/

/-- The disk without the file of type `t` for box `n`. -/
def withoutFile (disk : Disk K) (t : ℕ) (n : ℤ) : Disk K := fun t' n' => if t' = t ∧ n' = n then none else disk t' n'

theorem getData_without (disk : Disk K) (name : List Char) (t : ℕ) (n : ℤ) (f : RefFile K) (hf : disk t n = some f)
    (h1 : f.casts.length = 1) (b : WmoBox) (t' : ℕ) :
    getData (withoutFile disk t n) name b t' = getData disk name b t' ∨
      (∃ e, getData (withoutFile disk t n) name b t' = .error e) ∧
        ((∃ e, getData disk name b t' = .error e) ∨ ∃ d, getData disk name b t' = .ok (some d) ∧ d.scalar = true) := by
  unfold getData withoutFile
  cases hb : b.number with
  | none => exact Or.inl rfl
  | some m =>
    dsimp only
    by_cases hfl : b.flag t' = 1
    · rw [if_pos hfl, if_pos hfl]
      by_cases he : t' = t ∧ m = n
      · obtain ⟨rfl, rfl⟩ := he
        rw [if_pos ⟨rfl, rfl⟩, hf]
        refine Or.inr ⟨⟨_, rfl⟩, ?_⟩
        dsimp only
        by_cases t1 : t' = 1
        · rw [if_pos t1]
          exact Or.inr ⟨_, rfl, by simp [h1]⟩
        · rw [if_neg t1]
          by_cases t2 : t' = 2
          · rw [if_pos t2]
            exact Or.inl ⟨.attributeError, by simp [readBottle, h1, Except.map]⟩
          · rw [if_neg t2]
            exact Or.inl ⟨.attributeError, by simp [readArgo, h1, Except.map]⟩
      · rw [if_neg he]
        exact Or.inl rfl
    · rw [if_neg hfl, if_neg hfl]
      exact Or.inl rfl

/-- C83. A reference file that holds a single cast is ignored, without a message: both functions return what they would
return if the file did not exist. No condition on the other files. -/
theorem single_cast_file_ignored (disk : Disk K) (t : ℕ) (n : ℤ) (f : RefFile K) (hf : disk t n = some f)
    (h1 : f.casts.length = 1) (name : List Char) (boxes : List WmoBox) (index : List ℕ) (floatPres : List (Option K)) (delta : K) :
    histLocations disk name boxes = histLocations (withoutFile disk t n) name boxes ∧
      regionData disk name boxes index floatPres delta = regionData (withoutFile disk t n) name boxes index floatPres delta := by
  have fold : ∀ {σ : Type} (step : σ → Except PyErr (Option (Loaded K)) → σ) (_ : ∀ st e, step st (.error e) = st)
      (_ : ∀ st d, d.scalar = true → step st (.ok (some d)) = st) (vs : List (WmoBox × ℕ)) (st : σ),
      (vs.map fun v => getData disk name v.1 v.2).foldl step st =
        (vs.map fun v => getData (withoutFile disk t n) name v.1 v.2).foldl step st := by
    intro σ step he hd vs
    induction vs with
    | nil => intro st; rfl
    | cons v vs ih =>
      intro st
      rw [List.map_cons, List.map_cons, List.foldl_cons, List.foldl_cons]
      rcases getData_without disk name t n f hf h1 v.1 v.2 with h | ⟨⟨e, h⟩, ⟨e', h'⟩ | ⟨d, h', hs⟩⟩
      · rw [h, ih]
      · rw [h, h', he, he, ih]
      · rw [h, h', he, hd _ _ hs, ih]
  constructor
  · unfold histLocations histFrom
    rw [fold histStep (fun _ _ => rfl) (fun st d h => by simp [histStep, h])]
  · unfold regionData regionFrom
    rw [fold (regionStep index (maxPressure floatPres delta)) (fun _ _ => rfl) (fun st d h => by simp [regionStep, h])]

/-! ## Concrete data -/

/-- A cast with two levels. -/
def exRef (lat long : ℚ) (source : String) (p1 p2 : Option ℚ) : RefCast ℚ :=
  ⟨some lat, some long, "20100615120000".toList, source.toList, [p1, p2], [some 34, some 35], [some 10, some 4]⟩

/-- Box 7101 with three CTD casts, two Argo casts of which one is of float 3901960, and box 7102 with a single CTD cast. -/
def exDisk : Disk ℚ := fun t n =>
  if n = 7101 then
    if t = 1 then some ⟨[exRef 10 20 "ctd-a" (some 100) (some 3000), exRef 11 21 "ctd-b" (some 100) none,
      exRef 12 22 "ctd-c" (some 4000) (some 5000)], 2⟩
    else if t = 3 then some ⟨[exRef 13 23 "argo_3901960_1" (some 50) (some 60), exRef 14 24 "argo_1900100_1" (some 50) (some 60)], 2⟩
    else none
  else if n = 7102 ∧ t = 1 then some ⟨[exRef 15 25 "ctd-d" (some 100) (some 200)], 2⟩
  else none

def exBoxes : List WmoBox := [⟨some 7101, 1, 1, 1⟩, ⟨none, 1, 0, 0⟩, ⟨some 7102, 1, 0, 1⟩]

theorem exDisk_wellFormed : WellFormedDisk exDisk := by
  intro t n f h
  unfold exDisk at h
  split at h
  · split at h
    · obtain rfl := Option.some.inj h
      simp [exRef]
    · split at h
      · obtain rfl := Option.some.inj h
        simp [exRef]
      · cases h
  · split at h
    · obtain rfl := Option.some.inj h
      simp [exRef]
    · cases h

theorem exDisk_casts : refCasts exDisk "3901960".toList exBoxes =
    [exRef 10 20 "ctd-a" (some 100) (some 3000), exRef 11 21 "ctd-b" (some 100) none,
      exRef 12 22 "ctd-c" (some 4000) (some 5000), exRef 14 24 "argo_1900100_1" (some 50) (some 60)] := by decide +kernel

/-- C43, C44: the hypotheses of `region_data_spec` and `region_data_numbering` are met. -/
example : WellFormedDisk exDisk ∧
    (∃ l0, chosen [3, 0, 1] (refCasts exDisk "3901960".toList exBoxes) = exRef 10 20 "ctd-a" (some 100) (some 3000) :: l0 ∧ l0.length = 2) ∧
    usableLevels (pressureLimit [some 1800, none, some 2000] 250) (exRef 10 20 "ctd-a" (some 100) (some 3000)) ≠ [] := by
  refine ⟨exDisk_wellFormed, ⟨_, by rw [exDisk_casts]; rfl, rfl⟩, ?_⟩
  apply List.ne_nil_of_mem (a := (some 100, some 10, some 34))
  unfold usableLevels
  rw [List.mem_filter]
  refine ⟨by simp [levelsOf, exRef], ?_⟩
  simp only [decide_eq_true_eq]
  refine ⟨100, rfl, ?_⟩
  intro m hm
  have : pressureLimit [some (1800 : ℚ), none, some 2000] 250 = some 2250 := by unfold pressureLimit; decide +kernel
  rw [this] at hm
  rw [← Option.some.inj hm]; norm_num

/-- What the model returns for it: three casts in ascending order of their numbers, blanks at the end. -/
example : regionData exDisk "3901960".toList exBoxes [3, 0, 1] [some 1800, none, some 2000] 250 =
    .ok ⟨[[some 34, none], [some 34, none], [some 34, some 35]], [[some 10, none], [some 10, none], [some 10, some 4]],
      [[some 100, none], [some 100, none], [some 50, some 60]], [some 10, some 11, some 14], [some 20, some 21, some 24],
      [dateValue "20100615120000".toList, dateValue "20100615120000".toList, dateValue "20100615120000".toList]⟩ := by decide +kernel

/-- C44: the case that fails is concrete. Cast 2 lies below the limit; when it is the first one chosen, cast 3 is lost too. -/
example : regionData exDisk "3901960".toList exBoxes [3, 2] [some 1800, none, some 2000] 250 = .ok ⟨[], [], [], [], [], []⟩ ∧
    regionData exDisk "3901960".toList exBoxes [3] [some 1800, none, some 2000] 250 =
      .ok ⟨[[some 34, some 35]], [[some 10, some 4]], [[some 50, some 60]], [some 14], [some 24], [dateValue "20100615120000".toList]⟩ := by
  decide +kernel

/-- C46: the hypotheses are met by a file with a cast of the float and one of another float. -/
example : ∃ f, exDisk 3 7101 = some f ∧ 2 ≤ f.casts.length ∧ 2 ≤ f.levels ∧ ∃ c ∈ f.casts, "3901960".toList <:+: c.source := by
  refine ⟨_, rfl, by decide, by decide, exRef 13 23 "argo_3901960_1" (some 50) (some 60), by simp, ?_⟩
  decide +kernel

/-- C47: a call, another call, and the first call again. -/
example : runCalls exDisk (fun i _ => i % 3 == 2) id
    [.hist "3901960".toList exBoxes, .region "3901960".toList exBoxes [3, 0] [some 2000] 250, .hist "3901960".toList exBoxes] emptyCache =
    [freshCall exDisk (.hist "3901960".toList exBoxes), freshCall exDisk (.region "3901960".toList exBoxes [3, 0] [some 2000] 250),
      freshCall exDisk (.hist "3901960".toList exBoxes)] :=
  cached_reads_repeatable _ _ _ _

/-- C84: the hypotheses are met at the start of the process. -/
example : ∃ d, getData exDisk "3901960".toList ⟨some 7101, 1, 1, 1⟩ 1 = .ok (some d) ∧
    (emptyCache : CacheState ℚ).get (keyOf "3901960".toList 1 7101) = none := ⟨_, rfl, rfl⟩

/-- C83: the file of box 7102. -/
example : ∃ f, exDisk 1 7102 = some f ∧ f.casts.length = 1 := ⟨_, rfl, rfl⟩

/-- C45: the hypotheses of `attached_depths_partial` are met. -/
example : ([3000, 2000, 1000, 500] : List ℚ).length = (refCasts exDisk "3901960".toList exBoxes).length ∧
    ([3000, 2000, 1000, 500] : List ℚ).Nodup ∧ ∀ k ∈ [3, 0, 1], k < (refCasts exDisk "3901960".toList exBoxes).length := by
  rw [exDisk_casts]; decide +kernel

/-- C45: four casts listed by falling distance from the float at longitude 20. -/
def exFar : List Cast :=
  [⟨some 24, some 10, some 2000, some 3000⟩, ⟨some 23, some 10, some 2000, some 3000⟩, ⟨some 22, some 10, some 2000, some 3000⟩,
    ⟨some 21, some 10, some 2000, some 3000⟩]

theorem exFar_numInside : numInside (exArgs 3 0) exFar = 4 := by
  unfold numInside exFar
  have h : ∀ x y : ℝ, ∀ t z, InEllipse (exArgs 3 0) ⟨some x, some y, t, z⟩ ↔ ((x - 20) / 24) ^ 2 + ((y - 10) / 12) ^ 2 < 1 := by
    intro x y t z
    unfold InEllipse exArgs
    norm_num
  simp only [List.countP_cons, List.countP_nil, h]
  norm_num

/-- C45: the hypotheses of `besthist_not_ascending` are met, so three casts come back in an order that is not ascending. -/
theorem besthist_not_ascending_concrete : ∃ out,
    findBesthist (exArgs 3 0) (fun l => stableArgsort (K := WithTop ℝ) l) exRand exFar = .ok out ∧
      out.Nodup ∧ out.length = 3 ∧ ¬ out.Pairwise (· < ·) := by
  refine besthist_not_ascending (exArgs 3 0) (by simp [exArgs]) rfl _ isArgsort_stable exRand exRand_valid exFar
    (by rw [exFar_numInside]; norm_num) ?_
  intro i j ci cj hi hj hij
  have hj4 : j < 4 := by
    by_contra hc
    rw [List.getElem?_eq_none (by simpa [exFar] using not_lt.1 hc)] at hj
    cases hj
  interval_cases j <;> interval_cases i <;>
    (obtain rfl := Option.some.inj hi; obtain rfl := Option.some.inj hj
     exact ⟨_, _, rfl, rfl, by norm_num [exArgs]⟩)

end Verif.Props
