import Verif.Lemmas.Saf
import Mathlib.Algebra.Order.Ring.Rat
import Mathlib.Tactic.NormNum

/-!
# The Subantarctic Front constraint
-/

set_option linter.unusedSectionVars false

namespace Verif.Props

open Verif.Np Verif.Helper Verif.Saf Verif.Spec.Saf Verif.Region Verif.Lemmas.Saf

variable {K : Type} [Field K] [LinearOrder K] [IsStrictOrderedRing K]

/-! ### C48: the casts that remain -/

/-- North of 30S the casts come back unchanged. -/
theorem saf_north_identity (interp : Interp K) (temperature : Temperature K) (s : SafProfiles K) (g : SafGrid K) (f : SafFloat K)
    (h : -30 ≤ f.lat) : frontalConstraint interp temperature s g f = .ok g := by
  unfold frontalConstraint
  rw [if_neg (not_lt.2 h)]

theorem gridClasses_length (interp : Interp K) (temperature : Temperature K) (g : SafGrid K) (crit : ℤ) (cl : List ℤ)
    (h : gridClasses interp temperature g crit = .ok cl) : cl.length = g.data.long.length := by
  unfold gridClasses at h
  by_cases hc : crit ≠ 0
  · rw [if_pos hc] at h
    simpa using (mapM_getElem h).1
  · rw [if_neg hc] at h
    rw [← Except.ok.inj h, List.length_replicate]

/-- Whatever the data, the result holds a sub-sequence of the casts, in their order, and the same one in all arrays. -/
theorem saf_subsequence (interp : Interp K) (temperature : Temperature K) (s : SafProfiles K) (g out : SafGrid K) (f : SafFloat K) (n : ℕ)
    (hn : g.data.sal.length = n ∧ g.data.ptmp.length = n ∧ g.data.pres.length = n ∧ g.data.lat.length = n ∧ g.data.long.length = n ∧
      g.data.dates.length = n ∧ g.z.length = n)
    (h : frontalConstraint interp temperature s g f = .ok out) :
    ∃ idx : List ℕ, idx.Pairwise (· < ·) ∧ (∀ i ∈ idx, i < n) ∧
      out.data.sal = idx.map (fun (i : ℕ) => g.data.sal.getD i []) ∧ out.data.ptmp = idx.map (fun (i : ℕ) => g.data.ptmp.getD i []) ∧
      out.data.pres = idx.map (fun (i : ℕ) => g.data.pres.getD i []) ∧ out.data.lat = idx.map (fun (i : ℕ) => g.data.lat.getD i none) ∧
      out.data.long = idx.map (fun (i : ℕ) => g.data.long.getD i none) ∧ out.data.dates = idx.map (fun (i : ℕ) => g.data.dates.getD i 0) ∧
      out.z = idx.map (fun (i : ℕ) => g.z.getD i 0) := by
  have key : ∀ {α : Type} (d : α) (l : List α) (idx : List ℕ), l.length = n → (∀ i ∈ idx, i < n) →
      gather l idx = .ok (idx.map fun (i : ℕ) => l.getD i d) := by
    intro α d l idx hl hi
    haveI : Inhabited α := ⟨d⟩
    rw [gather_ok l idx (by rw [hl]; exact hi)]
    congr 1
    apply List.map_congr_left
    intro i hi'
    have : i < l.length := by rw [hl]; exact hi i hi'
    simp [this]
  have id_range : ∀ {α : Type} (d : α) (l : List α), l.length = n → l = (List.range n).map fun (i : ℕ) => l.getD i d := by
    intro α d l hl
    apply List.ext_getElem
    · simp [hl]
    · intro i h1 h2
      simp [h1]
  obtain ⟨h1, h2, h3, h4, h5, h6, h7⟩ := hn
  unfold frontalConstraint at h
  by_cases hlat : f.lat < -30
  · rw [if_pos hlat] at h
    cases hc : floatClass interp s f with
    | error e => rw [hc] at h; exact absurd h (by simp [bind, Except.bind])
    | ok crit =>
      cases hg : gridClasses interp temperature g crit with
      | error e => rw [hc] at h; simp only [bind, Except.bind, hg] at h; exact absurd h (by simp)
      | ok cl =>
        rw [hc] at h
        simp only [bind, Except.bind, hg] at h
        have hlen := gridClasses_length _ _ _ _ _ hg
        refine ⟨argwhere (fun c => decide (c = crit)) cl, argwhere_sorted _ _, ?_, ?_⟩
        · intro i hi
          have := argwhere_lt _ _ _ hi
          omega
        · have hi : ∀ i ∈ argwhere (fun c => decide (c = crit)) cl, i < n := by
            intro i hi
            have := argwhere_lt _ _ _ hi
            omega
          unfold selectCasts at h
          rw [key [] _ _ h1 hi, key [] _ _ h2 hi, key [] _ _ h3 hi, key none _ _ h4 hi, key none _ _ h5 hi, key 0 _ _ h6 hi,
            key 0 _ _ h7 hi] at h
          have := Except.ok.inj h
          subst this
          simp
  · rw [if_neg hlat] at h
    have := Except.ok.inj h
    subst this
    exact ⟨List.range n, List.pairwise_lt_range, fun i hi => List.mem_range.1 hi, id_range _ _ h1, id_range _ _ h2, id_range _ _ h3,
      id_range _ _ h4, id_range _ _ h5, id_range _ _ h6, id_range _ _ h7⟩

theorem okLevels_profile (f : SafFloat K) : (okLevels f).map (fun l => (l.1, l.2.1)) = floatProfile f := by
  unfold okLevels floatProfile
  rw [List.map_filterMap]
  congr 1
  funext l
  obtain ⟨_ | p, _ | t, s⟩ := l <;> rfl

theorem okLevels_pres (f : SafFloat K) : (okLevels f).map (·.1) = (floatProfile f).map (·.1) := by
  rw [← okLevels_profile, List.map_map]; rfl

theorem okLevels_tmp (f : SafFloat K) : (okLevels f).map (fun l => some l.2.1) = (floatProfile f).map (fun q => some q.2) := by
  rw [← okLevels_profile, List.map_map]; rfl

theorem okLevels_length (f : SafFloat K) : (okLevels f).length = (floatProfile f).length := by
  rw [← okLevels_profile, List.length_map]

open Classical in
/-- The class of an ascending float profile: its side; undecided profiles that cross 300 dbar go through the envelope test. -/
theorem floatClass_side (interp : Interp K) (hI : IsInterp interp) (s : SafProfiles K) (f : SafFloat K) (ha : Ascending (floatProfile f))
    (k : ℤ) (hk : SideIs (floatProfile f) k) :
    floatClass interp s f = .ok (if k = 0 ∧ Crosses300 (floatProfile f) then envelopeClass interp s (okLevels f) else k) := by
  unfold floatClass
  have hiff : ((okLevels f).length > 2 ∧ around300 ((floatProfile f).map (·.1)) = true) ↔ Crosses300 (floatProfile f) := by
    rw [around_iff, okLevels_length]; rfl
  simp only [okLevels_pres, okLevels_tmp, ties_ascending _ ha, List.length_nil, gt_iff_lt, lt_irrefl, if_false]
  rcases hk with ⟨hc, T, hT, rfl⟩ | ⟨hc, rfl⟩
  · rw [if_pos (hiff.2 hc), interp_at_300 interp hI _ ha T hT, classOf_side]
    congr 1
    by_cases h : sideOf T = 0
    · rw [if_pos h, if_pos ⟨h, hc⟩]
    · rw [if_neg h, if_neg (fun x => h x.1)]
  · rw [if_neg (fun h => hc (hiff.1 h)), if_neg (fun h => hc h.2)]

theorem select_gridOf (cs : List (SafCast K)) (side : SafCast K → ℤ) (k : ℤ) :
    selectCasts (gridOf cs) (argwhere (fun c => decide (c = k)) (cs.map side)) = .ok (gridOf (cs.filter fun c => decide (side c = k))) := by
  unfold selectCasts gridOf
  simp only [Verif.Helper.gather_argwhere]
  rfl

theorem gridClasses_side (interp : Interp K) (hI : IsInterp interp) (temperature : Temperature K) (cs : List (SafCast K))
    (hT : ∀ c ∈ cs, TemperatureOf temperature c) (ha : ∀ c ∈ cs, Ascending (profile c.rows)) (side : SafCast K → ℤ)
    (hs : ∀ c ∈ cs, SideIs (profile c.rows.dropLast) (side c)) (k : ℤ) (hk : k ≠ 0) :
    gridClasses interp temperature (gridOf cs) k = .ok (cs.map side) := by
  unfold gridClasses
  rw [if_pos hk]
  have hlen : (gridOf cs).data.long.length = cs.length := by simp [gridOf]
  rw [hlen]
  have hmap : cs.map side = (List.range cs.length).map fun (i : ℕ) => ((cs[i]?).map side).getD 0 := by
    apply List.ext_getElem
    · simp
    · intro i h1 h2
      have : i < cs.length := by simpa using h1
      simp [this]
  rw [hmap]
  apply range_mapM_ok
  intro i hi
  have hmem : cs[i] ∈ cs := List.getElem_mem hi
  have h1 := castClass_side interp hI cs[i].rows (ha _ hmem) _ (hs _ hmem)
  have h2 := hT _ hmem
  unfold TemperatureOf at h2
  simp only [gridOf, item, List.getElem?_map, List.getElem?_eq_getElem hi, Option.map_some, bind, Except.bind, h2, h1, Option.getD_some]

/-- South of 30S, if the float is on one side of the front (temperature at 300 dbar above 5 or below 3 degrees), exactly the casts on the
same side remain. Casts have complete or missing levels with increasing pressures; the last row of the matrices does not count. -/
theorem saf_keeps_own_side (interp : Interp K) (hI : IsInterp interp) (temperature : Temperature K) (s : SafProfiles K)
    (cs : List (SafCast K)) (f : SafFloat K) (hlat : f.lat < -30) (hf : Ascending (floatProfile f)) (k : ℤ)
    (hk : SideIs (floatProfile f) k) (hk0 : k ≠ 0)
    (hT : ∀ c ∈ cs, TemperatureOf temperature c) (ha : ∀ c ∈ cs, Ascending (profile c.rows)) (side : SafCast K → ℤ)
    (hs : ∀ c ∈ cs, SideIs (profile c.rows.dropLast) (side c)) :
    frontalConstraint interp temperature s (gridOf cs) f = .ok (gridOf (cs.filter fun c => decide (side c = k))) := by
  unfold frontalConstraint
  rw [if_pos hlat, floatClass_side interp hI s f hf k hk, if_neg (fun h => hk0 h.1)]
  simp only [bind, Except.bind]
  rw [gridClasses_side interp hI temperature cs hT ha side hs k hk0]
  exact select_gridOf cs side k

/-- If the last row of every cast is missing, the side of a cast is the side of its whole profile. -/
theorem saf_keeps_own_side_partial (interp : Interp K) (hI : IsInterp interp) (temperature : Temperature K) (s : SafProfiles K)
    (cs : List (SafCast K)) (f : SafFloat K) (hlat : f.lat < -30) (hf : Ascending (floatProfile f)) (k : ℤ)
    (hk : SideIs (floatProfile f) k) (hk0 : k ≠ 0)
    (hT : ∀ c ∈ cs, TemperatureOf temperature c) (ha : ∀ c ∈ cs, Ascending (profile c.rows)) (side : SafCast K → ℤ)
    (hpad : ∀ c ∈ cs, c.rows.getLast? = some none)
    (hs : ∀ c ∈ cs, SideIs (profile c.rows) (side c)) :
    frontalConstraint interp temperature s (gridOf cs) f = .ok (gridOf (cs.filter fun c => decide (side c = k))) := by
  refine saf_keeps_own_side interp hI temperature s cs f hlat hf k hk hk0 hT ha side ?_
  intro c hc
  have h1 := hpad c hc
  have h2 := hs c hc
  have : profile c.rows.dropLast = profile c.rows := by
    rw [List.getLast?_eq_some_iff] at h1
    obtain ⟨l, hl⟩ := h1
    rw [hl]
    simp [profile]
  rwa [this]

/-- South of 30S, if the float profile does not cross 300 dbar, all casts remain. -/
theorem saf_undecided_keeps_all (interp : Interp K) (hI : IsInterp interp) (temperature : Temperature K) (s : SafProfiles K)
    (cs : List (SafCast K)) (f : SafFloat K) (hf : Ascending (floatProfile f)) (hn : ¬ Crosses300 (floatProfile f)) :
    frontalConstraint interp temperature s (gridOf cs) f = .ok (gridOf cs) := by
  classical
  by_cases hlat : f.lat < -30
  · unfold frontalConstraint
    rw [if_pos hlat, floatClass_side interp hI s f hf 0 (.inr ⟨hn, rfl⟩), if_neg (fun h => hn h.2)]
    have hg : gridClasses interp temperature (gridOf cs) 0 = .ok (cs.map fun _ => (0 : ℤ)) := by
      unfold gridClasses
      simp [gridOf]
    simp only [bind, Except.bind, hg]
    rw [select_gridOf cs (fun _ => 0) 0]
    simp
  · exact saf_north_identity _ _ _ _ _ (not_lt.1 hlat)

/-! ### The envelope test -/

theorem okLevels_known (f : SafFloat K) :
    (okLevels f).map (·.1) = (f.levels.filter fun l => l.1.isSome && l.2.1.isSome).filterMap (·.1) ∧
      (okLevels f).map (·.2.2) = (f.levels.filter fun l => l.1.isSome && l.2.1.isSome).map (·.2.2) ∧
      (okLevels f).map (fun l => some l.2.1) = (f.levels.filter fun l => l.1.isSome && l.2.1.isSome).map (·.2.1) := by
  unfold okLevels
  induction f.levels with
  | nil => simp
  | cons l ls ih =>
    obtain ⟨_ | p, _ | t, x⟩ := l <;> simp_all

theorem comparison_iff (interp : Interp K) (p : SafProfiles K) (f : SafFloat K) (d s t n₁ n₂ s₁ s₂ : K) :
    Comparison interp p f d s t n₁ n₂ s₁ s₂ ↔
      d ∈ p.deph ∧ (envelopePoint interp p (okLevels f) d).ok d = true ∧
        envelopePoint interp p (okLevels f) d = ⟨some s, some t, some n₁, some n₂, some s₁, some s₂⟩ := by
  obtain ⟨hp, hs, ht⟩ := okLevels_known f
  constructor
  · rintro ⟨h1, h2, h3, ⟨h4, h5⟩, ⟨h6, h7⟩, h8, h9⟩
    rw [← hp, ← hs] at h4
    rw [← hp, ← ht] at h5
    have : envelopePoint interp p (okLevels f) d = ⟨some s, some t, some n₁, some n₂, some s₁, some s₂⟩ := by
      unfold envelopePoint
      simp only [h4, h5, interpAt, Option.bind_some, h6, h7, h8, h9]
    refine ⟨h1, ?_, this⟩
    rw [this]
    simp [EnvelopePoint.ok, h2, h3]
  · rintro ⟨h1, h2, h3⟩
    simp only [EnvelopePoint.ok, Bool.and_eq_true, decide_eq_true_eq] at h2
    have hd := h2.1.1.1.1.1
    unfold envelopePoint at h3
    simp only [EnvelopePoint.mk.injEq] at h3
    obtain ⟨a1, a2, a3, a4, a5, a6⟩ := h3
    simp only [a1, a2, interpAt, Option.bind_some] at a3 a4 a5 a6
    rw [hp, hs] at a1
    rw [hp, ht] at a2
    exact ⟨h1, hd.1, hd.2, ⟨a1, a2⟩, ⟨a3, a4⟩, a5, a6⟩

/-- A point that takes part in the test has all six numbers. -/
theorem ok_point (interp : Interp K) (p : SafProfiles K) (lv : List (K × K × Option K)) (d : K)
    (h : (envelopePoint interp p lv d).ok d = true) :
    ∃ s t n₁ n₂ s₁ s₂, envelopePoint interp p lv d = ⟨some s, some t, some n₁, some n₂, some s₁, some s₂⟩ := by
  simp only [EnvelopePoint.ok, Bool.and_eq_true, Option.isSome_iff_exists] at h
  obtain ⟨⟨⟨⟨⟨_, ⟨s, h1⟩⟩, ⟨s₁, h2⟩⟩, ⟨s₂, h3⟩⟩, ⟨n₁, h4⟩⟩, ⟨n₂, h5⟩⟩ := h
  have ht : ∃ t, (envelopePoint interp p lv d).temp = some t := by
    cases hx : (envelopePoint interp p lv d).temp with
    | some t => exact ⟨t, rfl⟩
    | none =>
      have : (envelopePoint interp p lv d).northInf = none := by
        simp only [envelopePoint] at hx ⊢
        rw [hx]; rfl
      rw [this] at h4
      exact absurd h4 (by simp)
  obtain ⟨t, ht⟩ := ht
  refine ⟨s, t, n₁, n₂, s₁, s₂, ?_⟩
  rw [← h1, ← h2, ← h3, ← h4, ← h5, ← ht]

theorem envelopeClass_eq (interp : Interp K) (p : SafProfiles K) (f : SafFloat K) :
    (envelopeClass interp p (okLevels f) = -1 ↔ SomeComparison interp p f ∧ InSouth interp p f ∧ ¬ InNorth interp p f) ∧
    (envelopeClass interp p (okLevels f) = 1 ↔ SomeComparison interp p f ∧ InNorth interp p f ∧ ¬ InSouth interp p f) ∧
    (envelopeClass interp p (okLevels f) = -1 ∨ envelopeClass interp p (okLevels f) = 0 ∨ envelopeClass interp p (okLevels f) = 1) := by
  set pts := (p.deph.map fun d => (d, envelopePoint interp p (okLevels f) d)).filter fun q => q.2.ok q.1 with hpts
  have hmem : ∀ q, q ∈ pts ↔ q.1 ∈ p.deph ∧ q.2 = envelopePoint interp p (okLevels f) q.1 ∧ q.2.ok q.1 = true := by
    intro q
    rw [hpts, List.mem_filter, List.mem_map]
    constructor
    · rintro ⟨⟨d, hd, rfl⟩, h⟩; exact ⟨hd, rfl, h⟩
    · rintro ⟨h1, h2, h3⟩; exact ⟨⟨q.1, h1, by rw [← h2]⟩, h3⟩
  have hsome : pts.length > 0 ↔ SomeComparison interp p f := by
    constructor
    · intro h
      obtain ⟨q, hq⟩ := List.exists_mem_of_length_pos h
      obtain ⟨h1, h2, h3⟩ := (hmem q).1 hq
      rw [h2] at h3
      obtain ⟨s, t, n₁, n₂, s₁, s₂, h4⟩ := ok_point interp p _ _ h3
      exact ⟨q.1, s, t, n₁, n₂, s₁, s₂, (comparison_iff _ _ _ _ _ _ _ _ _ _).2 ⟨h1, h3, h4⟩⟩
    · rintro ⟨d, s, t, n₁, n₂, s₁, s₂, h⟩
      obtain ⟨h1, h2, h3⟩ := (comparison_iff _ _ _ _ _ _ _ _ _ _).1 h
      exact List.length_pos_of_mem ((hmem (d, envelopePoint interp p (okLevels f) d)).2 ⟨h1, rfl, h2⟩)
  have hsouth : (pts.all fun q => strictlyIn q.2.temp q.2.southInf q.2.southSup) = true ↔ InSouth interp p f := by
    rw [List.all_eq_true]
    constructor
    · intro h d s t n₁ n₂ s₁ s₂ hc
      obtain ⟨h1, h2, h3⟩ := (comparison_iff _ _ _ _ _ _ _ _ _ _).1 hc
      have := h (d, envelopePoint interp p (okLevels f) d) ((hmem _).2 ⟨h1, rfl, h2⟩)
      simp only [h3, strictlyIn, Bool.and_eq_true, decide_eq_true_eq] at this
      exact this
    · intro h q hq
      obtain ⟨h1, h2, h3⟩ := (hmem q).1 hq
      rw [h2] at h3 ⊢
      obtain ⟨s, t, n₁, n₂, s₁, s₂, h4⟩ := ok_point interp p _ _ h3
      have := h q.1 s t n₁ n₂ s₁ s₂ ((comparison_iff _ _ _ _ _ _ _ _ _ _).2 ⟨h1, h3, h4⟩)
      rw [h4]
      simp [strictlyIn, this]
  have hnorth : (pts.all fun q => strictlyIn q.2.sal q.2.northInf q.2.northSup) = true ↔ InNorth interp p f := by
    rw [List.all_eq_true]
    constructor
    · intro h d s t n₁ n₂ s₁ s₂ hc
      obtain ⟨h1, h2, h3⟩ := (comparison_iff _ _ _ _ _ _ _ _ _ _).1 hc
      have := h (d, envelopePoint interp p (okLevels f) d) ((hmem _).2 ⟨h1, rfl, h2⟩)
      simp only [h3, strictlyIn, Bool.and_eq_true, decide_eq_true_eq] at this
      exact this
    · intro h q hq
      obtain ⟨h1, h2, h3⟩ := (hmem q).1 hq
      rw [h2] at h3 ⊢
      obtain ⟨s, t, n₁, n₂, s₁, s₂, h4⟩ := ok_point interp p _ _ h3
      have := h q.1 s t n₁ n₂ s₁ s₂ ((comparison_iff _ _ _ _ _ _ _ _ _ _).2 ⟨h1, h3, h4⟩)
      rw [h4]
      simp [strictlyIn, this]
  have hdef : envelopeClass interp p (okLevels f) = if pts.length > 0 then
      (if ((pts.all fun q => strictlyIn q.2.temp q.2.southInf q.2.southSup) &&
        (pts.all fun q => strictlyIn q.2.sal q.2.northInf q.2.northSup)) = true then 0
      else if (pts.all fun q => strictlyIn q.2.temp q.2.southInf q.2.southSup) = true then -1
      else if (pts.all fun q => strictlyIn q.2.sal q.2.northInf q.2.northSup) = true then 1 else 0) else 0 := rfl
  rw [hdef, ← hsome, ← hsouth, ← hnorth]
  generalize (pts.all fun q => strictlyIn q.2.temp q.2.southInf q.2.southSup) = a
  generalize (pts.all fun q => strictlyIn q.2.sal q.2.northInf q.2.northSup) = b
  by_cases hp : pts.length > 0
  · cases a <;> cases b <;> simp [hp]
  · simp [hp]

/-- South of 30S, if the temperature at 300 dbar is from 3 to 5 degrees, the float counts as south of the front if every comparable depth
lies in the southern envelope and not every one in the northern, as north of it in the opposite case, and is undecided (all casts
remain) otherwise. -/
theorem saf_envelope_decides (interp : Interp K) (hI : IsInterp interp) (temperature : Temperature K) (s : SafProfiles K)
    (cs : List (SafCast K)) (f : SafFloat K) (hlat : f.lat < -30) (hf : Ascending (floatProfile f)) (hc : Crosses300 (floatProfile f))
    (T : K) (hT300 : TemperatureAt300 (floatProfile f) T) (h3 : 3 ≤ T) (h5 : T ≤ 5)
    (hT : ∀ c ∈ cs, TemperatureOf temperature c) (ha : ∀ c ∈ cs, Ascending (profile c.rows)) (side : SafCast K → ℤ)
    (hs : ∀ c ∈ cs, SideIs (profile c.rows.dropLast) (side c)) :
    (SomeComparison interp s f ∧ InSouth interp s f ∧ ¬ InNorth interp s f →
      frontalConstraint interp temperature s (gridOf cs) f = .ok (gridOf (cs.filter fun c => decide (side c = -1)))) ∧
    (SomeComparison interp s f ∧ InNorth interp s f ∧ ¬ InSouth interp s f →
      frontalConstraint interp temperature s (gridOf cs) f = .ok (gridOf (cs.filter fun c => decide (side c = 1)))) ∧
    (¬ SomeComparison interp s f ∨ (InSouth interp s f ↔ InNorth interp s f) →
      frontalConstraint interp temperature s (gridOf cs) f = .ok (gridOf cs)) := by
  classical
  have hside : sideOf T = 0 := by
    unfold sideOf
    rw [if_neg (not_lt.2 h5), if_neg (not_lt.2 h3)]
  have hcl : floatClass interp s f = .ok (envelopeClass interp s (okLevels f)) := by
    rw [floatClass_side interp hI s f hf 0 (.inl ⟨hc, T, hT300, hside.symm⟩), if_pos ⟨rfl, hc⟩]
  obtain ⟨e1, e2, e3⟩ := envelopeClass_eq interp s f
  have step : ∀ k : ℤ, k ≠ 0 → envelopeClass interp s (okLevels f) = k →
      frontalConstraint interp temperature s (gridOf cs) f = .ok (gridOf (cs.filter fun c => decide (side c = k))) := by
    intro k hk hek
    unfold frontalConstraint
    rw [if_pos hlat, hcl, hek]
    simp only [bind, Except.bind]
    rw [gridClasses_side interp hI temperature cs hT ha side hs k hk]
    exact select_gridOf cs side k
  refine ⟨fun h => step (-1) (by norm_num) (e1.2 h), fun h => step 1 (by norm_num) (e2.2 h), ?_⟩
  intro h
  have h0 : envelopeClass interp s (okLevels f) = 0 := by
    rcases e3 with h' | h' | h'
    · have := e1.1 h'; tauto
    · exact h'
    · have := e2.1 h'; tauto
  unfold frontalConstraint
  rw [if_pos hlat, hcl, h0]
  have hg : gridClasses interp temperature (gridOf cs) 0 = .ok (cs.map fun _ => (0 : ℤ)) := by
    unfold gridClasses
    simp [gridOf]
  simp only [bind, Except.bind, hg]
  rw [select_gridOf cs (fun _ => 0) 0]
  simp

/-! ### Repeated pressures -/

/-- South of 30S a float profile in which two successive levels (with pressure and temperature) have the same pressure makes the
constraint fail, whatever the casts are. -/
theorem saf_repeated_pressure_fails (interp : Interp K) (temperature : Temperature K) (s : SafProfiles K) (g : SafGrid K) (f : SafFloat K)
    (hlat : f.lat < -30) (p t t' : K) (h : Neighbours (floatProfile f) (p, t) (p, t')) :
    frontalConstraint interp temperature s g f = .error .valueError := by
  unfold frontalConstraint
  rw [if_pos hlat]
  have : floatClass interp s f = .error .valueError := by
    unfold floatClass
    obtain ⟨pre, post, hl⟩ := h
    rw [if_pos]
    rw [okLevels_pres, hl]
    exact ties_neighbours _ (pre.map (·.1)) (post.map (·.1)) p (by simp)
  rw [this]
  rfl

/-! ### The constraint in the mapping -/

/-- The mapping uses the remaining casts if there are more than five, and otherwise all casts as if there were no front. -/
theorem saf_used_above_five (interp : Interp K) (temperature : Temperature K) (s : SafProfiles K) (g g2 : SafGrid K) (f : SafFloat K)
    (h : frontalConstraint interp temperature s g f = .ok g2) (hrows : ∀ c ∈ g2.data.sal, c ≠ []) :
    applySaf interp temperature s true g f = .ok (if 6 ≤ g2.data.sal.length then g2 else g) ∧
      applySaf interp temperature s false g f = .ok g := by
  refine ⟨?_, rfl⟩
  unfold applySaf
  simp only [if_true, h, bind, Except.bind]
  rw [if_neg]
  · by_cases h6 : g2.data.sal.length > 5
    · rw [if_pos h6]; exact congrArg _ (if_pos (show 6 ≤ _ from h6)).symm
    · rw [if_neg h6]; exact congrArg _ (if_neg (show ¬ 6 ≤ _ from h6)).symm
  · rintro ⟨h1, h2⟩
    cases hs : g2.data.sal with
    | nil => rw [hs] at h2; simp at h2
    | cons a l =>
      rw [hs] at h1
      simp at h1
      exact hrows a (by rw [hs]; simp) h1

end Verif.Props
