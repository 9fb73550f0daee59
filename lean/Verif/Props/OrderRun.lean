import Verif.Props.Order

/-!
# C162: the order of the casts in the reference files
-/

set_option linter.unusedSectionVars false

namespace Verif.Props

open Verif.Np Verif.Utilities Verif.Helper Verif.Region Verif.Profile Verif.Spec Verif.Spec.Profile Verif.Topo Verif.Finders Verif.Level Verif.Update
open Verif.Lemmas.Profile

/-! ## The place of casts and float -/

theorem amongChosen_casts (casts : List (RefCast ℝ)) (index : List ℕ) (cs : List (RefCast ℝ)) (h : ∀ c, c ∈ cs ↔ ∃ n ∈ index, casts[n]? = some c) (x : ℝ) :
    amongChosen casts index x = amongCasts cs x := by
  classical
  unfold amongChosen amongCasts
  refine if_congr (and_congr_left fun _ => ?_) rfl rfl
  constructor
  · rintro ⟨n, hn, c, x', hc, hx, h3⟩
    exact ⟨c, (h c).2 ⟨n, hn, hc⟩, x', hx, h3⟩
  · rintro ⟨c, hc, x', hx, h3⟩
    obtain ⟨n, hn, hc'⟩ := (h c).1 hc
    exact ⟨n, hn, c, x', hc', hx, h3⟩

theorem unwrapped_get (casts : List (RefCast ℝ)) (xs : List ℝ) (hxs : casts.map (·.long) = xs.map some) (n : ℕ) (x : ℝ) (hx : xs[n]? = some x) :
    (unwrapped xs)[n]? = some (amongCasts casts x) := by
  classical
  have key : (∃ c ∈ casts, ∃ x', c.long = some x' ∧ 320 ≤ eastward x') ↔ ∃ x ∈ xs, 320 ≤ eastward x := by
    have mem : ∀ x', some x' ∈ casts.map (·.long) ↔ x' ∈ xs := by
      intro x'
      rw [hxs]
      simp
    constructor
    · rintro ⟨c, hc, x', hx', h⟩
      exact ⟨x', (mem x').1 (List.mem_map.2 ⟨c, hc, hx'⟩), h⟩
    · rintro ⟨x', hx', h⟩
      obtain ⟨c, hc, e⟩ := List.mem_map.1 ((mem x').2 hx')
      exact ⟨c, hc, x', e, h⟩
  unfold unwrapped amongCasts
  by_cases h : ∃ x ∈ xs, 320 ≤ eastward x
  · rw [if_pos h, List.getElem?_map, hx, Option.map_some]
    by_cases h40 : eastward x ≤ 40
    · rw [if_pos h40, if_pos ⟨key.2 h, h40⟩]
    · rw [if_neg h40, if_neg fun h' => h40 h'.2]
  · rw [if_neg h, List.getElem?_map, hx, if_neg fun h' => h (key.1 h'.1), Option.map_some]

theorem beside_unwrapped (casts : List (RefCast ℝ)) (xs : List ℝ) (hxs : casts.map (·.long) = xs.map some) (long : ℝ) :
    besideCasts (unwrapped xs) long = floatAmong (amongCasts casts) casts long := by
  classical
  unfold besideCasts floatAmong
  refine if_congr (and_congr_left fun _ => ?_) rfl rfl
  have hlen : (unwrapped xs).length = xs.length := by unfold unwrapped; split_ifs <;> simp
  have hl : casts.length = xs.length := by simpa using congrArg List.length hxs
  constructor
  · rintro ⟨u, hu, h⟩
    obtain ⟨n, hn⟩ := List.mem_iff_getElem?.1 hu
    have hnx : n < xs.length := by rw [← hlen]; exact (List.getElem?_eq_some_iff.1 hn).1
    rw [unwrapped_get casts xs hxs n _ (List.getElem?_eq_getElem hnx)] at hn
    refine ⟨casts[n], List.getElem_mem _, xs[n], ?_, by rw [Option.some.inj hn]; exact h⟩
    have := congrArg (fun l => l[n]?) hxs
    simpa [hnx, hl] using this
  · rintro ⟨c, hc, x, hx, h⟩
    obtain ⟨n, hn⟩ := List.mem_iff_getElem?.1 hc
    have hxn : xs[n]? = some x := by
      have := congrArg (fun l => l[n]?) hxs
      simp only [List.getElem?_map, hn, Option.map_some, hx] at this
      rw [eq_comm, Option.map_eq_some_iff] at this
      obtain ⟨a, ha, e⟩ := this
      rw [ha, Option.some.inj e]
    exact ⟨_, List.mem_of_getElem? (unwrapped_get casts xs hxs n x hxn), h⟩

/-- A cast that meets a temperature has data. -/
theorem meets_hasData (limit : Option ℝ) (c : RefCast ℝ) (v q delta s : ℝ) (h : Meets limit c v q delta s) : HasData limit c := by
  obtain ⟨k, w, p, ⟨hc, -⟩, -⟩ := h
  have hne : completeLevels limit c ≠ [] := by
    intro h0
    rw [h0] at hc
    simp [Crossing] at hc
  obtain ⟨a, ha⟩ := List.exists_mem_of_ne_nil _ hne
  unfold completeLevels at ha
  obtain ⟨⟨p, t, s⟩, hl, e⟩ := List.mem_filterMap.1 ha
  cases p <;> cases t <;> cases s <;> simp [completeLevel] at e
  exact ⟨_, hl, _, _, _, rfl⟩

/-! ## Depths play no part without potential vorticity -/

/-- The sample at depth 0. -/
def Sample.flat (a : Sample) : Sample := ⟨a.sal, a.pos.lat, a.pos.long, a.pos.date, 0⟩

theorem fieldCorrelation_flat (a b c d : ℝ) (use : ℤ) (hu : use ≠ 1) (p q : FloatPos) (z z' : ℝ) :
    fieldCorrelation a b c d use ⟨p.lat, p.long, p.date, z⟩ ⟨q.lat, q.long, q.date, z'⟩ = fieldCorrelation a b c d use p q := by
  unfold fieldCorrelation
  simp only [if_neg hu]

theorem inliers_flat (l : List Sample) : inliers (l.map Sample.flat) = (inliers l).map Sample.flat := by
  classical
  unfold inliers
  rw [List.map_map, show Sample.sal ∘ Sample.flat = Sample.sal from rfl, List.filter_map]
  rfl

theorem sampleObs_flat (l : List Sample) : sampleObs (l.map Sample.flat) = sampleObs l := by
  unfold sampleObs
  rw [List.map_map]
  rfl

theorem twoStage_flat (c : MapConfig) (hu : c.usePv ≠ 1) (here : FloatPos) (l : List Sample) (noise value err : ℝ) (ht : TwoStage c here l noise value err) :
    TwoStage c ⟨here.lat, here.long, here.date, 0⟩ (l.map Sample.flat) noise value err := by
  have hget : ∀ i : Fin (l.map Sample.flat).length, (l.map Sample.flat).get i = Sample.flat (l.get (finCongr (List.length_map Sample.flat) i)) := by
    intro i
    simp
  refine twoStage_like c _ here (finCongr (List.length_map Sample.flat)) ?_ ?_ ?_ noise value err ht
  · intro i
    rw [hget]
    rfl
  · intro x y t p i j
    rw [hget, hget]
    exact (fieldCorrelation_flat x y t p c.usePv hu _ _ 0 0).symm
  · intro x y t p i
    rw [hget]
    exact (fieldCorrelation_flat x y t p c.usePv hu _ _ 0 0).symm

/-! ## The chosen casts when there are not too many -/

theorem near_mem (cfg : MapConfig) (lat long : ℝ) (casts : List (RefCast ℝ)) (c : RefCast ℝ) :
    c ∈ nearCasts cfg lat long casts ↔ c ∈ casts ∧ Near cfg lat long casts c := by
  unfold nearCasts
  simp

theorem chosen_near (E : Env) (hpv : E.cfg.usePv ≠ 1) (f : FloatProfile) (lat long : ℝ) (casts : List (RefCast ℝ)) (index kept deep : List ℕ) (here : FloatPos)
    (there : List FloatPos) (hS : Surroundings E f lat long casts index kept deep here there) (hfew : (nearCasts E.cfg lat long casts).length ≤ E.maxCasts) :
    index.Pairwise (· < ·) ∧ ∀ n, n ∈ index ↔ ∃ c, casts[n]? = some c ∧ Near E.cfg lat long casts c := by
  classical
  obtain ⟨xs, view, c1, c2, c3, c4⟩ := hS.chosen
  have hl : casts.length = xs.length := by simpa using congrArg List.length c1
  have at_ : ∀ (n : ℕ) (c : RefCast ℝ), casts[n]? = some c → ∃ v, view[n]? = some v ∧
      (InEllipse ⟨lat, besideCasts (unwrapped xs) long, f.date, here.z, E.cfg.latLarge, E.cfg.latSmall, E.cfg.longLarge, E.cfg.longSmall, E.cfg.phiLarge,
      E.cfg.phiSmall, E.cfg.ageLarge, E.cfg.ageSmall, E.cfg.usePv, E.maxCasts⟩ v ↔ Near E.cfg lat long casts c) := by
    intro n c hc
    have hnx : n < xs.length := by rw [← hl]; exact (List.getElem?_eq_some_iff.1 hc).1
    have hx := List.getElem?_eq_getElem hnx
    obtain ⟨y, d, h1, -, h3⟩ := c3 n c _ hc hx
    have hlong : c.long = some xs[n] := by
      have := congrArg (fun l => l[n]?) c1
      simpa [hc, hx] using this
    refine ⟨_, h3, ?_⟩
    rw [unwrapped_get casts xs c1 n _ hx, beside_unwrapped casts xs c1]
    unfold InEllipse Near
    simp only [if_neg hpv, hlong, h1, Option.some.injEq]
    constructor
    · rintro ⟨_, _, rfl, rfl, h⟩
      exact ⟨_, _, rfl, rfl, h⟩
    · rintro ⟨_, _, rfl, rfl, h⟩
      exact ⟨_, _, rfl, rfl, h⟩
  have hnum : numInside ⟨lat, besideCasts (unwrapped xs) long, f.date, here.z, E.cfg.latLarge, E.cfg.latSmall, E.cfg.longLarge, E.cfg.longSmall, E.cfg.phiLarge,
      E.cfg.phiSmall, E.cfg.ageLarge, E.cfg.ageSmall, E.cfg.usePv, E.maxCasts⟩ view = (nearCasts E.cfg lat long casts).length := by
    generalize (⟨lat, besideCasts (unwrapped xs) long, f.date, here.z, E.cfg.latLarge, E.cfg.latSmall, E.cfg.longLarge, E.cfg.longSmall, E.cfg.phiLarge,
      E.cfg.phiSmall, E.cfg.ageLarge, E.cfg.ageSmall, E.cfg.usePv, E.maxCasts⟩ : BesthistArgs) = A at *
    unfold numInside nearCasts
    rw [← List.countP_eq_length_filter]
    have key : view.map (fun v => decide (InEllipse A v)) = casts.map fun c => decide (Near E.cfg lat long casts c) := by
      apply List.ext_getElem
      · simp [c2]
      · intro n h1 h2
        have hn : n < casts.length := by simpa using h2
        obtain ⟨v, hv, e⟩ := at_ n _ (List.getElem?_eq_getElem hn)
        obtain ⟨_, rfl⟩ := List.getElem?_eq_some_iff.1 hv
        simp [e]
    have := congrArg (List.countP id) key
    rw [List.countP_map, List.countP_map] at this
    exact this
  obtain ⟨k1, k2⟩ := c4.few (hnum.trans_le hfew)
  refine ⟨k1, fun n => ⟨?_, ?_⟩⟩
  · intro hn
    obtain ⟨v, hv, he⟩ := c4.inside n hn
    have hlt : n < casts.length := by rw [← c2]; exact (List.getElem?_eq_some_iff.1 hv).1
    obtain ⟨v', hv', e⟩ := at_ n _ (List.getElem?_eq_getElem hlt)
    rw [hv] at hv'
    obtain rfl := Option.some.inj hv'
    exact ⟨_, List.getElem?_eq_getElem hlt, e.1 he⟩
  · rintro ⟨c, hc, hn⟩
    obtain ⟨v, hv, e⟩ := at_ n c hc
    exact k2 n v hv (e.2 hn)

theorem near_index (cfg : MapConfig) (lat long : ℝ) (casts : List (RefCast ℝ)) (index : List ℕ)
    (h : ∀ n, n ∈ index ↔ ∃ c, casts[n]? = some c ∧ Near cfg lat long casts c) (x : ℝ) :
    amongChosen casts index x = amongCasts (nearCasts cfg lat long casts) x := by
  apply amongChosen_casts
  intro c
  rw [near_mem]
  constructor
  · rintro ⟨h1, h2⟩
    obtain ⟨n, hn⟩ := List.mem_iff_getElem?.1 h1
    exact ⟨n, (h n).2 ⟨c, hn, h2⟩, hn⟩
  · rintro ⟨n, hn, hc⟩
    obtain ⟨c', hc', h2⟩ := (h n).1 hn
    rw [hc] at hc'
    obtain rfl := Option.some.inj hc'
    exact ⟨List.mem_of_getElem? hc, h2⟩

theorem kept_mem (limit : Option ℝ) (index : List ℕ) (casts : List (RefCast ℝ)) (n : ℕ) :
    n ∈ keptNumbers limit index casts ↔ n ∈ index ∧ ∃ c, casts[n]? = some c ∧ HasData limit c := by
  classical
  unfold keptNumbers
  rw [List.mem_filter, List.mem_range, decide_eq_true_eq]
  refine ⟨fun h => h.2, fun h => ⟨?_, h⟩⟩
  obtain ⟨-, c, hc, -⟩ := h
  exact (List.getElem?_eq_some_iff.1 hc).1

/-- Where the float is taken to be. -/
theorem here_near (E : Env) (f : FloatProfile) (lat long : ℝ) (casts : List (RefCast ℝ)) (index kept deep : List ℕ) (here : FloatPos)
    (there : List FloatPos) (hS : Surroundings E f lat long casts index kept deep here there) (limit : Option ℝ) (hk : kept = keptNumbers limit index casts)
    (h : ∀ n, n ∈ index ↔ ∃ c, casts[n]? = some c ∧ Near E.cfg lat long casts c) :
    (⟨here.lat, here.long, here.date, 0⟩ : FloatPos) = floatAt limit (nearCasts E.cfg lat long casts) lat long f.date := by
  classical
  obtain ⟨h1, h2, h3, -⟩ := hS.float
  unfold floatAt
  rw [h1, h2, h3]
  congr 1
  unfold besideCasts floatAmong
  refine if_congr (and_congr_left fun _ => ?_) rfl rfl
  constructor
  · rintro ⟨x, hx, hx'⟩
    obtain ⟨a, ha, rfl⟩ := List.mem_map.1 hx
    obtain ⟨k, hka⟩ := List.mem_iff_getElem?.1 ha
    have hlt : k < kept.length := by rw [← hS.number]; exact (List.getElem?_eq_some_iff.1 hka).1
    obtain ⟨c, y, x, a', g1, g2, g3, g4, g5, g6, g7⟩ := hS.place k _ (List.getElem?_eq_getElem hlt)
    rw [hka] at g4
    obtain rfl := Option.some.inj g4
    obtain ⟨m1, c', m2, m3⟩ := (kept_mem limit index casts kept[k]).1 (by rw [← hk]; exact List.getElem_mem _)
    rw [g1] at m2
    obtain rfl := Option.some.inj m2
    obtain ⟨c', m4, m5⟩ := (h _).1 m1
    rw [g1] at m4
    obtain rfl := Option.some.inj m4
    refine ⟨c, List.mem_filter.2 ⟨(near_mem _ _ _ _ _).2 ⟨List.mem_of_getElem? g1, m5⟩, by simpa using m3⟩, x, g3, ?_⟩
    rw [← near_index E.cfg lat long casts index h, ← g6]
    exact hx'
  · rintro ⟨c, hc, x, hx, hx'⟩
    obtain ⟨m1, m2⟩ := List.mem_filter.1 hc
    obtain ⟨m3, m4⟩ := (near_mem _ _ _ _ _).1 m1
    obtain ⟨n, hn⟩ := List.mem_iff_getElem?.1 m3
    have : n ∈ kept := by
      rw [hk, kept_mem]
      exact ⟨(h n).2 ⟨c, hn, m4⟩, c, hn, by simpa using m2⟩
    obtain ⟨k, hkn⟩ := List.mem_iff_getElem?.1 this
    obtain ⟨c', y, x', a, g1, g2, g3, g4, g5, g6, g7⟩ := hS.place k n hkn
    rw [hn] at g1
    obtain rfl := Option.some.inj g1
    rw [hx] at g3
    obtain rfl := Option.some.inj g3
    refine ⟨a.long, List.mem_map.2 ⟨a, List.mem_of_getElem? g4, rfl⟩, ?_⟩
    rw [g6, near_index E.cfg lat long casts index h]
    exact hx'

/-- The samples of a level. -/
theorem used_near (E : Env) (f : FloatProfile) (lat long : ℝ) (casts : List (RefCast ℝ)) (index kept deep : List ℕ) (here : FloatPos)
    (there : List FloatPos) (hS : Surroundings E f lat long casts index kept deep here there) (limit : Option ℝ) (hk : kept = keptNumbers limit index casts)
    (h : ∀ n, n ∈ index ↔ ∃ c, casts[n]? = some c ∧ Near E.cfg lat long casts c) (delta q : ℝ) (t : Option ℝ) (used : List (ℕ × ℝ))
    (hu : used.Pairwise fun a b => a.1 < b.1) (hm : ∀ (k : ℕ) (s : ℝ), (k, s) ∈ used ↔ ∃ (j : ℕ) (c : RefCast ℝ) (v : ℝ), kept[k]? = some j ∧
      casts[j]? = some c ∧ t = some v ∧ Meets limit c v q delta s) :
    used.map (fun u => (there[u.1]?).map fun a => Sample.flat ⟨u.2, a⟩) = (samplesAt limit delta (nearCasts E.cfg lat long casts) t q).map some := by
  classical
  cases t with
  | none =>
    have : used = [] := by
      apply List.eq_nil_iff_forall_not_mem.2
      rintro ⟨k, s⟩ hks
      obtain ⟨_, _, _, _, _, h, _⟩ := (hm k s).1 hks
      simp at h
    simp [this, samplesAt]
  | some v =>
    have hkp : kept.Pairwise (· < ·) := by
      rw [hk]
      exact List.Pairwise.sublist List.filter_sublist List.pairwise_lt_range
    have one : ∀ k s s', (k, s) ∈ used → (k, s') ∈ used → s = s' := by
      intro k s s' h1 h2
      by_contra hne
      obtain ⟨i, hi, e1⟩ := List.mem_iff_getElem.1 h1
      obtain ⟨j, hj, e2⟩ := List.mem_iff_getElem.1 h2
      have hp := List.pairwise_iff_getElem.1 hu
      rcases Nat.lt_trichotomy i j with hij | hij | hij
      · have := hp i j hi hj hij
        rw [e1, e2] at this
        exact absurd this (lt_irrefl _)
      · subst hij
        rw [e1] at e2
        exact hne (Prod.ext_iff.1 e2).2
      · have := hp j i hj hi hij
        rw [e1, e2] at this
        exact absurd this (lt_irrefl _)
    set F := sampleOf limit delta v q (amongCasts (nearCasts E.cfg lat long casts)) with hF
    have hFs : ∀ c, (F c).isSome = true ↔ ∃ s, Meets limit c v q delta s := by
      intro c
      rw [hF]
      unfold sampleOf
      split
      · next h0 => simpa using h0
      · next h0 => simpa using h0
    obtain ⟨js, hjs⟩ : ∃ js, js = used.map fun u => kept.getD u.1 0 := ⟨_, rfl⟩
    have hin : ∀ k s, (k, s) ∈ used → ∃ (j : ℕ) (c : RefCast ℝ), kept[k]? = some j ∧ kept.getD k 0 = j ∧ casts[j]? = some c ∧ Meets limit c v q delta s := by
      intro k s hks
      obtain ⟨j, c, v', e1, e2, e3, e4⟩ := (hm k s).1 hks
      obtain rfl := Option.some.inj e3
      exact ⟨j, c, e1, by rw [List.getD_eq_getElem?_getD, e1]; rfl, e2, e4⟩
    have hjp : js.Pairwise (· < ·) := by
      rw [hjs, List.pairwise_map]
      refine hu.imp_of_mem ?_
      rintro ⟨k, s⟩ ⟨k', s'⟩ m1 m2 hlt
      obtain ⟨j, _, e1, e2, -⟩ := hin k s m1
      obtain ⟨j', _, e1', e2', -⟩ := hin k' s' m2
      dsimp only
      rw [e2, e2']
      obtain ⟨l1, rfl⟩ := List.getElem?_eq_some_iff.1 e1
      obtain ⟨l2, rfl⟩ := List.getElem?_eq_some_iff.1 e1'
      exact List.pairwise_iff_getElem.1 hkp k k' l1 l2 hlt
    have hjm : ∀ j, j ∈ js ↔ ∃ c, casts[j]? = some c ∧ decide (Near E.cfg lat long casts c ∧ (F c).isSome = true) = true := by
      intro j
      simp only [decide_eq_true_eq, hFs]
      constructor
      · intro hj
        rw [hjs] at hj
        obtain ⟨⟨k, s⟩, m1, rfl⟩ := List.mem_map.1 hj
        obtain ⟨j, c, e1, e2, e3, e4⟩ := hin k s m1
        dsimp only
        rw [e2]
        refine ⟨c, e3, ?_, s, e4⟩
        have : j ∈ keptNumbers limit index casts := by rw [← hk]; exact List.mem_of_getElem? e1
        obtain ⟨c', e5, e6⟩ := (h j).1 ((kept_mem _ _ _ _).1 this).1
        rw [e3] at e5
        obtain rfl := Option.some.inj e5
        exact e6
      · rintro ⟨c, hc, hn, s, hs⟩
        have : j ∈ kept := by
          rw [hk, kept_mem]
          exact ⟨(h j).2 ⟨c, hc, hn⟩, c, hc, meets_hasData _ _ _ _ _ _ hs⟩
        obtain ⟨k, hkj⟩ := List.mem_iff_getElem?.1 this
        rw [hjs]
        refine List.mem_map.2 ⟨(k, s), (hm k s).2 ⟨j, c, v, hkj, hc, rfl, hs⟩, ?_⟩
        rw [List.getD_eq_getElem?_getD, hkj]
        rfl
    have key := range_filter_get casts _ js hjp hjm
    have k2 : js.map (fun j => (casts[j]?).bind F) = (samplesAt limit delta (nearCasts E.cfg lat long casts) (some v) q).map some := by
      have k3 := congrArg (List.map fun o : Option (RefCast ℝ) => o.bind F) key
      rw [List.map_map, List.map_map] at k3
      have k4 : samplesAt limit delta (nearCasts E.cfg lat long casts) (some v) q =
          (casts.filter fun c => decide (Near E.cfg lat long casts c ∧ (F c).isSome = true)).filterMap F := by
        unfold samplesAt
        dsimp only
        rw [← hF]
        unfold nearCasts
        rw [List.filterMap_filter, List.filterMap_filter]
        refine List.filterMap_congr fun c _ => ?_
        by_cases h1 : Near E.cfg lat long casts c <;> cases h2 : F c <;> simp [h1]
      rw [k4]
      refine k3.trans ?_
      generalize hL : (casts.filter fun c => decide (Near E.cfg lat long casts c ∧ (F c).isSome = true)) = L
      have hL' : ∀ c ∈ L, (F c).isSome = true := by
        intro c hc
        rw [← hL] at hc
        have := (List.mem_filter.1 hc).2
        exact (of_decide_eq_true this).2
      clear hL
      induction L with
      | nil => rfl
      | cons c L ih =>
        obtain ⟨b, hb⟩ := Option.isSome_iff_exists.1 (hL' c (List.mem_cons_self ..))
        rw [List.filterMap_cons, hb, List.map_cons, List.map_cons, ← ih fun c' hc' => hL' c' (List.mem_cons_of_mem _ hc')]
        simp [hb]
    rw [← k2, hjs, List.map_map]
    refine List.map_congr_left ?_
    rintro ⟨k, s⟩ m1
    obtain ⟨j, c, e1, e2, e3, e4⟩ := hin k s m1
    obtain ⟨c', y, x, a, g1, g2, g3, g4, g5, g6, g7⟩ := hS.place k j e1
    rw [e3] at g1
    obtain rfl := Option.some.inj g1
    simp only [Function.comp, e2, e3, g4, Option.map_some, Option.bind_some]
    have hex : ∃ s, Meets limit c v q delta s := ⟨s, e4⟩
    rw [hF]
    unfold sampleOf
    rw [dif_pos hex]
    have : hex.choose = s := one k _ _ ((hm k _).2 ⟨j, c, v, e1, e3, rfl, hex.choose_spec⟩) m1
    rw [this]
    unfold Sample.flat
    dsimp only
    rw [g5, g6, g7, g2, g3, near_index E.cfg lat long casts index h]
    rfl

/-- C162. If not more casts are in reach of a profile than may be used, and neither the potential vorticity nor the front is used, then all casts in reach that
meet a level are used for it, in the order of the files. -/
theorem saved_few (R : FloatRun) (fs : Fs ℝ) (hi : IsInterp2d R.env.interp2) (hf : R.env.topo.length = 2160 * 4320) (hw : WellFormedDisk R.env.disk)
    (hs : R.env.useSaf ≠ 1) (hpv : R.env.cfg.usePv ≠ 1) (hsort : IsArgsort R.env.argsort) (hrand : ValidRand R.env.rand) (hcfg : ProperConfig R.env.cfg)
    (hmax : 1 ≤ R.env.maxCasts)
    (hno : R.no.Pairwise (· < ·)) (hlen : R.no.length = R.source.length) (hload : fs R.loadPath = none) (hrun : (updateMapping R.args fs).1 = none) :
    ∃ file : MapFile ℝ, finalFs R.args fs = Function.update fs R.savePath (some (.whole file)) ∧ file.profileNo = R.no ∧
      ∀ (i : ℕ) (f : FloatProfile) (lat long : ℝ), R.source[i]? = some f → Placed f → f.lat = some lat → f.long = some long →
        (-90 ≤ lat ∧ lat ≤ 90) → (-180 ≤ long ∧ long ≤ 540) → f.ptmp.length = f.sal.length → f.pres.length = f.sal.length →
        (∀ c ∈ surrounding R.env long lat, ∀ y x : ℝ, c.lat = some y → c.long = some x → (-90 ≤ y ∧ y ≤ 90) ∧ -180 ≤ x ∧ x ≤ 360) →
        ∀ near : List (RefCast ℝ), near = nearCasts R.env.cfg lat long (surrounding R.env long lat) → near.length ≤ R.env.maxCasts →
          ∀ (n : ℕ) (s q : ℝ), n < R.levels → f.sal[n]? = some (some s) → f.pres[n]? = some (some q) → R.env.cfg.pExclude ≤ q →
            ∀ l : List Sample, l = samplesAt (pressureLimit f.pres R.env.cfg.pDelta) R.env.cfg.pDelta near (f.ptmp[n]?).join q →
              (l.length ≤ 5 → ∀ m, storedAt file m i n = some none) ∧
              (5 < l.length → ∃ nv value err : ℝ, IsNoiseVariance (sampleObs (inliers l)) nv ∧ 0 < nv ∧
                TwoStage R.env.cfg (floatAt (pressureLimit f.pres R.env.cfg.pDelta) near lat long f.date) (inliers l) nv value err ∧
                storedAt file .ptmp i n = f.ptmp[n]? ∧
                (30 ≤ value ∧ value ≤ 40 → storedAt file .mappedSal i n = some (some value)) ∧
                (¬ (30 ≤ value ∧ value ≤ 40) → storedAt file .mappedSal i n = some none) ∧
                storedAt file .mapErrors i n = some (some err) ∧ storedAt file .noise i n = some (some nv) ∧
                storedAt file .signal i n = some (some (populationVariance ((inliers l).map Sample.sal)))) := by
  obtain ⟨file, h1, h2, h3⟩ := saved_value R fs hi hf hw hs hsort hrand hcfg hmax hno hlen hload hrun
  refine ⟨file, h1, h2, ?_⟩
  intro i f lat long hif hpl hla hlo hlat hlong hl1 hl2 hpos near hnear hfew n s q hn hsal hpres hex l hl
  obtain ⟨index, kept, here, there, e1, e2, e3⟩ := h3 i f lat long hif hpl hla hlo hlat hlong hl1 hl2 hpos
  rw [hnear] at hfew
  obtain ⟨-, k2⟩ := chosen_near R.env hpv f lat long _ index kept index here there e2 hfew
  obtain ⟨used, u1, u2, u3, u4⟩ := e3 n s q hn hsal hpres hex
  have hjoin : ∀ v, f.ptmp[n]? = some (some v) ↔ (f.ptmp[n]?).join = some v := by
    intro v
    cases f.ptmp[n]? <;> simp
  have hused := used_near R.env f lat long _ index kept index here there e2 _ e1 k2 R.env.cfg.pDelta q (f.ptmp[n]?).join used u1
    (by
      intro k s'
      rw [u2]
      simp only [hjoin])
  rw [← hnear, ← hl] at hused
  have hlen' : used.length = l.length := by simpa using congrArg List.length hused
  rw [hlen'] at u3 u4
  refine ⟨u3, fun h5 => ?_⟩
  obtain ⟨samples, nv, value, err, a1, a2, a3, a4, a5, a6, a7, a8, a9, a10⟩ := u4 h5
  have hsam : samples.map Sample.flat = l := by
    have := congrArg (List.map (Option.map Sample.flat)) a1
    rw [List.map_map, List.map_map] at this
    apply List.map_injective_iff.2 (Option.some_injective _)
    rw [← hused, List.map_map]
    refine this.trans (List.map_congr_left fun u _ => ?_)
    simp only [Function.comp, Option.map_map]
    rfl
  have hin : inliers l = (inliers samples).map Sample.flat := by rw [← hsam, inliers_flat]
  refine ⟨nv, value, err, ?_, a3, ?_, a5, a6, a7, a8, a9, ?_⟩
  · rw [hin, sampleObs_flat]
    exact a2
  · rw [hin, hnear, ← here_near R.env f lat long _ index kept index here there e2 _ e1 k2]
    exact twoStage_flat _ hpv here _ _ _ _ a4
  · rw [a10, hin, List.map_map]
    rfl

/-! ## The order of the casts in the files -/

theorem amongCasts_perm {cs cs' : List (RefCast ℝ)} (h : cs.Perm cs') : amongCasts cs = amongCasts cs' := by
  funext x
  unfold amongCasts
  simp only [h.mem_iff]

theorem floatAmong_perm (place : ℝ → ℝ) {cs cs' : List (RefCast ℝ)} (h : cs.Perm cs') (long : ℝ) : floatAmong place cs long = floatAmong place cs' long := by
  unfold floatAmong
  simp only [h.mem_iff]

theorem nearCasts_perm (cfg : MapConfig) (lat long : ℝ) {cs cs' : List (RefCast ℝ)} (h : cs.Perm cs') :
    (nearCasts cfg lat long cs).Perm (nearCasts cfg lat long cs') := by
  unfold nearCasts
  have : Near cfg lat long cs = Near cfg lat long cs' := by
    funext c
    unfold Near
    rw [amongCasts_perm h, floatAmong_perm _ h]
  rw [this]
  exact h.filter _

theorem samplesAt_perm (limit : Option ℝ) (delta : ℝ) {near near' : List (RefCast ℝ)} (h : near.Perm near') (t : Option ℝ) (q : ℝ) :
    (samplesAt limit delta near t q).Perm (samplesAt limit delta near' t q) := by
  unfold samplesAt
  cases t with
  | none => exact .refl _
  | some v =>
    dsimp only
    rw [amongCasts_perm h]
    exact h.filterMap _

theorem floatAt_perm (limit : Option ℝ) {near near' : List (RefCast ℝ)} (h : near.Perm near') (lat long date : ℝ) :
    floatAt limit near lat long date = floatAt limit near' lat long date := by
  unfold floatAt
  rw [amongCasts_perm h, floatAmong_perm _ (h.filter _)]

theorem fileCasts_shuffled {disk disk' : Disk ℝ} (h : Shuffled disk disk') (name : List Char) (b : WmoBox) (t : ℕ) :
    (fileCasts disk name b t).Perm (fileCasts disk' name b t) := by
  unfold fileCasts
  cases b.number with
  | none => exact .refl _
  | some n =>
    dsimp only
    generalize (if t = 1 then b.ctd else if t = 2 then b.bottle else b.argo) = flag
    split_ifs
    · rcases h t n with ⟨e1, e2⟩ | ⟨f, f', e1, e2, -, hp⟩
      · rw [e1, e2]
      · rw [e1, e2]
        dsimp only
        rw [hp.length_eq]
        by_cases h2 : f'.casts.length < 2
        · rw [if_pos h2, if_pos h2]
        · rw [if_neg h2, if_neg h2]
          exact hp
    · rcases h t n with ⟨e1, e2⟩ | ⟨f, f', e1, e2, -, hp⟩
      · rw [e1, e2]
      · rw [e1, e2]
        dsimp only
        rw [hp.length_eq]
        by_cases h2 : f'.casts.length < 2
        · rw [if_pos h2, if_pos h2]
        · rw [if_neg h2, if_neg h2]
          exact hp.filter _
    · exact .refl _

theorem surrounding_shuffled (R : FloatRun) {disk' : Disk ℝ} (h : Shuffled R.env.disk disk') (long lat : ℝ) :
    (surrounding R.env long lat).Perm (surrounding (runWith R disk').env long lat) := by
  unfold surrounding
  have : boxesAt (runWith R disk').env long lat = boxesAt R.env long lat := rfl
  rw [this]
  cases boxesAt R.env long lat with
  | error e => exact .refl _
  | ok boxes =>
    dsimp only
    unfold refCasts
    refine List.Perm.flatMap (.refl _) fun b _ => ?_
    exact ((fileCasts_shuffled h _ b 1).append (fileCasts_shuffled h _ b 2)).append (fileCasts_shuffled h _ b 3)

theorem shuffled_wellFormed {disk disk' : Disk ℝ} (h : Shuffled disk disk') (hw : WellFormedDisk disk) : WellFormedDisk disk' := by
  intro t n f' hf'
  rcases h t n with ⟨-, e2⟩ | ⟨f, g, e1, e2, e3, hp⟩
  · rw [e2] at hf'; cases hf'
  · rw [e2] at hf'
    obtain rfl := Option.some.inj hf'
    obtain ⟨w1, w2⟩ := hw t n f e1
    rw [← e3]
    exact ⟨w1, fun c hc => w2 c (hp.mem_iff.2 hc)⟩

theorem saved_same {fs : Fs ℝ} {path : String} {file file' : MapFile ℝ} {g : Fs ℝ} (h : g = Function.update fs path (some (.whole file)))
    (h' : g = Function.update fs path (some (.whole file'))) : file = file' := by
  have := congrFun (h.symm.trans h') path
  rw [Function.update_self, Function.update_self] at this
  simpa using this

/-- C162. If the casts in the reference files are put in another order, and two runs, before and after this, without a mapped file end normally, then both save
the same five matrices. This requires that neither the potential vorticity nor the front is used, that not more casts are in reach of any profile than may be
used, and that no nearest neighbours are undecided (C161). -/
theorem saved_order (R : FloatRun) (fs : Fs ℝ) (hi : IsInterp2d R.env.interp2) (hf : R.env.topo.length = 2160 * 4320) (hw : WellFormedDisk R.env.disk)
    (hs : R.env.useSaf ≠ 1) (hpv : R.env.cfg.usePv ≠ 1) (hsort : IsArgsort R.env.argsort) (hrand : ValidRand R.env.rand) (hcfg : ProperConfig R.env.cfg)
    (hmax : 1 ≤ R.env.maxCasts) (hno : R.no.Pairwise (· < ·)) (hlen : R.no.length = R.source.length) (hload : fs R.loadPath = none)
    (hshape : ∀ f ∈ R.source, f.sal.length = R.levels ∧ f.ptmp.length = R.levels ∧ f.pres.length = R.levels)
    (hclear : ∀ f ∈ R.source, Placed f → ∀ lat long, f.lat = some lat → f.long = some long → Clear R f lat long)
    (disk' : Disk ℝ) (hd : Shuffled R.env.disk disk') (hrun : (updateMapping R.args fs).1 = none)
    (hrun' : (updateMapping (runWith R disk').args fs).1 = none) :
    ∃ file file' : MapFile ℝ, finalFs R.args fs = Function.update fs R.savePath (some (.whole file)) ∧
      finalFs (runWith R disk').args fs = Function.update fs R.savePath (some (.whole file')) ∧ file.profileNo = file'.profileNo ∧
      ∀ m, file.mats m = file'.mats m := by
  obtain ⟨file, a1, a2, a3⟩ := saved_few R fs hi hf hw hs hpv hsort hrand hcfg hmax hno hlen hload hrun
  obtain ⟨file', b1, b2, b3⟩ := saved_few (runWith R disk') fs hi hf (shuffled_wellFormed hd hw) hs hpv hsort hrand hcfg hmax hno hlen hload hrun'
  refine ⟨file, file', a1, b1, a2.trans b2.symm, ?_⟩
  obtain ⟨g, c1, -, c3⟩ := saved_missing R fs hsort hno hlen hload hrun
  obtain rfl := saved_same a1 c1
  obtain ⟨g, d1, -, d3⟩ := saved_missing (runWith R disk') fs hsort hno hlen hload hrun'
  obtain rfl := saved_same b1 d1
  obtain ⟨g, e1, -, e3, -⟩ := fresh_run_saved R fs hsort hno hload hrun
  obtain rfl := saved_same a1 e1
  obtain ⟨g, f1, -, f3, -⟩ := fresh_run_saved (runWith R disk') fs hsort hno hload hrun'
  obtain rfl := saved_same b1 f1
  clear c1 d1 e1 f1
  have key : ∀ (i n : ℕ) (m : Mat), i < R.no.length → n < R.levels → storedAt file m i n = storedAt file' m i n := by
    intro i n m hi hn
    have hlt : i < R.source.length := hlen ▸ hi
    have hfi := List.getElem?_eq_getElem hlt
    generalize R.source[i] = f at hfi
    have hmem := List.mem_of_getElem? hfi
    obtain ⟨s1, s2, s3⟩ := hshape f hmem
    have missing : (¬ Placed f ∨ f.sal[n]? = some none ∨ f.pres[n]? = some none ∨ ∃ q, f.pres[n]? = some (some q) ∧ q < R.env.cfg.pExclude) →
        storedAt file m i n = storedAt file' m i n := by
      intro h
      obtain ⟨col, k1, k2⟩ := (c3 i f hfi).1 n hn h m
      obtain ⟨col', k3, k4⟩ := (d3 i f hfi).1 n hn h m
      unfold storedAt
      rw [k1, k3]
      exact k2.trans k4.symm
    by_cases hpl : Placed f
    swap
    · exact missing (.inl hpl)
    obtain ⟨lat, hla⟩ := Option.ne_none_iff_exists'.1 hpl.1
    obtain ⟨long, hlo⟩ := Option.ne_none_iff_exists'.1 hpl.2.1
    have C := hclear f hmem hpl lat long hla hlo
    cases hsal : f.sal[n]? with
    | none => exact absurd hsal (by simp [s1, hn])
    | some s =>
    cases hpres : f.pres[n]? with
    | none => exact absurd hpres (by simp [s3, hn])
    | some q =>
    cases s with
    | none => exact missing (.inr (.inl hsal))
    | some s =>
    cases q with
    | none => exact missing (.inr (.inr (.inl hpres)))
    | some q =>
    by_cases hex : R.env.cfg.pExclude ≤ q
    swap
    · exact missing (.inr (.inr (.inr ⟨q, hpres, not_le.1 hex⟩)))
    obtain ⟨t, ht⟩ : ∃ t, f.ptmp[n]? = some t := ⟨_, List.getElem?_eq_getElem (by rw [s2]; exact hn)⟩
    have hsur := surrounding_shuffled R hd long lat
    have hnear := nearCasts_perm R.env.cfg lat long hsur
    have hc := C.neighbours n t q ht hpres hex
    have hjoin : (f.ptmp[n]?).join = t := by rw [ht]; rfl
    obtain ⟨l, hl⟩ : ∃ l, l = samplesAt (pressureLimit f.pres R.env.cfg.pDelta) R.env.cfg.pDelta (nearCasts R.env.cfg lat long (surrounding R.env long lat))
      (f.ptmp[n]?).join q := ⟨_, rfl⟩
    obtain ⟨l', hl'⟩ : ∃ l, l = samplesAt (pressureLimit f.pres R.env.cfg.pDelta) R.env.cfg.pDelta
      (nearCasts R.env.cfg lat long (surrounding (runWith R disk').env long lat)) (f.ptmp[n]?).join q := ⟨_, rfl⟩
    have hll : l.Perm l' := by rw [hl, hl']; exact samplesAt_perm _ _ hnear _ _
    obtain ⟨x1, x2⟩ := a3 i f lat long hfi hpl hla hlo C.latitude C.longitude (s2.trans s1.symm) (s3.trans s1.symm) C.casts _ rfl C.few n s q hn hsal hpres hex l hl
    obtain ⟨y1, y2⟩ := b3 i f lat long hfi hpl hla hlo C.latitude C.longitude (s2.trans s1.symm) (s3.trans s1.symm)
      (fun c hc => C.casts c (hsur.mem_iff.2 hc)) _ rfl (hnear.length_eq ▸ C.few) n s q hn hsal hpres hex l' hl'
    by_cases h5 : l.length ≤ 5
    · rw [x1 h5 m, y1 (hll.length_eq ▸ h5) m]
    obtain ⟨nv, v, e, p1, p2, p3, p4, p5, p6, p7, p8, p9⟩ := x2 (not_le.1 h5)
    obtain ⟨nv', v', e', q1, q2, q3, q4, q5, q6, q7, q8, q9⟩ := y2 (hll.length_eq ▸ not_le.1 h5)
    have hin := inliers_perm hll
    rw [hjoin] at hl
    rw [← hl] at hc
    obtain rfl := noise_perm hin hc nv nv' p1 q1
    have hne : inliers l ≠ [] := by
      intro h0
      rw [h0] at p1
      rcases p1 with ⟨-, v1⟩ | ⟨hco, -⟩
      · linarith
      · exact hco (by simp [sampleObs, Coincide])
    have q3' := twoStage_perm R.env.cfg _ hin nv v' e' q3
    have hfl : floatAt (pressureLimit f.pres (runWith R disk').env.cfg.pDelta)
      (nearCasts (runWith R disk').env.cfg lat long (surrounding (runWith R disk').env long lat)) lat long f.date =
      floatAt (pressureLimit f.pres R.env.cfg.pDelta) (nearCasts R.env.cfg lat long (surrounding R.env long lat)) lat long f.date :=
      (floatAt_perm (pressureLimit f.pres R.env.cfg.pDelta) hnear lat long f.date).symm
    rw [hfl] at q3'
    obtain ⟨rfl, rfl⟩ := twoStage_unique _ _ _ hne nv p2 v e v' e' p3 q3'
    cases m with
    | ptmp => rw [p4, q4]
    | mappedSal =>
      by_cases hv : 30 ≤ v ∧ v ≤ 40
      · rw [p5 hv, q5 hv]
      · rw [p6 hv, q6 hv]
    | mapErrors => rw [p7, q7]
    | noise => rw [p8, q8]
    | signal => rw [p9, q9, populationVariance_perm (hin.map Sample.sal)]
  intro m
  rw [e3, f3]
  refine List.map_congr_left fun i hi => ?_
  have hi := List.mem_range.1 hi
  apply List.ext_getElem?
  intro n
  by_cases hn : n < R.levels
  · have := key i n m hi hn
    unfold storedAt at this
    rw [e3, f3] at this
    simpa [hi, show (runWith R disk').no.length = R.no.length from rfl] using this
  · have hn1 : R.levels ≤ n := not_lt.1 hn
    rw [List.getElem?_eq_none (by unfold profileColumn; simpa using hn1), List.getElem?_eq_none (by unfold profileColumn; rw [List.length_map, List.length_range]; exact hn1)]

end Verif.Props
