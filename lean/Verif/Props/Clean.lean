import Verif.Props.Ends
import Verif.Spec.Clean

/-!
# C165: a run over reference data without defects ends normally
-/

set_option linter.unusedSectionVars false

namespace Verif.Props

open Verif.Np Verif.Utilities Verif.Helper Verif.Region Verif.Profile Verif.Spec Verif.Spec.Profile Verif.Topo Verif.Finders Verif.Saf Verif.Level Verif.Update
open Verif.Lemmas.Profile

/-! ## Noise -/

/-- More than five samples have at least two that are not outliers. -/
theorem inliers_two (l : List Sample) (h : 5 < l.length) : 2 ≤ (inliers l).length := by
  classical
  have hne : l.map Sample.sal ≠ [] := by
    intro h0
    rw [List.map_eq_nil_iff] at h0
    rw [h0] at h
    simp at h
  have h1 := Verif.Level.outliers_few (l.map Sample.sal) hne
  rw [Verif.Level.outliers_length, List.length_map, List.countP_map] at h1
  unfold inliers
  rw [← List.countP_eq_length_filter]
  have h2 := List.length_eq_countP_add_countP (l := l) fun a : Sample =>
    decide (|a.sal - meanOf (l.map Sample.sal)| ≤ 3 * Real.sqrt (populationVariance (l.map Sample.sal)))
  have h3 : (l.countP fun a : Sample => ¬ (decide (|a.sal - meanOf (l.map Sample.sal)| ≤ 3 * Real.sqrt (populationVariance (l.map Sample.sal)))) = true) =
      l.countP ((fun s => decide (9 * populationVariance (l.map Sample.sal) < (s - meanOf (l.map Sample.sal)) ^ 2)) ∘ Sample.sal) := by
    refine List.countP_congr fun a _ => ?_
    simp only [decide_eq_true_eq, Function.comp, not_le]
    exact Verif.Level.lt_abs_iff_sq _ _ (populationVariance_nonneg _)
  rw [h3] at h2
  omega

/-- Samples of different salinities at different places have noise. -/
theorem noise_of_different (l : List Sample) (h2 : 2 ≤ l.length)
    (hd : l.Pairwise fun a b => a.sal ≠ b.sal ∧ ¬ (a.pos.lat = b.pos.lat ∧ a.pos.long = b.pos.long)) : ¬ IsNoiseVariance (sampleObs l) 0 := by
  have hget : ∀ (i : ℕ) (o : Stats.Obs ℝ), (sampleObs l)[i]? = some o → ∃ a, l[i]? = some a ∧ o = ⟨some a.sal, some a.pos.lat, some a.pos.long⟩ := by
    intro i o h
    unfold sampleObs at h
    rw [List.getElem?_map, Option.map_eq_some_iff] at h
    obtain ⟨a, ha, e⟩ := h
    exact ⟨a, ha, e.symm⟩
  rintro (⟨hc, -⟩ | ⟨-, partner, hl, hn, hne, h0⟩)
  · obtain ⟨a, b, t, rfl⟩ : ∃ a b t, l = a :: b :: t := by
      match l, h2 with
      | a :: b :: t, _ => exact ⟨a, b, t, rfl⟩
    obtain ⟨la, lb, xa, xb, e1, e2, e3, e4, e5⟩ := hc ⟨some a.sal, some a.pos.lat, some a.pos.long⟩ (by simp [sampleObs])
      ⟨some b.sal, some b.pos.lat, some b.pos.long⟩ (by simp [sampleObs])
    have hab := (List.pairwise_cons.1 hd).1 b (by simp)
    simp only [Option.some.injEq] at e1 e2 e3 e4
    subst e1 e2 e3 e4
    refine hab.2 ⟨?_, ?_⟩
    · nlinarith [sq_nonneg (a.pos.lat - b.pos.lat), sq_nonneg (a.pos.long - b.pos.long)]
    · nlinarith [sq_nonneg (a.pos.lat - b.pos.lat), sq_nonneg (a.pos.long - b.pos.long)]
  · have hpos : (0 : ℝ) < 2 * ((noiseSquares (sampleObs l) partner).length : ℝ) := by
      have := List.length_pos_of_ne_nil hne
      positivity
    have hsum : (noiseSquares (sampleObs l) partner).sum = 0 := by
      rcases div_eq_zero_iff.1 h0.symm with h | h
      · exact h
      · exact absurd h hpos.ne'
    obtain ⟨w, hw⟩ := List.exists_mem_of_ne_nil _ hne
    have hnn : ∀ u ∈ noiseSquares (sampleObs l) partner, 0 ≤ u ∧ ∃ (i j : ℕ) (a b : Sample), partner[i]? = some j ∧ l[i]? = some a ∧ l[j]? = some b ∧
        u = (a.sal - b.sal) ^ 2 := by
      intro u hu
      unfold noiseSquares at hu
      obtain ⟨⟨o, j⟩, hm, e⟩ := List.mem_filterMap.1 hu
      obtain ⟨i, hi⟩ := List.mem_iff_getElem?.1 hm
      obtain ⟨h1, h2⟩ := List.getElem?_zip_eq_some.1 hi
      obtain ⟨a, ha, rfl⟩ := hget i o h1
      obtain ⟨_, o', _, _, hb', _⟩ := hn i j h2
      obtain ⟨b, hb, rfl⟩ := hget j o' hb'
      dsimp only at e hb'
      rw [hb'] at e
      dsimp only [Option.bind] at e
      obtain rfl := Option.some.inj e
      exact ⟨sq_nonneg _, i, j, a, b, h2, ha, hb, rfl⟩
    have hz : w = 0 := by
      have h1 := List.single_le_sum (fun u hu => (hnn u hu).1) w hw
      exact le_antisymm (hsum ▸ h1) (hnn w hw).1
    obtain ⟨-, i, j, a, b, hp, ha, hb, e⟩ := hnn w hw
    have hs : a.sal = b.sal := by
      rw [hz] at e
      exact sub_eq_zero.1 (pow_eq_zero_iff (two_ne_zero) |>.1 e.symm)
    obtain ⟨o, o', d, g1, g2, ⟨la, lb, xa, xb, e1, e2, e3, e4, e5⟩, g4, -⟩ := hn i j hp
    have hij : i ≠ j := by
      rintro rfl
      rw [g1] at g2
      obtain rfl := Option.some.inj g2
      rw [e1] at e2
      rw [e3] at e4
      obtain rfl := Option.some.inj e2
      obtain rfl := Option.some.inj e4
      apply g4
      rw [e5]
      ring
    obtain ⟨l1, rfl⟩ := List.getElem?_eq_some_iff.1 ha
    obtain ⟨l2, rfl⟩ := List.getElem?_eq_some_iff.1 hb
    rcases Nat.lt_or_gt_of_ne hij with h | h
    · exact (List.pairwise_iff_getElem.1 hd i j l1 l2 h).1 hs
    · exact (List.pairwise_iff_getElem.1 hd j i l2 l1 h).1 hs.symm

/-! ## The choice of casts -/

/-- A cast in the ellipse is in the horizontal ellipse. -/
theorem inEllipse_near (E : Env) (lat long date z : ℝ) (casts : List (RefCast ℝ)) (c : RefCast ℝ) (x y d : ℝ) (hx : c.long = some x) (hy : c.lat = some y)
    (h : InEllipse ⟨lat, floatAmong (amongCasts casts) casts long, date, z, E.cfg.latLarge, E.cfg.latSmall, E.cfg.longLarge, E.cfg.longSmall, E.cfg.phiLarge,
      E.cfg.phiSmall, E.cfg.ageLarge, E.cfg.ageSmall, E.cfg.usePv, E.maxCasts⟩ ⟨some (amongCasts casts x), some y, some (decimalDate c), some d⟩) :
    Near E.cfg lat long casts c := by
  obtain ⟨x', y', e1, e2, h⟩ := h
  obtain rfl := Option.some.inj e1
  obtain rfl := Option.some.inj e2
  refine ⟨x, y, hx, hy, ?_⟩
  dsimp only at h
  split_ifs at h
  · obtain ⟨d', -, -, -, h⟩ := h
    refine lt_of_le_of_lt ?_ h
    refine le_add_of_nonneg_right ?_
    positivity
  · exact h

theorem reached_mem (E : Env) (f : FloatProfile) (lat long : ℝ) (c : RefCast ℝ) :
    c ∈ reached E f lat long ↔ c ∈ surrounding E long lat ∧ Reached E f lat long (surrounding E long lat) c := by
  unfold reached
  simp

/-- With clean surroundings casts in the horizontal ellipse are chosen, at least one. -/
theorem chosenCasts_clean (R : FloatRun) (hi : IsInterp2d R.env.interp2) (hf : R.env.topo.length = 2160 * 4320) (hw : WellFormedDisk R.env.disk)
    (hs : R.env.useSaf ≠ 1) (hsort : IsArgsort R.env.argsort) (hrand : ValidRand R.env.rand) (hmax : 5 ≤ R.env.maxCasts) (f : FloatProfile) (lat long z : ℝ)
    (hC : Clean R f lat long) (hz : DepthAt R.env.topo (max lat (-1079 / 12)) long z) :
    ∃ (boxes : List WmoBox) (index : List ℕ) (bz : List ℝ), surrounding R.env long lat = refCasts R.env.disk R.env.name boxes ∧ index ≠ [] ∧
      (∀ n ∈ index, ∃ c, (surrounding R.env long lat)[n]? = some c ∧ Near R.env.cfg lat long (surrounding R.env long lat) c) ∧
      chosenCasts R.env f lat long z = (regionData R.env.disk R.env.name boxes index f.pres R.env.cfg.pDelta).map fun d => ⟨d, bz⟩ := by
  classical
  obtain ⟨c1, hc1⟩ := List.exists_mem_of_ne_nil _ hC.near
  rw [reached_mem] at hc1
  have hne : surrounding R.env long lat ≠ [] := List.ne_nil_of_mem hc1.1
  obtain ⟨boxes, hbox, hsur⟩ : ∃ boxes, boxesAt R.env long lat = .ok boxes ∧ surrounding R.env long lat = refCasts R.env.disk R.env.name boxes := by
    unfold surrounding at hne ⊢
    cases h : boxesAt R.env long lat with
    | error e => rw [h] at hne; exact absurd rfl hne
    | ok boxes => exact ⟨boxes, rfl, rfl⟩
  have hpos := hC.places
  have hbot := hC.bottom
  obtain ⟨casts, hcasts⟩ : ∃ casts, casts = surrounding R.env long lat := ⟨_, rfl⟩
  rw [← hcasts] at hpos hbot hne hc1 hsur ⊢
  have hh := (hist_locations_spec R.env.disk hw R.env.name boxes).2 (hsur ▸ hne)
  rw [← hsur] at hh
  obtain ⟨lats, hlats⟩ := known_list casts (·.lat) fun c hc => by
    obtain ⟨y, x, h1, -⟩ := hpos c hc
    rw [h1]; simp
  obtain ⟨olongs, holongs⟩ := known_list casts (·.long) fun c hc => by
    obtain ⟨y, x, -, h2, -⟩ := hpos c hc
    rw [h2]; simp
  obtain ⟨longs, hlongs⟩ : ∃ m : List ℝ, wrapLongitude (casts.map (·.long)) = m.map some := by
    rcases wrapLongitude_cases (casts.map (·.long)) with ⟨-, e⟩ | ⟨-, e⟩ <;> rw [e, holongs, List.map_map]
    · exact ⟨olongs.map fun x => w2 (w1 x), by rw [List.map_map]; rfl⟩
    · exact ⟨olongs.map fun x => w1 x, by rw [List.map_map]; rfl⟩
  have hll : lats.length = casts.length := by simpa using (congrArg List.length hlats).symm
  have hlo : longs.length = casts.length := by
    have := congrArg List.length hlongs
    rw [wrapLongitude_len] at this
    simpa using this.symm
  have hla : ∀ y ∈ lats, -90 ≤ y ∧ y ≤ 90 := by
    intro y hy
    have : some y ∈ casts.map (·.lat) := by rw [hlats]; exact List.mem_map.2 ⟨y, hy, rfl⟩
    obtain ⟨c, hc, hcy⟩ := List.mem_map.1 this
    obtain ⟨y', x, h1, -, h3, -⟩ := hpos c hc
    rw [h1] at hcy
    obtain rfl := Option.some.inj hcy
    exact h3
  have hlb : ∀ x ∈ longs, -180 ≤ x ∧ x ≤ 540 := by
    have hol : ∀ x ∈ olongs, -180 ≤ x ∧ x ≤ 360 := by
      intro x hx
      have : some x ∈ casts.map (·.long) := by rw [holongs]; exact List.mem_map.2 ⟨x, hx, rfl⟩
      obtain ⟨c, hc, hcx⟩ := List.mem_map.1 this
      obtain ⟨y, x', -, h2, -, h4⟩ := hpos c hc
      rw [h2] at hcx
      obtain rfl := Option.some.inj hcx
      exact h4
    intro x hx
    have hx' : some x ∈ wrapLongitude (casts.map (·.long)) := by rw [hlongs]; exact List.mem_map.2 ⟨x, hx, rfl⟩
    rcases wrapLongitude_cases (casts.map (·.long)) with ⟨-, e⟩ | ⟨-, e⟩ <;> rw [e, holongs, List.map_map] at hx' <;>
      obtain ⟨a, ha, e'⟩ := List.mem_map.1 hx' <;> have hb := hol a ha <;> simp only [Function.comp, Option.map_some, Option.some.injEq] at e' <;> rw [← e'] <;>
      unfold w1 <;> (try unfold w2) <;> split_ifs <;> constructor <;> linarith
  obtain ⟨gz, hgz, hgl, hgd⟩ := grid_depths_right R.env hi hf lats longs (by omega) (by rintro rfl; exact hne (List.length_eq_zero_iff.1 hll.symm)) hla hlb
  rw [← hlats, ← hlongs] at hgz
  obtain ⟨view, hview⟩ : ∃ view, view = Verif.Profile.castsOf (casts.map (·.lat)) (wrapLongitude (casts.map (·.long))) (casts.map decimalDate) gz := ⟨_, rfl⟩
  obtain ⟨A, hA⟩ : ∃ A, A = besthistArgs R.env lat (matchLongitude (wrapLongitude (casts.map (·.long))) long) f.date z := ⟨_, rfl⟩
  have hvl : view.length = casts.length := by
    rw [hview]
    simp only [Verif.Profile.castsOf, List.length_map, List.length_zip, wrapLongitude_len]
    omega
  have hA' : A = ⟨lat, floatAmong (amongCasts casts) casts long, f.date, z, R.env.cfg.latLarge, R.env.cfg.latSmall, R.env.cfg.longLarge, R.env.cfg.longSmall,
      R.env.cfg.phiLarge, R.env.cfg.phiSmall, R.env.cfg.ageLarge, R.env.cfg.ageSmall, R.env.cfg.usePv, R.env.maxCasts⟩ := by
    rw [hA, wrapLongitude_among, matchLongitude_among]
    rfl
  have at_ : ∀ (n : ℕ) (c : RefCast ℝ), casts[n]? = some c → ∃ x y d, c.long = some x ∧ c.lat = some y ∧ DepthAt R.env.topo (max y (-1079 / 12)) x d ∧
      view[n]? = some ⟨some (amongCasts casts x), some y, some (decimalDate c), some d⟩ := by
    intro n c hc
    have hn := (List.getElem?_eq_some_iff.1 hc).1
    have hzn : n < gz.length := by omega
    obtain ⟨y, x, h1, h2, -⟩ := hpos c (List.mem_of_getElem? hc)
    refine ⟨x, y, gz[n], h2, h1, ?_, ?_⟩
    · have k1 : lats[n]? = some y := by
        have := congrArg (fun l => l[n]?) hlats
        simp only [List.getElem?_map, hc, Option.map_some, h1] at this
        rw [eq_comm, Option.map_eq_some_iff] at this
        obtain ⟨a, ha, e⟩ := this
        rw [ha, Option.some.inj e]
      have k2 : longs[n]? = some (amongCasts casts x) := by
        have := congrArg (fun l => l[n]?) hlongs
        rw [wrapLongitude_among] at this
        simp only [List.getElem?_map, hc, Option.map_some, h2] at this
        rw [eq_comm, Option.map_eq_some_iff] at this
        obtain ⟨a, ha, e⟩ := this
        rw [ha, Option.some.inj e]
      have k3 := hgd n y _ _ k1 k2 (List.getElem?_eq_getElem hzn)
      obtain ⟨m, hm⟩ : ∃ m : ℤ, amongCasts casts x = x + 360 * m := by
        unfold amongCasts eastward
        split_ifs
        · exact ⟨2, by push_cast; ring⟩
        · exact ⟨1, by push_cast; ring⟩
        · exact ⟨1, by push_cast; ring⟩
        · exact ⟨0, by push_cast; ring⟩
      rw [hm] at k3
      exact Verif.Lemmas.Depth.depth_turn _ _ _ _ m k3
    · rw [hview, wrapLongitude_among]
      unfold Verif.Profile.castsOf
      rw [List.getElem?_map]
      have : ((casts.map (·.lat)).zip ((casts.map fun c => c.long.map (amongCasts casts)).zip ((casts.map decimalDate).zip gz)))[n]? =
          some (some y, some (amongCasts casts x), decimalDate c, gz[n]) := by
        simp [List.getElem?_zip_eq_some, hc, List.getElem?_eq_getElem hzn, h1, h2]
      rw [this]
      rfl
  have hat : ∀ (n : ℕ) (v : Cast), view[n]? = some v → ∃ c, casts[n]? = some c := by
    intro n v hv
    have hn : n < casts.length := by rw [← hvl]; exact (List.getElem?_eq_some_iff.1 hv).1
    exact ⟨_, List.getElem?_eq_getElem hn⟩
  have hin : ∀ (n : ℕ) (v : Cast), view[n]? = some v → InEllipse A v → ∃ c, casts[n]? = some c ∧ Near R.env.cfg lat long casts c := by
    intro n v hv he
    obtain ⟨c, hc⟩ := hat n v hv
    obtain ⟨x, y, d, h1, h2, -, h4⟩ := at_ n c hc
    rw [hv] at h4
    obtain rfl := Option.some.inj h4
    rw [hA'] at he
    exact ⟨c, hc, inEllipse_near R.env lat long f.date z casts c x y d h1 h2 he⟩
  have hmaxA : A.maxCasts = R.env.maxCasts := by rw [hA]; rfl
  have hz0 : A.mapPvUse = 1 → ∀ c ∈ view, c.z ≠ some 0 := by
    intro hu v hv h0
    obtain ⟨n, hn⟩ := List.mem_iff_getElem?.1 hv
    obtain ⟨c, hc⟩ := hat n v hn
    obtain ⟨x, y, d, h1, h2, h3, h4⟩ := at_ n c hc
    rw [hn] at h4
    obtain rfl := Option.some.inj h4
    refine hbot (by rw [hA'] at hu; exact hu) c (List.mem_of_getElem? hc) y x d h2 h1 h3 (Option.some.inj h0)
  obtain ⟨index, hfind, hnil, hmem⟩ : ∃ index, findBesthist A R.env.argsort R.env.rand view = .ok index ∧ index ≠ [] ∧
      ∀ n ∈ index, ∃ v, view[n]? = some v ∧ InEllipse A v := by
    by_cases hfew : numInside A view ≤ A.maxCasts
    · obtain ⟨index, hfind, -, hmem⟩ := besthist_few_returns_all A R.env.argsort R.env.rand view (by
        intro h0
        rw [h0] at hvl
        exact hne (List.length_eq_zero_iff.1 hvl.symm)) hz0 hfew
      refine ⟨index, hfind, ?_, fun n hn => (hmem n).1 hn⟩
      obtain ⟨n, hn⟩ := List.mem_iff_getElem?.1 hc1.1
      obtain ⟨x, y, d, h1, h2, h3, h4⟩ := at_ n c1 hn
      obtain ⟨x', y', k1, k2, k3⟩ := hc1.2
      rw [h1] at k1
      rw [h2] at k2
      obtain rfl := Option.some.inj k1
      obtain rfl := Option.some.inj k2
      exact List.ne_nil_of_mem ((hmem n).2 ⟨_, h4, by rw [hA']; exact k3 z d hz h3⟩)
    · obtain ⟨index, hfind, hlen, -⟩ := besthist_many_exact_size A R.env.argsort hsort R.env.rand hrand view hz0 (Or.inr (by omega)) (not_le.1 hfew)
      refine ⟨index, hfind, ?_, besthist_only_inside A R.env.argsort hsort R.env.rand hrand view (by omega) index hfind⟩
      intro h0
      rw [h0] at hlen
      simp at hlen
      omega
  have hidx : ∀ n ∈ index, ∃ c, casts[n]? = some c ∧ Near R.env.cfg lat long casts c := by
    intro n hn
    obtain ⟨v, hv, he⟩ := hmem n hn
    exact hin n v hv he
  obtain ⟨bz, hgather⟩ : ∃ bz, gather gz index = .ok bz := ⟨_, gather_ok gz index (by
    intro i hi
    obtain ⟨c, hc, -⟩ := hidx i hi
    have := (List.getElem?_eq_some_iff.1 hc).1
    omega)⟩
  refine ⟨boxes, index, bz, hsur, hnil, hidx, ?_⟩
  unfold chosenCasts
  simp only [bind, Except.bind, hbox, hh, hgz]
  rw [← hA, ← hview, hfind]
  dsimp only
  cases regionData R.env.disk R.env.name boxes index f.pres R.env.cfg.pDelta with
  | error e => rfl
  | ok d =>
    dsimp only
    rw [hgather]
    dsimp only
    unfold applySaf
    rw [if_neg (by simpa using hs)]
    rfl

/-- With clean surroundings everything before the level loop succeeds. -/
theorem prepare_clean (R : FloatRun) (hi : IsInterp2d R.env.interp2) (hf : R.env.topo.length = 2160 * 4320) (hw : WellFormedDisk R.env.disk)
    (hs : R.env.useSaf ≠ 1) (hsort : IsArgsort R.env.argsort) (hrand : ValidRand R.env.rand) (hmax : 5 ≤ R.env.maxCasts) (f : FloatProfile) (lat long : ℝ)
    (hC : Clean R f lat long) : ∃ p, prepare R.env f lat long = .ok p := by
  obtain ⟨z, hz, hzd⟩ := float_depth_right R.env hi hf lat long hC.latitude.1 hC.latitude.2 hC.longitude.1 hC.longitude.2
  obtain ⟨boxes, index, bz, k1, k2, k3, k4⟩ := chosenCasts_clean R hi hf hw hs hsort hrand hmax f lat long z hC hzd
  obtain ⟨limit, hlim⟩ : ∃ limit, limit = pressureLimit f.pres R.env.cfg.pDelta := ⟨_, rfl⟩
  have hmem : ∀ c ∈ chosen index (surrounding R.env long lat), ∃ a ∈ completeLevels limit c, ∃ b ∈ completeLevels limit c, a.theta ≠ b.theta := by
    intro c hc
    unfold chosen at hc
    obtain ⟨⟨c', n⟩, hm, rfl⟩ := List.mem_map.1 hc
    obtain ⟨m1, m2⟩ := List.mem_filter.1 hm
    obtain ⟨c'', h1, h2⟩ := k3 n (by simpa using m2)
    have h3 := List.mem_zipIdx_iff_getElem?.1 m1
    dsimp only at h3
    rw [h3] at h1
    obtain rfl := Option.some.inj h1
    rw [hlim]
    exact hC.levels c' ((near_mem _ _ _ _ _).2 ⟨List.mem_of_getElem? h3, h2⟩)
  have hdata : ∀ c ∈ chosen index (surrounding R.env long lat), HasData limit c := by
    intro c hc
    obtain ⟨a, ha, -⟩ := hmem c hc
    exact (hasData_levels limit c).2 (List.ne_nil_of_mem ha)
  have hcne : chosen index (surrounding R.env long lat) ≠ [] := by
    obtain ⟨n, hn⟩ := List.exists_mem_of_ne_nil _ k2
    obtain ⟨c, hc, -⟩ := k3 n hn
    apply List.ne_nil_of_mem (a := c)
    unfold chosen
    rw [List.mem_map]
    exact ⟨(c, n), List.mem_filter.2 ⟨List.mem_zipIdx_iff_getElem?.2 hc, by simpa using hn⟩, rfl⟩
  obtain ⟨c0, l0, hsel⟩ := List.exists_cons_of_ne_nil hcne
  have hc0 : c0 ∈ chosen index (surrounding R.env long lat) := by rw [hsel]; exact List.mem_cons_self
  have hu : usableLevels limit c0 ≠ [] := by
    obtain ⟨l, hl, -⟩ := hdata c0 hc0
    exact List.ne_nil_of_mem hl
  have htwo : ∀ c ∈ chosen index (surrounding R.env long lat), 2 ≤ (completeLevels limit c).length := by
    intro c hc
    obtain ⟨a, ha, b, hb, hab⟩ := hmem c hc
    by_contra h
    have h1 : (completeLevels limit c).length = 1 := by
      have := List.length_pos_of_mem ha
      omega
    obtain ⟨e, he⟩ := List.length_eq_one_iff.1 h1
    rw [he, List.mem_singleton] at ha hb
    rw [ha, hb] at hab
    exact hab rfl
  obtain ⟨SP, hint⟩ := (interp_sel limit (chosen index (surrounding R.env long lat)) f).2 ⟨⟨c0, hc0, hdata c0 hc0⟩, fun n s v q _ _ _ => ⟨⟨c0, hc0, htwo c0 hc0⟩, by
    intro c hc _
    obtain ⟨a, ha, b, hb, hab⟩ := hmem c hc
    by_cases h : a.theta = v
    · exact ⟨b, hb, fun h' => hab (h.trans h'.symm)⟩
    · exact ⟨a, ha, h⟩⟩⟩
  rw [region_data_spec _ hw _ _ _ _ _ c0 l0 (by rw [← k1]; exact hsel) (hlim ▸ hu), ← k1, ← hlim] at k4
  unfold prepare
  simp only [bind, Except.bind, hz, k4, Except.map]
  rw [hint]
  exact ⟨_, rfl⟩

/-! ## The levels -/

theorem countP_le_get {α β : Type} (p : α → Bool) (q : β → Bool) : ∀ (l : List α) (m : List β), l.length = m.length →
    (∀ (n : ℕ) (a : α) (b : β), l[n]? = some a → m[n]? = some b → p a = true → q b = true) → l.countP p ≤ m.countP q := by
  intro l
  induction l with
  | nil => intro m _ _; simp
  | cons a l ih =>
    intro m hm h
    cases m with
    | nil => simp at hm
    | cons b m =>
      have h1 := ih m (by simpa using hm) fun n x y hx hy => h (n + 1) x y (by simpa using hx) (by simpa using hy)
      have h2 := h 0 a b rfl rfl
      rw [List.countP_cons, List.countP_cons]
      by_cases hp : p a = true
      · rw [if_pos hp, if_pos (h2 hp)]
        omega
      · rw [if_neg hp]
        omega

/-- The chosen casts are in the horizontal ellipse, no cast is chosen twice, and if more than five are in the ellipse and may be used, more than five are
chosen. -/
theorem surroundings_clean (R : FloatRun) (f : FloatProfile) (lat long : ℝ) (index kept deep : List ℕ) (here : FloatPos) (there : List FloatPos)
    (hS : Surroundings R.env f lat long (surrounding R.env long lat) index kept deep here there) :
    (∀ n ∈ index, ∃ c, (surrounding R.env long lat)[n]? = some c ∧ Near R.env.cfg lat long (surrounding R.env long lat) c) ∧
    (5 < R.env.maxCasts → 5 < (reached R.env f lat long).length → index.Nodup ∧ 5 < index.length) := by
  classical
  obtain ⟨xs, view, c1, c2, c3, c4⟩ := hS.chosen
  have hz := hS.float.2.2.2
  unfold reached
  obtain ⟨casts, hcasts⟩ : ∃ casts, casts = surrounding R.env long lat := ⟨_, rfl⟩
  rw [← hcasts] at c1 c2 c3 ⊢
  have hl : casts.length = xs.length := by simpa using congrArg List.length c1
  rw [beside_unwrapped casts xs c1] at c4
  have at_ : ∀ (n : ℕ) (c : RefCast ℝ), casts[n]? = some c → ∃ x y d, c.long = some x ∧ c.lat = some y ∧ DepthAt R.env.topo (max y (-1079 / 12)) x d ∧
      view[n]? = some ⟨some (amongCasts casts x), some y, some (decimalDate c), some d⟩ := by
    intro n c hc
    have hnx : n < xs.length := by rw [← hl]; exact (List.getElem?_eq_some_iff.1 hc).1
    have hx := List.getElem?_eq_getElem hnx
    obtain ⟨y, d, h1, h2, h3⟩ := c3 n c _ hc hx
    have hlong : c.long = some xs[n] := by
      have := congrArg (fun l => l[n]?) c1
      simpa [hc, hx] using this
    rw [unwrapped_get casts xs c1 n _ hx] at h3
    exact ⟨_, y, d, hlong, h1, h2, h3⟩
  constructor
  · intro n hn
    obtain ⟨v, hv, he⟩ := c4.inside n hn
    have hlt : n < casts.length := by rw [← c2]; exact (List.getElem?_eq_some_iff.1 hv).1
    obtain ⟨x, y, d, h1, h2, -, h4⟩ := at_ n _ (List.getElem?_eq_getElem hlt)
    rw [hv] at h4
    obtain rfl := Option.some.inj h4
    exact ⟨_, List.getElem?_eq_getElem hlt, inEllipse_near R.env lat long f.date here.z casts _ x y d h1 h2 he⟩
  · intro hmax h5
    generalize hA : (⟨lat, floatAmong (amongCasts casts) casts long, f.date, here.z, R.env.cfg.latLarge, R.env.cfg.latSmall, R.env.cfg.longLarge,
      R.env.cfg.longSmall, R.env.cfg.phiLarge, R.env.cfg.phiSmall, R.env.cfg.ageLarge, R.env.cfg.ageSmall, R.env.cfg.usePv, R.env.maxCasts⟩ : BesthistArgs) = A at c4
    have hmA : A.maxCasts = R.env.maxCasts := by rw [← hA]
    have hnum : 5 < numInside A view := by
      refine lt_of_lt_of_le h5 ?_
      rw [← List.countP_eq_length_filter]
      unfold numInside
      refine countP_le_get _ _ casts view c2.symm ?_
      intro n c v hc hv hr
      obtain ⟨x, y, d, h1, h2, h3, h4⟩ := at_ n c hc
      rw [hv] at h4
      obtain rfl := Option.some.inj h4
      obtain ⟨x', y', k1, k2, k3⟩ := of_decide_eq_true hr
      rw [h1] at k1
      rw [h2] at k2
      obtain rfl := Option.some.inj k1
      obtain rfl := Option.some.inj k2
      rw [decide_eq_true_eq, ← hA]
      exact k3 _ d hz h3
    by_cases hfew : numInside A view ≤ A.maxCasts
    · obtain ⟨g1, g2⟩ := c4.few hfew
      refine ⟨g1.imp fun h => ne_of_lt h, lt_of_lt_of_le hnum ?_⟩
      rw [numInside_eq]
      refine List.Subperm.length_le (List.Nodup.subperm (argwhere_nodup _ _) ?_)
      intro n hn
      obtain ⟨v, hv, he⟩ := (mem_indexEllipse A view n).1 hn
      exact g2 n v hv he
    · obtain ⟨g1, g2⟩ := c4.many (Or.inr (by omega)) (not_le.1 hfew)
      exact ⟨g1, by omega⟩

theorem amongChosen_turn (casts : List (RefCast ℝ)) (index : List ℕ) (x : ℝ) : ∃ m : ℤ, amongChosen casts index x = x + 360 * m := by
  obtain ⟨k, hk⟩ : ∃ k : ℤ, eastward x = x + 360 * k := by
    unfold eastward
    split_ifs
    · exact ⟨1, by push_cast; ring⟩
    · exact ⟨0, by push_cast; ring⟩
  unfold amongChosen
  split_ifs
  · exact ⟨k + 1, by rw [hk]; push_cast; ring⟩
  · exact ⟨k, hk⟩

/-- With clean surroundings no level fails, and a covered level has a value. -/
theorem level_clean (R : FloatRun) (hi : IsInterp2d R.env.interp2) (hf : R.env.topo.length = 2160 * 4320) (hw : WellFormedDisk R.env.disk)
    (hs : R.env.useSaf ≠ 1) (hsort : IsArgsort R.env.argsort) (hrand : ValidRand R.env.rand) (hcfg : ProperConfig R.env.cfg) (hmax : 6 ≤ R.env.maxCasts)
    (f : FloatProfile) (lat long : ℝ) (hC : Clean R f lat long) (hl1 : f.ptmp.length = f.sal.length) (hl2 : f.pres.length = f.sal.length) (p : Prepared)
    (hp : prepare R.env f lat long = .ok p) (n : ℕ) (hn : n < f.sal.length) :
    (∃ o, levelOf R.env f p n = .ok o) ∧ (Covered R f lat long n → ∃ o, levelOf R.env f p n = .ok (some o)) := by
  classical
  obtain ⟨index, all, sel, kept, deep, there, d, bz, c1, c2, -, c4, c5, c6, hS, key⟩ := prepared_levels R.env hi hf hw hsort hrand hcfg (by omega) f lat long
    hC.latitude hC.longitude hl1 hl2 (by
      intro c hc y x hy hx
      obtain ⟨y', x', h1, h2, h3⟩ := hC.places c hc
      rw [hy] at h1
      rw [hx] at h2
      obtain rfl := Option.some.inj h1
      obtain rfl := Option.some.inj h2
      exact h3) p hp
  have hsel := c4.off fun h => hs h.1
  have hk : kept = keptNumbers (pressureLimit f.pres R.env.cfg.pDelta) index (surrounding R.env long lat) := by
    rw [c5, hsel, ← c1]
    apply List.ext_getElem
    · simp
    · intro i h1 h2
      simp [h2]
  obtain ⟨hnear, hmany⟩ := surroundings_clean R f lat long index kept deep p.pos there hS
  have hdiff := hC.different
  unfold inReach nearCasts at hdiff
  rw [List.pairwise_filter] at hdiff
  have hkp : kept.Pairwise (· < ·) := by
    rw [hk]
    exact List.Pairwise.sublist List.filter_sublist List.pairwise_lt_range
  have hkn : ∀ (k j : ℕ), kept[k]? = some j → j ∈ index := by
    intro k j h
    have := List.mem_of_getElem? h
    rw [hk] at this
    unfold keptNumbers at this
    exact (of_decide_eq_true (List.mem_filter.1 this).2).1
  have hlevel : ∀ s q, f.sal[n]? = some (some s) → f.pres[n]? = some (some q) → R.env.cfg.pExclude ≤ q →
      (∃ o, levelOf R.env f p n = .ok o) ∧ (Covered R f lat long n → ∃ o, levelOf R.env f p n = .ok (some o)) := by
    intro s q hsal hpres hex
    obtain ⟨used, u1, u2, u3, u4⟩ := key n s q hsal hpres hex
    have hbig : 5 < used.length → ∃ o, levelOf R.env f p n = .ok (some o) := by
      intro h5
      obtain ⟨samples, nv, a1, a2, a3⟩ := u4 h5
      rcases a3 with ⟨h0, -⟩ | ⟨-, _, _, o, -, h2, -⟩
      swap
      · exact ⟨o, h2⟩
      exfalso
      have hlen : samples.length = used.length := by simpa using congrArg List.length a1
      refine noise_of_different (inliers samples) (inliers_two samples (by omega)) ?_ (h0 ▸ a2)
      refine List.Pairwise.sublist (l₂ := samples) (by unfold inliers; exact List.filter_sublist) ?_
      have hget : ∀ (i : ℕ) (hi : i < samples.length), ∃ (k j : ℕ) (s' : ℝ) (c : RefCast ℝ) (v y x : ℝ) (a : FloatPos), used[i]? = some (k, s') ∧
          kept[k]? = some j ∧ (surrounding R.env long lat)[j]? = some c ∧ f.ptmp[n]? = some (some v) ∧
          Meets (pressureLimit f.pres R.env.cfg.pDelta) c v q R.env.cfg.pDelta s' ∧ c.lat = some y ∧ c.long = some x ∧ samples[i] = ⟨s', a⟩ ∧ a.lat = y ∧
          a.long = amongChosen (surrounding R.env long lat) index x := by
        intro i hi
        have hiu : i < used.length := by omega
        have e0 := List.getElem?_eq_getElem hiu
        obtain ⟨⟨k, s'⟩, hks⟩ : ∃ u, used[i] = u := ⟨_, rfl⟩
        rw [hks] at e0
        obtain ⟨j, c, v, m1, m2, m3, m4⟩ := (u2 k s').1 (List.mem_of_getElem? e0)
        obtain ⟨c', y, x, a, p1, p2, p3, p4, p5, p6, -⟩ := hS.place k j m1
        rw [m2] at p1
        obtain rfl := Option.some.inj p1
        refine ⟨k, j, s', c, v, y, x, a, e0, m1, m2, m3, m4, p2, p3, ?_, p5, p6⟩
        have := congrArg (fun l => l[i]?) a1
        simp only [List.getElem?_map, e0, Option.map_some, p4, List.getElem?_eq_getElem hi] at this
        exact Option.some.inj (Option.some.inj this)
      rw [List.pairwise_iff_getElem]
      intro i i' hi hi' hii
      obtain ⟨k, j, s1, c, v, y, x, a, e1, e2, e3, e4, e5, e6, e7, e8, e9, e10⟩ := hget i hi
      obtain ⟨k', j', s2, c', v', y', x', a', g1, g2, g3, g4, g5, g6, g7, g8, g9, g10⟩ := hget i' hi'
      have hkk : k < k' := by
        obtain ⟨l1, q1⟩ := List.getElem?_eq_some_iff.1 e1
        obtain ⟨l2, q2⟩ := List.getElem?_eq_some_iff.1 g1
        have := List.pairwise_iff_getElem.1 u1 i i' l1 l2 hii
        rw [q1, q2] at this
        exact this
      have hjj : j < j' := by
        obtain ⟨l1, q1⟩ := List.getElem?_eq_some_iff.1 e2
        obtain ⟨l2, q2⟩ := List.getElem?_eq_some_iff.1 g2
        have := List.pairwise_iff_getElem.1 hkp k k' l1 l2 hkk
        rw [q1, q2] at this
        exact this
      rw [e4] at g4
      obtain rfl := Option.some.inj (Option.some.inj g4)
      obtain ⟨l1, q1⟩ := List.getElem?_eq_some_iff.1 e3
      obtain ⟨l2, q2⟩ := List.getElem?_eq_some_iff.1 g3
      obtain ⟨n1, n2, n3⟩ := hnear j (hkn k j e2)
      obtain ⟨n1', n2', n3'⟩ := hnear j' (hkn k' j' g2)
      rw [e3] at n2
      rw [g3] at n2'
      obtain rfl := Option.some.inj n2
      obtain rfl := Option.some.inj n2'
      have hd := List.pairwise_iff_getElem.1 hdiff j j' l1 l2 hjj
      rw [q1, q2] at hd
      obtain ⟨d1, d2⟩ := hd (by simpa using n3) (by simpa using n3')
      rw [e8, g8]
      refine ⟨?_, ?_⟩
      · intro hss
        dsimp only at hss
        rw [← hss] at g5
        exact d2 n v q s1 e4 hpres e5 g5
      · rintro ⟨h1, h2⟩
        dsimp only at h1 h2
        rw [e9, g9] at h1
        rw [e10, g10] at h2
        obtain ⟨m, hm⟩ := amongChosen_turn (surrounding R.env long lat) index x
        obtain ⟨m', hm'⟩ := amongChosen_turn (surrounding R.env long lat) index x'
        rw [hm, hm'] at h2
        refine d1 (m - m') y x x' e6 (h1 ▸ g6) e7 g7 ?_
        push_cast
        linarith
    constructor
    · by_cases h5 : 5 < used.length
      · obtain ⟨o, ho⟩ := hbig h5
        exact ⟨_, ho⟩
      · exact ⟨_, u3 (not_lt.1 h5)⟩
    · rintro ⟨s', v, q', -, hv, hq', -, hall, hreach⟩
      rw [hpres] at hq'
      obtain rfl := Option.some.inj (Option.some.inj hq')
      apply hbig
      obtain ⟨i1, i2⟩ := hmany (by omega) hreach
      have hin : ∀ j ∈ index, ∃ c, (surrounding R.env long lat)[j]? = some c ∧ c ∈ inReach R lat long := by
        intro j hj
        obtain ⟨c, hc, hnr⟩ := hnear j hj
        exact ⟨c, hc, (near_mem _ _ _ _ _).2 ⟨List.mem_of_getElem? hc, hnr⟩⟩
      have hle : index.length ≤ kept.length := by
        refine List.Subperm.length_le (List.Nodup.subperm i1 ?_)
        intro j hj
        obtain ⟨c, hc, hr⟩ := hin j hj
        obtain ⟨a, ha, -⟩ := hC.levels c hr
        rw [hk]
        unfold keptNumbers
        rw [List.mem_filter, List.mem_range, decide_eq_true_eq]
        exact ⟨(List.getElem?_eq_some_iff.1 hc).1, hj, c, hc, (hasData_levels _ c).2 (List.ne_nil_of_mem ha)⟩
      have hle2 : kept.length ≤ used.length := by
        have : (List.range kept.length).Subperm (used.map Prod.fst) := by
          refine List.Nodup.subperm List.nodup_range ?_
          intro k hkl
          rw [List.mem_range] at hkl
          have hkj := List.getElem?_eq_getElem hkl
          obtain ⟨c, hc, hr⟩ := hin _ (hkn k _ hkj)
          obtain ⟨s'', hm⟩ := hall c hr
          exact List.mem_map.2 ⟨(k, s''), (u2 k s'').2 ⟨_, c, v, hkj, hc, hv, hm⟩, rfl⟩
        simpa using this.length_le
      omega
  have e1 := List.getElem?_eq_getElem hn
  have e2 := List.getElem?_eq_getElem (hl2 ▸ hn : n < f.pres.length)
  generalize f.sal[n] = s at e1
  generalize f.pres[n]'(hl2 ▸ hn) = q at e2
  by_cases hall : ∃ s' q', s = some s' ∧ q = some q' ∧ R.env.cfg.pExclude ≤ q'
  · obtain ⟨s', q', rfl, rfl, hex⟩ := hall
    exact hlevel s' q' e1 e2 hex
  · refine ⟨⟨none, ?_⟩, ?_⟩
    · unfold levelOf mapLevel item
      rw [e1, e2]
      simp only [bind, Except.bind]
      cases s with
      | none => rfl
      | some s' =>
        cases q with
        | none => rfl
        | some q' => dsimp only; rw [if_neg fun h => hall ⟨s', q', rfl, rfl, h⟩]; rfl
    · rintro ⟨s', v, q', h1, -, h3, h4, -⟩
      rw [e1] at h1
      rw [e2] at h3
      exact absurd ⟨s', q', Option.some.inj h1, Option.some.inj h3, h4⟩ hall

/-! ## The run -/

/-- A run without a mapped file ends normally if no profile fails before or at its levels, and a level of a profile has a value. -/
theorem run_ends_of (R : FloatRun) (fs : Fs ℝ) (hsort : IsArgsort R.env.argsort) (hlen : R.no.length = R.source.length) (hload : fs R.loadPath = none)
    (hall : ∀ f ∈ R.source, Placed f → ∀ lat long, f.lat = some lat → f.long = some long →
      ∃ p, prepare R.env f lat long = .ok p ∧ ∀ n < R.levels, ∃ o, levelOf R.env f p n = .ok o)
    (hone : ∃ f ∈ R.source, Placed f ∧ ∃ lat long, f.lat = some lat ∧ f.long = some long ∧ ∃ n < R.levels, ∀ p, prepare R.env f lat long = .ok p →
      ∃ o, levelOf R.env f p n = .ok (some o)) : (updateMapping R.args fs).1 = none := by
  have hP : ∀ i f, R.source[i]? = some f → R.args.P i = profileOf R.env f := by
    intro i f h
    change profilesOf R.env R.source i = _
    unfold profilesOf item
    rw [h]
    rfl
  have hplaced : ∀ f lat long, Placed f → f.lat = some lat → f.long = some long →
      profileOf R.env f = (prepare R.env f lat long).map fun p => some (levelOf R.env f p) := by
    intro f lat long h h1 h2
    unfold profileOf
    rw [if_pos ((usable_iff f).2 h), h1, h2]
    dsimp only [bind, Except.bind]
    cases prepare R.env f lat long <;> rfl
  have hcomp : Computable R.args.P R.args.no.length R.args.levels := by
    constructor
    · intro i hi'
      have hlt : i < R.source.length := by rw [← hlen]; exact hi'
      have hfi := List.getElem?_eq_getElem hlt
      generalize R.source[i] = f at hfi
      have hfm := List.mem_of_getElem? hfi
      rw [hP i f hfi]
      by_cases hpl : Placed f
      swap
      · refine ⟨none, ?_, fun g hg => by cases hg⟩
        unfold profileOf
        rw [if_neg fun h' => hpl ((usable_iff f).1 h')]
        rfl
      obtain ⟨lat, hla⟩ := Option.ne_none_iff_exists'.1 hpl.1
      obtain ⟨long, hlo⟩ := Option.ne_none_iff_exists'.1 hpl.2.1
      obtain ⟨p, hp, hl⟩ := hall f hfm hpl lat long hla hlo
      rw [hplaced f lat long hpl hla hlo, hp]
      refine ⟨_, rfl, ?_⟩
      intro g hg n hn
      obtain rfl := Option.some.inj hg
      exact hl n hn
    · intro i _ n _ o ho
      obtain ⟨f, lat, long, p, -, -, -, -, -, hl⟩ := levelOut_cases R.env R.source i n o ho
      exact levelOf_points R.env f p n o hl
  have hsome : SomethingMapped R.args.P R.args.no.length R.args.levels := by
    obtain ⟨f, hfm, hpl, lat, long, hla, hlo, n, hn, h⟩ := hone
    obtain ⟨p, hp, -⟩ := hall f hfm hpl lat long hla hlo
    obtain ⟨o, ho⟩ := h p hp
    obtain ⟨i, hi'⟩ := List.mem_iff_getElem?.1 hfm
    refine ⟨i, by rw [show R.args.no = R.no from rfl, hlen]; exact (List.getElem?_eq_some_iff.1 hi').1, n, hn, ?_⟩
    unfold levelOut
    rw [hP i f hi', hplaced f lat long hpl hla hlo, hp]
    dsimp only [Except.map]
    rw [ho]
    rfl
  obtain ⟨file, h, -⟩ := fresh_run_file R.args fs hload hsort hcomp hsome
  rw [h]

/-- C165. A run without a mapped file over reference data without defects ends normally, with or without the potential vorticity, and whatever casts are
drawn if there are more than may be used. The front is not used. -/
theorem clean_run_ends (R : FloatRun) (fs : Fs ℝ) (hi : IsInterp2d R.env.interp2) (hf : R.env.topo.length = 2160 * 4320) (hw : WellFormedDisk R.env.disk)
    (hs : R.env.useSaf ≠ 1) (hsort : IsArgsort R.env.argsort) (hrand : ValidRand R.env.rand) (hcfg : ProperConfig R.env.cfg) (hmax : 6 ≤ R.env.maxCasts)
    (hlen : R.no.length = R.source.length) (hload : fs R.loadPath = none)
    (hshape : ∀ f ∈ R.source, f.sal.length = R.levels ∧ f.ptmp.length = R.levels ∧ f.pres.length = R.levels)
    (hclean : ∀ f ∈ R.source, Placed f → ∀ lat long, f.lat = some lat → f.long = some long → Clean R f lat long)
    (hcovered : ∃ f ∈ R.source, Placed f ∧ ∃ lat long n, f.lat = some lat ∧ f.long = some long ∧ Covered R f lat long n) :
    (updateMapping R.args fs).1 = none := by
  have hlev := fun (f : FloatProfile) (hfm : f ∈ R.source) (lat long : ℝ) (hC : Clean R f lat long) (p : Prepared) (hp : prepare R.env f lat long = .ok p) (n : ℕ)
    (hn : n < R.levels) => level_clean R hi hf hw hs hsort hrand hcfg hmax f lat long hC ((hshape f hfm).2.1.trans (hshape f hfm).1.symm)
      ((hshape f hfm).2.2.trans (hshape f hfm).1.symm) p hp n ((hshape f hfm).1 ▸ hn)
  refine run_ends_of R fs hsort hlen hload ?_ ?_
  · intro f hfm hpl lat long hla hlo
    have hC := hclean f hfm hpl lat long hla hlo
    obtain ⟨p, hp⟩ := prepare_clean R hi hf hw hs hsort hrand (by omega) f lat long hC
    exact ⟨p, hp, fun n hn => (hlev f hfm lat long hC p hp n hn).1⟩
  · obtain ⟨f, hfm, hpl, lat, long, n, hla, hlo, hcov⟩ := hcovered
    have hn : n < R.levels := by
      obtain ⟨s, _, _, h, -⟩ := hcov
      rw [← (hshape f hfm).1]
      exact (List.getElem?_eq_some_iff.1 h).1
    exact ⟨f, hfm, hpl, lat, long, hla, hlo, n, hn, fun p hp => (hlev f hfm lat long (hclean f hfm hpl lat long hla hlo) p hp n hn).2 hcov⟩

end Verif.Props
