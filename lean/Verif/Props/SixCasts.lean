import Verif.Props.Delta

/-!
# C180: a saved value needs more than five casts in reach
-/

set_option linter.unusedSectionVars false

namespace Verif.Props

open Verif.Np Verif.Helper Verif.Region Verif.Profile Verif.Update Verif.Spec Verif.Spec.Profile Verif.Level Verif.Finders
open Verif.Lemmas.Profile Verif.Utilities Verif.Saf Verif.Topo Verif.Spec.Saf

/-- Different positions with a property are at most as many as the elements with it. -/
theorem positions_le_countP {α : Type} (l : List α) (P : α → Bool) (js : List ℕ) (hn : js.Nodup) (h : ∀ j ∈ js, ∃ c, l[j]? = some c ∧ P c = true) :
    js.length ≤ l.countP P := by
  rw [← argwhere_length]
  exact (hn.subperm fun j hj => (argwhere_mem P l j).2 (h j hj)).length_le

/-- With `MAP_USE_PV`, too, the casts chosen are in reach. -/
theorem chosen_in_reach (E : Env) (f : FloatProfile) (lat long : ℝ) (casts : List (RefCast ℝ)) (index kept deep : List ℕ) (here : FloatPos)
    (there : List FloatPos) (hS : Surroundings E f lat long casts index kept deep here there) (n : ℕ) (hn : n ∈ index) :
    ∃ c, casts[n]? = some c ∧ Near E.cfg lat long casts c := by
  obtain ⟨xs, view, c1, c2, c3, c4⟩ := hS.chosen
  have hl : casts.length = xs.length := by simpa using congrArg List.length c1
  obtain ⟨v, hv, he⟩ := c4.inside n hn
  have hlt : n < casts.length := by rw [← c2]; exact (List.getElem?_eq_some_iff.1 hv).1
  have hc := List.getElem?_eq_getElem hlt
  have hnx : n < xs.length := by omega
  have hx := List.getElem?_eq_getElem hnx
  obtain ⟨y, d, h1, -, h3⟩ := c3 n _ _ hc hx
  have hlong : casts[n].long = some xs[n] := by
    have := congrArg (fun l => l[n]?) c1
    simpa [hc, hx] using this
  rw [hv] at h3
  obtain rfl := Option.some.inj h3
  refine ⟨_, hc, _, _, hlong, h1, ?_⟩
  obtain ⟨x', y', ex, ey, he⟩ := he
  rw [unwrapped_get casts xs c1 n _ hx] at ex
  rw [beside_unwrapped casts xs c1] at he
  obtain rfl := Option.some.inj ex
  obtain rfl := Option.some.inj ey
  dsimp only at he
  split_ifs at he
  · obtain ⟨w, -, -, -, he⟩ := he
    refine lt_of_le_of_lt ?_ he
    exact le_add_of_nonneg_right (div_nonneg (div_nonneg (sq_nonneg _) (add_nonneg (sq_nonneg _) (sq_nonneg _))) (sq_nonneg _))
  · exact he

theorem contributions_length (R : FloatRun) (f : FloatProfile) (lat long v q : ℝ) (n : ℕ) (hv : f.ptmp[n]? = some (some v)) [DecidablePred fun c : RefCast ℝ =>
      Near R.env.cfg lat long (surrounding R.env long lat) c ∧ ∃ s, Meets (pressureLimit f.pres R.env.cfg.pDelta) c v q R.env.cfg.pDelta s] :
    (contributions R f lat long n q).length = (surrounding R.env long lat).countP fun c =>
      decide (Near R.env.cfg lat long (surrounding R.env long lat) c ∧ ∃ s, Meets (pressureLimit f.pres R.env.cfg.pDelta) c v q R.env.cfg.pDelta s) := by
  classical
  unfold contributions samplesAt
  rw [hv]
  simp only [Option.join_some]
  rw [List.length_filterMap_eq_countP]
  unfold inReach nearCasts
  rw [List.countP_filter]
  congr 1
  funext c
  unfold sampleOf
  by_cases h1 : Near R.env.cfg lat long (surrounding R.env long lat) c <;>
    by_cases h2 : ∃ s, Meets (pressureLimit f.pres R.env.cfg.pDelta) c v q R.env.cfg.pDelta s <;> simp [h1, h2]

theorem level_needs_reach (R : FloatRun) (hi : IsInterp2d R.env.interp2) (hf : R.env.topo.length = 2160 * 4320) (hw : WellFormedDisk R.env.disk)
    (hsort : IsArgsort R.env.argsort) (hrand : ValidRand R.env.rand) (hcfg : ProperConfig R.env.cfg)
    (hmax : 1 ≤ R.env.maxCasts) (f : FloatProfile) (lat long : ℝ) (hlat : -90 ≤ lat ∧ lat ≤ 90) (hlong : -180 ≤ long ∧ long ≤ 540)
    (hpos : ∀ c ∈ surrounding R.env long lat, ∀ y x : ℝ, c.lat = some y → c.long = some x → (-90 ≤ y ∧ y ≤ 90) ∧ -180 ≤ x ∧ x ≤ 360)
    (hl1 : f.ptmp.length = f.sal.length) (hl2 : f.pres.length = f.sal.length) (p : Prepared) (hp : prepare R.env f lat long = .ok p) (n : ℕ) (o : LevelOut ℝ)
    (ho : levelOf R.env f p n = .ok (some o)) : ∃ q, Mappable R f lat long n q := by
  classical
  obtain ⟨index, all, sel, kept, deep, there, d, bz, c1, c2, -, c4, c5, c6, hS, key⟩ := prepared_levels R.env hi hf hw hsort hrand hcfg hmax f lat long
    hlat hlong hl1 hl2 hpos p hp
  obtain ⟨-, -, -, s, q, hsal, hpres, hex, -⟩ := levelOf_needs R.env f p n o ho
  refine ⟨q, ⟨s, hsal⟩, hpres, hex, ?_⟩
  obtain ⟨used, u1, u2, u3, -⟩ := key n s q hsal hpres hex
  have h5 : 5 < used.length := by
    by_contra h
    rw [u3 (by omega)] at ho
    cases ho
  refine lt_of_lt_of_le h5 ?_
  -- the temperature
  obtain ⟨u, hu⟩ : ∃ u, u ∈ used := List.exists_mem_of_length_pos (by omega)
  obtain ⟨_, _, v, -, -, hv, -⟩ := (u2 u.1 u.2).1 hu
  rw [contributions_length R f lat long v q n hv]
  -- the casts used are different ones
  have hall : all.Pairwise (· < ·) := by
    rw [c1]
    unfold keptNumbers
    exact List.Pairwise.filter _ List.pairwise_lt_range
  have hgd : ∀ (i : ℕ) (h : i < all.length), all.getD i 0 = all[i] := by intro i h; simp [h]
  have hkept : kept.Pairwise (· < ·) := by
    rw [c5, List.pairwise_map]
    refine c4.ascending.imp_of_mem fun {a b} ha hb hab => ?_
    have la := c4.inside a ha
    have lb := c4.inside b hb
    rw [hgd a la, hgd b lb]
    exact List.pairwise_iff_getElem.1 hall a b la lb hab
  have hat : ∀ u ∈ used, kept[u.1]? = some (kept.getD u.1 0) := by
    intro u hu
    obtain ⟨j, _, _, hj, -⟩ := (u2 u.1 u.2).1 hu
    rw [List.getD_eq_getElem?_getD, hj]
    rfl
  have hnd : (used.map fun u => kept.getD u.1 0).Nodup := by
    unfold List.Nodup
    rw [List.pairwise_map]
    refine u1.imp_of_mem fun {a b} ha hb hab => ne_of_lt ?_
    obtain ⟨la, ea⟩ := List.getElem?_eq_some_iff.1 (hat a ha)
    obtain ⟨lb, eb⟩ := List.getElem?_eq_some_iff.1 (hat b hb)
    rw [← ea, ← eb]
    exact List.pairwise_iff_getElem.1 hkept a.1 b.1 la lb hab
  have := positions_le_countP (surrounding R.env long lat)
    (fun c => decide (Near R.env.cfg lat long (surrounding R.env long lat) c ∧ ∃ s, Meets (pressureLimit f.pres R.env.cfg.pDelta) c v q R.env.cfg.pDelta s))
    (used.map fun u => kept.getD u.1 0) hnd (by
      intro j hj
      obtain ⟨u, hu, rfl⟩ := List.mem_map.1 hj
      obtain ⟨j, c, v', hj, hc, hv', hm⟩ := (u2 u.1 u.2).1 hu
      rw [hv] at hv'
      obtain rfl := Option.some.inj (Option.some.inj hv')
      have ej : kept.getD u.1 0 = j := Option.some.inj ((hat u hu).symm.trans hj)
      rw [ej]
      have hjk : j ∈ kept := List.mem_of_getElem? hj
      rw [c5] at hjk
      obtain ⟨i, hi', rfl⟩ := List.mem_map.1 hjk
      have li := c4.inside i hi'
      have hmem : all.getD i 0 ∈ all := by rw [hgd i li]; exact List.getElem_mem li
      generalize all.getD i 0 = j at *
      rw [c1] at hmem
      obtain ⟨c', hc', hnear⟩ := chosen_in_reach R.env f lat long _ index kept deep p.pos there hS j ((kept_mem _ _ _ _).1 hmem).1
      rw [hc] at hc'
      obtain rfl := Option.some.inj hc'
      exact ⟨c, hc, by simpa using ⟨hnear, u.2, hm⟩⟩)
  simpa using this

/-- C180: whatever the settings (`MAP_USE_PV`, `MAP_USE_SAF`, `MAX_CASTS`) and the random numbers, a run that ends normally saves a number for a level only if
the profile has a position and a pressure below its first level, and at the level a salinity and a pressure of at least `MAP_P_EXCLUDE`, and more than five
casts in reach meet its temperature less than `MAP_P_DELTA` from that pressure. -/
theorem value_needs_casts (R : FloatRun) (fs : Fs ℝ) (hi : IsInterp2d R.env.interp2) (hf : R.env.topo.length = 2160 * 4320) (hw : WellFormedDisk R.env.disk)
    (hsort : IsArgsort R.env.argsort) (hrand : ValidRand R.env.rand) (hcfg : ProperConfig R.env.cfg)
    (hmax : 1 ≤ R.env.maxCasts) (hno : R.no.Pairwise (· < ·)) (hlen : R.no.length = R.source.length) (hload : fs R.loadPath = none)
    (hshape : ∀ f ∈ R.source, f.sal.length = R.levels ∧ f.ptmp.length = R.levels ∧ f.pres.length = R.levels)
    (hrange : ∀ f ∈ R.source, Placed f → ∀ lat long, f.lat = some lat → f.long = some long → (-90 ≤ lat ∧ lat ≤ 90) ∧ (-180 ≤ long ∧ long ≤ 540) ∧
      ∀ c ∈ surrounding R.env long lat, ∀ y x : ℝ, c.lat = some y → c.long = some x → (-90 ≤ y ∧ y ≤ 90) ∧ -180 ≤ x ∧ x ≤ 360)
    (h : (updateMapping R.args fs).1 = none) :
    ∃ file : MapFile ℝ, finalFs R.args fs = Function.update fs R.savePath (some (.whole file)) ∧
      ∀ (m : Mat) (i : ℕ) (f : FloatProfile) (n : ℕ), R.source[i]? = some f → n < R.levels → (∃ v, storedAt file m i n = some (some v)) →
        Placed f ∧ ∃ lat long q, f.lat = some lat ∧ f.long = some long ∧ Mappable R f lat long n q := by
  obtain ⟨file, h1, -, h3, -⟩ := fresh_run_saved R fs hsort hno hload h
  refine ⟨file, h1, ?_⟩
  rintro m i f n hif hn ⟨v, hv⟩
  have hmem := List.mem_of_getElem? hif
  obtain ⟨s1, s2, s3⟩ := hshape f hmem
  have hi' : i < R.no.length := by rw [hlen]; exact (List.getElem?_eq_some_iff.1 hif).1
  have hval : storedAt file m i n = some ((levelOut R.args.P i n).bind fun o => plausible m (o.values m)) := by
    unfold storedAt
    rw [h3, List.getElem?_map, List.getElem?_range hi']
    simp only [Option.map_some, Option.bind_some]
    unfold profileColumn
    rw [List.getElem?_map, List.getElem?_range hn]; rfl
  rw [hval] at hv
  cases ho : levelOut R.args.P i n with
  | none => rw [ho] at hv; cases Option.some.inj hv
  | some o =>
    obtain ⟨f', lat, long, p, hf', hu, hla, hlo, hp, hl⟩ := levelOut_cases R.env R.source i n o ho
    rw [hif] at hf'
    obtain rfl := Option.some.inj hf'
    have hpl := (usable_iff f).1 hu
    obtain ⟨r1, r2, r3⟩ := hrange f hmem hpl lat long hla hlo
    obtain ⟨q, hq⟩ := level_needs_reach R hi hf hw hsort hrand hcfg hmax f lat long r1 r2 r3 (by rw [s1, s2]) (by rw [s1, s3]) p hp n o hl
    exact ⟨hpl, lat, long, q, hla, hlo, hq⟩

end Verif.Props
