import Verif.Props.Depth
import Verif.Props.RegionMore
import Verif.Lemmas.Piecewise
import Verif.Props.Interp
import Verif.Spec.Saved

/-!
# C45: the depths in a run
-/

set_option linter.unusedSectionVars false

namespace Verif.Props

open Verif.Np Verif.Utilities Verif.Helper Verif.Region Verif.Profile Verif.Spec Verif.Spec.Profile Verif.Topo Verif.Finders Verif.Lemmas.Depth Verif.Saf

theorem known_list {α β : Type} (l : List α) (f : α → Option β) (h : ∀ a ∈ l, f a ≠ none) : ∃ m : List β, l.map f = m.map some := by
  induction l with
  | nil => exact ⟨[], rfl⟩
  | cons a l ih =>
    obtain ⟨m, hm⟩ := ih fun b hb => h b (List.mem_cons_of_mem _ hb)
    obtain ⟨b, hb⟩ := Option.ne_none_iff_exists'.1 (h a List.mem_cons_self)
    exact ⟨b :: m, by rw [List.map_cons, hb, hm, List.map_cons]⟩

theorem prepare_interp (E : Env) (f : FloatProfile) (lat long : ℝ) (p : Prepared) (h : prepare E f lat long = .ok p) :
    ∃ z b, floatDepth E lat long = .ok z ∧ chosenCasts E f lat long z = .ok b ∧ b.data ≠ ⟨[], [], [], [], [], []⟩ := by
  obtain ⟨z, b, hz, hb, -, -⟩ := prepare_ok E f lat long p h
  refine ⟨z, b, hz, hb, ?_⟩
  intro h0
  unfold prepare at h
  simp only [bind, Except.bind, hz, hb] at h
  cases hs : Interp.interpClimatology (toGrid b.data.sal) (toGrid b.data.ptmp) (toGrid b.data.pres) (floatLevels f) with
  | error e => rw [hs] at h; cases h
  | ok s =>
    rw [h0] at hs
    have := (interp_fails_iff (toGrid []) (toGrid []) (toGrid []) ⟨rfl, rfl, rfl, rfl⟩ (floatLevels f) .valueError).2 ⟨rfl, Or.inl rfl⟩
    dsimp only at hs
    rw [this] at hs
    cases hs

theorem prepare_all (E : Env) (f : FloatProfile) (lat long : ℝ) (p : Prepared) (h : prepare E f lat long = .ok p) :
    ∃ z b S P, floatDepth E lat long = .ok z ∧ chosenCasts E f lat long z = .ok b ∧ p.pos = ⟨lat, matchLongitude b.data.long long, f.date, z⟩ ∧
      p.grid = ⟨b.data.long.filterMap id, b.data.lat.filterMap id, b.data.dates, b.z⟩ ∧
      Interp.interpClimatology (toGrid b.data.sal) (toGrid b.data.ptmp) (toGrid b.data.pres) (floatLevels f) = .ok (S, P) ∧
      p.interpSal = rowsOf f.sal.length b.data.sal.length S ∧ p.interpPres = rowsOf f.sal.length b.data.sal.length P := by
  unfold prepare at h
  simp only [bind, Except.bind] at h
  cases hz : floatDepth E lat long with
  | error e => rw [hz] at h; cases h
  | ok z =>
    rw [hz] at h
    dsimp only at h
    cases hb : chosenCasts E f lat long z with
    | error e => rw [hb] at h; cases h
    | ok b =>
      rw [hb] at h
      dsimp only at h
      cases hs : Interp.interpClimatology (toGrid b.data.sal) (toGrid b.data.ptmp) (toGrid b.data.pres) (floatLevels f) with
      | error e => rw [hs] at h; cases h
      | ok s =>
        rw [hs] at h
        have := Except.ok.inj h
        subst this
        exact ⟨z, b, s.1, s.2, rfl, hb, rfl, rfl, by rw [hs], rfl, rfl⟩

/-- The columns, one for every number in `kept`, that hold the casts, each down to the depth of the deepest chosen cast. -/
structure Columns (limit : Option ℝ) (index : List ℕ) (casts : List (RefCast ℝ)) (kept : List ℕ) (d : RegionData ℝ) : Prop where
  pres : d.pres.map some = kept.map (fun (k : ℕ) => (casts[k]?).map fun c => (columnOf limit (depthOf limit (chosen index casts)) c).map (·.1))
  ptmp : d.ptmp.map some = kept.map (fun (k : ℕ) => (casts[k]?).map fun c => (columnOf limit (depthOf limit (chosen index casts)) c).map (·.2.1))
  sal : d.sal.map some = kept.map (fun (k : ℕ) => (casts[k]?).map fun c => (columnOf limit (depthOf limit (chosen index casts)) c).map (·.2.2))
  dates : d.dates.map some = kept.map (fun (n : ℕ) => (casts[n]?).map decimalDate)
  short : ∀ n ∈ kept, ∀ c, casts[n]? = some c → (usableLevels limit c).length ≤ depthOf limit (chosen index casts)
  latLen : d.lat.length = kept.length
  longLen : d.long.length = kept.length
  side : d.long.map some = kept.map (fun (n : ℕ) => (casts[n]?).map fun c => c.long.map (amongChosen casts index))
  place : ∀ (k n : ℕ), kept[k]? = some n → ∃ (c : RefCast ℝ) (y x x' : ℝ) (m : ℤ),
    casts[n]? = some c ∧ c.lat = some y ∧ c.long = some x ∧ d.lat[k]? = some (some y) ∧ d.long[k]? = some (some x') ∧ x' = x + 360 * m

/-- What is known before the frontal criterion is applied to the data `d` and the depths `bz`. -/
structure Found (E : Env) (f : FloatProfile) (lat long : ℝ) (casts : List (RefCast ℝ)) (index : List ℕ) (z : ℝ) (zs : List ℝ) (d : RegionData ℝ)
    (bz : List ℝ) : Prop where
  float : floatDepth E lat long = .ok z
  choice : findBesthist (besthistArgs E lat (matchLongitude (wrapLongitude (casts.map (·.long))) long) f.date z) E.argsort E.rand
    (Verif.Profile.castsOf (casts.map (·.lat)) (wrapLongitude (casts.map (·.long))) (casts.map decimalDate) zs) = .ok index
  len : zs.length = casts.length
  zlen : bz.length = index.length
  zdepth : ∀ (k n : ℕ), index[k]? = some n → ∃ (c : RefCast ℝ) (y x d : ℝ), casts[n]? = some c ∧ c.lat = some y ∧ c.long = some x ∧
    bz[k]? = some d ∧ DepthAt E.topo (max y (-1079 / 12)) x d
  all : ∀ (n : ℕ) (c : RefCast ℝ), casts[n]? = some c → ∃ (y x d : ℝ) (m : ℤ), c.lat = some y ∧ c.long = some x ∧ zs[n]? = some d ∧
    DepthAt E.topo (max y (-1079 / 12)) x d ∧ (wrapLongitude (casts.map (·.long)))[n]? = some (some (x + 360 * m))
  zmem : ∀ w ∈ bz, w ∈ zs
  columns : Columns (pressureLimit f.pres E.cfg.pDelta) index casts (keptNumbers (pressureLimit f.pres E.cfg.pDelta) index casts) d

/-- The frontal criterion does not find casts where there are none. -/
theorem applySaf_nil (interp : Saf.Interp ℝ) (temperature : Temperature ℝ) (s : SafProfiles ℝ) (use : Bool) (bz : List ℝ) (f : SafFloat ℝ) (b : SafGrid ℝ)
    (h : applySaf interp temperature s use ⟨⟨[], [], [], [], [], []⟩, bz⟩ f = .ok b) : b.data = ⟨[], [], [], [], [], []⟩ := by
  unfold applySaf at h
  cases use with
  | false => rw [← Except.ok.inj h]
  | true =>
    simp only [if_true, bind, Except.bind] at h
    cases hf : frontalConstraint interp temperature s ⟨⟨[], [], [], [], [], []⟩, bz⟩ f with
    | error e => rw [hf] at h; cases h
    | ok g2 =>
      rw [hf] at h
      dsimp only at h
      have h0 : g2.data.sal = [] := by
        unfold frontalConstraint at hf
        split_ifs at hf with hl
        · simp only [bind, Except.bind] at hf
          cases hc : floatClass interp s f with
          | error e => rw [hc] at hf; cases hf
          | ok k =>
            rw [hc] at hf
            have hg : gridClasses interp temperature ⟨⟨[], [], [], [], [], []⟩, bz⟩ k = .ok [] := by
              unfold gridClasses
              split_ifs <;> rfl
            dsimp only at hf
            rw [hg] at hf
            dsimp only [argwhere, argwhereFrom, selectCasts, gather, bind, Except.bind] at hf
            simp only [List.mapM_nil, pure, Except.pure, Except.ok.injEq] at hf
            rw [← hf]
        · rw [← Except.ok.inj hf]
      rw [h0] at h
      simp only [List.headD_nil, List.length_nil, gt_iff_lt, lt_irrefl, and_false, if_false, Nat.not_lt_zero, pure, Except.pure, Except.ok.injEq] at h
      rw [← h]

/-- What `wrap_longitude` does with each longitude. -/
theorem wrapLongitude_each (os : List (Option ℝ)) (P : Prop) [Decidable P] (hP : P ↔ ∃ y, some y ∈ os ∧ 320 ≤ eastward y) :
    wrapLongitude os = os.map (Option.map fun x => if P ∧ eastward x ≤ 40 then eastward x + 360 else eastward x) := by
  have h2 : (os.map (Option.map fun x : ℝ => if x < 0 then x + 360 else x)).any (fun o => o.any fun x : ℝ => decide (x ≥ 320)) = true ↔
      ∃ y, some y ∈ os ∧ 320 ≤ eastward y := by
    rw [List.any_eq_true]
    constructor
    · rintro ⟨o, ho, h⟩
      obtain ⟨o', ho', rfl⟩ := List.mem_map.1 ho
      cases o' with
      | none => cases h
      | some y => exact ⟨y, ho', by simpa [eastward] using h⟩
    · rintro ⟨y, hy, h⟩
      exact ⟨_, List.mem_map.2 ⟨some y, hy, rfl⟩, by simpa [eastward] using h⟩
  unfold wrapLongitude
  dsimp only
  by_cases h : P
  · rw [if_pos (h2.2 (hP.1 h)), List.map_map]
    refine List.map_congr_left fun o _ => ?_
    cases o with
    | none => rfl
    | some x =>
      simp only [Function.comp, Option.map_some, h, true_and, Option.some.injEq, eastward, add_comm]
  · rw [if_neg (fun h' => h (hP.2 (h2.1 h')))]
    refine List.map_congr_left fun o _ => ?_
    cases o with
    | none => rfl
    | some x =>
      simp only [Option.map_some, h, false_and, if_false, Option.some.injEq, eastward]

/-- The longitudes of the chosen casts. -/
theorem chosen_longitudes (casts : List (RefCast ℝ)) (index : List ℕ) :
    wrapLongitude ((chosen index casts).map (·.long)) = (chosen index casts).map fun c => c.long.map (amongChosen casts index) := by
  classical
  rw [wrapLongitude_each ((chosen index casts).map (·.long))
    (∃ n ∈ index, ∃ (c : RefCast ℝ) (x' : ℝ), casts[n]? = some c ∧ c.long = some x' ∧ 320 ≤ eastward x'), List.map_map]
  · refine List.map_congr_left fun c _ => ?_
    cases h : c.long with
    | none => simp [Function.comp, h]
    | some x =>
      simp only [Function.comp, h, Option.map_some, Option.some.injEq]
      unfold amongChosen
      congr
  · constructor
    · rintro ⟨n, hn, c, x, hc, hx, h⟩
      refine ⟨x, List.mem_map.2 ⟨c, ?_, hx⟩, h⟩
      unfold chosen
      rw [List.mem_map]
      exact ⟨(c, n), List.mem_filter.2 ⟨List.mem_zipIdx_iff_getElem?.2 hc, by simpa using hn⟩, rfl⟩
    · rintro ⟨x, hx, h⟩
      obtain ⟨c, hc, hcx⟩ := List.mem_map.1 hx
      unfold chosen at hc
      obtain ⟨⟨c', n⟩, hm, rfl⟩ := List.mem_map.1 hc
      obtain ⟨m1, m2⟩ := List.mem_filter.1 hm
      exact ⟨n, by simpa using m2, c', x, List.mem_zipIdx_iff_getElem?.1 m1, hcx, h⟩

/-- The longitudes that `get_region_data` returns. -/
theorem region_longitudes (limit : Option ℝ) (index : List ℕ) (casts : List (RefCast ℝ)) :
    (regionResult limit (chosen index casts)).long.map some =
      (keptNumbers limit index casts).map (fun (n : ℕ) => (casts[n]?).map fun c => c.long.map (amongChosen casts index)) := by
  classical
  have hk := kept_casts limit index casts
  unfold regionResult
  dsimp only
  rw [chosen_longitudes]
  have hzip : ∀ (l : List (RefCast ℝ)) (g : RefCast ℝ → Option ℝ), l.zip (l.map g) = l.map fun c => (c, g c) := by
    intro l g
    induction l with
    | nil => rfl
    | cons a l ih => simp [ih]
  rw [hzip, List.filter_map, List.map_map, List.map_map]
  have := congrArg (List.map fun o : Option (RefCast ℝ) => o.map fun c => c.long.map (amongChosen casts index)) hk
  rw [List.map_map, List.map_map] at this
  convert this using 2
  · rfl
  · rfl
  · rfl

/-- What is known when the level loop begins. -/
theorem prepared_found (E : Env) (hi : IsInterp2d E.interp2) (hf : E.topo.length = 2160 * 4320) (hw : WellFormedDisk E.disk)
    (f : FloatProfile) (lat long : ℝ) (p : Prepared) (hp : prepare E f lat long = .ok p) (casts : List (RefCast ℝ)) (hcasts : surrounding E long lat = casts)
    (hpos : ∀ c ∈ casts, ∀ y x : ℝ, c.lat = some y → c.long = some x → (-90 ≤ y ∧ y ≤ 90) ∧ -180 ≤ x ∧ x ≤ 360) :
    ∃ (index : List ℕ) (z : ℝ) (zs : List ℝ) (d : RegionData ℝ) (bz : List ℝ) (b : SafGrid ℝ) (S P : ℕ → ℕ → Option ℝ),
      Found E f lat long casts index z zs d bz ∧
      applySaf E.interp E.temperature E.saf (decide (E.useSaf = 1)) ⟨d, bz⟩ ⟨lat, f.pres.zip (f.tmp.zip f.sal)⟩ = .ok b ∧
      p.pos = ⟨lat, matchLongitude b.data.long long, f.date, z⟩ ∧ p.grid = ⟨b.data.long.filterMap id, b.data.lat.filterMap id, b.data.dates, b.z⟩ ∧
      Interp.interpClimatology (toGrid b.data.sal) (toGrid b.data.ptmp) (toGrid b.data.pres) (floatLevels f) = .ok (S, P) ∧
      p.interpSal = rowsOf f.sal.length b.data.sal.length S ∧ p.interpPres = rowsOf f.sal.length b.data.sal.length P := by
  obtain ⟨z, b, S, P, hz, hb, hpp, hgrid, hint, hint1, hint2⟩ := prepare_all E f lat long p hp
  obtain ⟨z', b', hz', hb', hsal⟩ := prepare_interp E f lat long p hp
  obtain rfl : z' = z := by rw [hz] at hz'; exact (Except.ok.inj hz').symm
  obtain rfl : b' = b := by rw [hb] at hb'; exact (Except.ok.inj hb').symm
  obtain ⟨boxes, hl, gz, index, d, bz, g1, g2, g3, g4, g5, g6, g7⟩ := chosenCasts_ok _ _ _ _ _ _ hb
  have hsur : surrounding E long lat = refCasts E.disk E.name boxes := by
    unfold surrounding; rw [g1]
  rw [hsur] at hcasts
  obtain ⟨s1, s2⟩ := hist_locations_spec E.disk hw E.name boxes
  rw [hcasts] at s1 s2
  have hne : casts ≠ [] := by
    intro h0
    rw [s1 h0] at g2
    cases g2
  rw [s2 hne] at g2
  obtain rfl := (Except.ok.inj g2).symm
  dsimp only at g3 g4
  have hknown : ∀ c ∈ casts, c.lat ≠ none ∧ c.long ≠ none := by
    intro c hc
    constructor
    · intro h0
      rw [gridDepths_missing _ _ _ (Or.inl (List.mem_map.2 ⟨c, hc, h0⟩))] at g3
      cases g3
    · intro h0
      obtain ⟨k, hk, hkc⟩ := List.mem_iff_getElem.1 hc
      have hcong := wrap_longitude_congruent (casts.map (·.long))
      rw [List.forall₂_iff_get] at hcong
      have hk' : k < (casts.map (·.long)).length := by simpa using hk
      have := hcong.2 k hk' (hcong.1 ▸ hk')
      rcases this with ⟨-, e⟩ | ⟨x, n, e, -⟩
      · rw [gridDepths_missing _ _ _ (Or.inr (e ▸ List.get_mem _ _))] at g3
        cases g3
      · simp [hkc, h0] at e
  obtain ⟨lats, hlats⟩ := known_list casts (·.lat) fun c hc => (hknown c hc).1
  obtain ⟨olongs, holongs⟩ := known_list casts (·.long) fun c hc => (hknown c hc).2
  obtain ⟨longs, hlongs⟩ : ∃ m : List ℝ, wrapLongitude (casts.map (·.long)) = m.map some := by
    rcases wrapLongitude_cases (casts.map (·.long)) with ⟨-, e⟩ | ⟨-, e⟩ <;> rw [e, holongs, List.map_map]
    · exact ⟨olongs.map fun x => w2 (w1 x), by rw [List.map_map]; rfl⟩
    · exact ⟨olongs.map fun x => w1 x, by rw [List.map_map]; rfl⟩
  have hll : lats.length = casts.length := by simpa using (congrArg List.length hlats).symm
  have hlo : longs.length = casts.length := by
    have := congrArg List.length hlongs
    rw [wrapLongitude_len] at this
    simpa using this.symm
  have castOf : ∀ (n : ℕ), n < casts.length → ∃ (c : RefCast ℝ) (y x x' : ℝ) (m : ℤ), casts[n]? = some c ∧ c.lat = some y ∧ c.long = some x ∧
      lats[n]? = some y ∧ longs[n]? = some x' ∧ x' = x + 360 * m := by
    intro n hn
    obtain ⟨y, hy⟩ := Option.ne_none_iff_exists'.1 (hknown _ (List.getElem_mem hn)).1
    have e1 : lats[n]? = some y := by
      have := congrArg (fun l => l[n]?) hlats
      simp only [List.getElem?_map, List.getElem?_eq_getElem hn, Option.map_some, hy] at this
      rw [eq_comm, Option.map_eq_some_iff] at this
      obtain ⟨a, ha, e⟩ := this
      rw [ha, Option.some.inj e]
    have hn' : n < longs.length := by omega
    have hsame := wrap_pair casts (casts[n], some (longs[n])) (by
      rw [List.mem_iff_getElem?]
      refine ⟨n, List.getElem?_zip_eq_some.2 ⟨List.getElem?_eq_getElem hn, ?_⟩⟩
      rw [hlongs, List.getElem?_map, List.getElem?_eq_getElem hn']; rfl)
    rcases hsame with ⟨h, -⟩ | ⟨x', x, m, h1, h2, h3⟩
    · cases h
    · refine ⟨casts[n], y, x, x', m, List.getElem?_eq_getElem hn, hy, h2, e1, ?_, h3⟩
      rw [List.getElem?_eq_getElem hn']; exact h1
  have hla : ∀ y ∈ lats, -90 ≤ y ∧ y ≤ 90 := by
    intro y hy
    obtain ⟨n, hn, rfl⟩ := List.mem_iff_getElem.1 hy
    obtain ⟨c, y, x, x', m, h1, h2, h3, h4, -, -⟩ := castOf n (by omega)
    rw [List.getElem?_eq_getElem hn] at h4
    rw [Option.some.inj h4]
    exact (hpos c (List.mem_of_getElem? h1) y x h2 h3).1
  have hlb : ∀ x ∈ longs, -180 ≤ x ∧ x ≤ 540 := by
    have hol : ∀ x ∈ olongs, -180 ≤ x ∧ x ≤ 360 := by
      intro x hx
      have : some x ∈ casts.map (·.long) := by rw [holongs]; exact List.mem_map.2 ⟨x, hx, rfl⟩
      obtain ⟨c, hc, hcx⟩ := List.mem_map.1 this
      obtain ⟨y, hy⟩ := Option.ne_none_iff_exists'.1 (hknown c hc).1
      exact (hpos c hc y x hy hcx).2
    intro x hx
    have hx' : some x ∈ wrapLongitude (casts.map (·.long)) := by rw [hlongs]; exact List.mem_map.2 ⟨x, hx, rfl⟩
    rcases wrapLongitude_cases (casts.map (·.long)) with ⟨-, e⟩ | ⟨-, e⟩ <;> rw [e, holongs, List.map_map] at hx' <;>
      obtain ⟨a, ha, e'⟩ := List.mem_map.1 hx' <;> have hb := hol a ha <;> simp only [Function.comp, Option.map_some, Option.some.injEq] at e' <;> rw [← e'] <;>
      unfold w1 <;> (try unfold w2) <;> split_ifs <;> constructor <;> linarith
  obtain ⟨zs, k1, k2, k3⟩ := grid_depths_right E hi hf lats longs (by omega) (by rintro rfl; exact hne (List.length_eq_zero_iff.1 hll.symm)) hla hlb
  rw [hlats, hlongs, k1] at g3
  obtain rfl : zs = gz := Except.ok.inj g3
  obtain ⟨b1, b2⟩ := Verif.Piecewise.gather_inv g6
  refine ⟨index, z', zs, d, bz, b', S, P, ⟨hz, g4, by omega, b1, ?_, ?_, ?_, ?_⟩, g7, hpp, hgrid, hint, hint1, hint2⟩
  · intro k n hk
    obtain ⟨dd, hd1, hd2⟩ := b2 k n hk
    have hn : n < casts.length := by
      have := (List.getElem?_eq_some_iff.1 hd2).1
      omega
    obtain ⟨c, y, x, x', m, h1, h2, h3, h4, h5, h6⟩ := castOf n hn
    exact ⟨c, y, x, dd, h1, h2, h3, hd1, depth_turn _ _ _ _ m (h6 ▸ k3 n y x' dd h4 h5 hd2)⟩
  · intro n c hc
    have hn := (List.getElem?_eq_some_iff.1 hc).1
    obtain ⟨c', y, x, x', m, h1, h2, h3, h4, h5, h6⟩ := castOf n hn
    rw [hc] at h1
    obtain rfl := Option.some.inj h1
    have hzn : n < zs.length := by omega
    refine ⟨y, x, zs[n], m, h2, h3, List.getElem?_eq_getElem hzn, depth_turn _ _ _ _ m (h6 ▸ k3 n y x' _ h4 h5 (List.getElem?_eq_getElem hzn)), ?_⟩
    rw [hlongs, List.getElem?_map, h5, h6]; rfl
  · intro a ha
    obtain ⟨k, hk⟩ := List.mem_iff_getElem?.1 ha
    have hk' : k < index.length := by rw [← b1]; exact (List.getElem?_eq_some_iff.1 hk).1
    obtain ⟨dd, hd1, hd2⟩ := b2 k _ (List.getElem?_eq_getElem hk')
    rw [show bz[k]? = some a from hk] at hd1
    obtain rfl := Option.some.inj hd1
    exact List.mem_of_getElem? hd2
  · cases hsel : chosen index (refCasts E.disk E.name boxes) with
    | nil => rw [region_data_none _ hw _ _ _ _ _ hsel] at g5; cases g5
    | cons c0 l0 =>
      by_cases h0 : usableLevels (pressureLimit f.pres E.cfg.pDelta) c0 = []
      · rw [region_data_first_cast_empty _ hw _ _ _ _ _ c0 l0 hsel h0] at g5
        obtain rfl := (Except.ok.inj g5).symm
        exact absurd (applySaf_nil _ _ _ _ _ _ _ g7) hsal
      · obtain ⟨lats', longs', dates', out, q1, q2, q3, q4, q5, q6, depth, rfl, q7, q8, q9, q10⟩ := region_data_numbering E.disk hw E.name boxes index f.pres E.cfg.pDelta c0 l0 hsel h0
        rw [hcasts] at q3 q4 q5 q6 q7 q8 q9 q10
        have q1' := (hist_locations_spec E.disk hw E.name boxes).2 (by rw [hcasts]; exact hne)
        rw [hcasts] at q1'
        rw [q1'] at q1
        have q1'' := Except.ok.inj q1
        simp only [Prod.mk.injEq] at q1''
        obtain ⟨rfl, rfl, rfl⟩ := q1''
        rw [g5] at q2
        obtain rfl := Except.ok.inj q2
        have hside := region_longitudes (pressureLimit f.pres E.cfg.pDelta) index casts
        rw [show regionResult (pressureLimit f.pres E.cfg.pDelta) (chosen index casts) = d from by
          have := region_data_spec E.disk hw E.name boxes index f.pres E.cfg.pDelta c0 l0 hsel h0
          rw [g5, hcasts] at this
          exact (Except.ok.inj this).symm] at hside
        have hkl : ∀ n ∈ keptNumbers (pressureLimit f.pres E.cfg.pDelta) index casts, n < casts.length := by
          classical
          intro n hn
          exact List.mem_range.1 (List.mem_filter.1 hn).1
        have hlatl : d.lat.length = (keptNumbers (pressureLimit f.pres E.cfg.pDelta) index casts).length := by
          simpa using congrArg List.length q3
        have latAt : ∀ (k n : ℕ) (y : ℝ), (keptNumbers (pressureLimit f.pres E.cfg.pDelta) index casts)[k]? = some n → lats[n]? = some y → d.lat[k]? = some (some y) := by
          intro k n y hk hy
          have := congrArg (fun l => l[k]?) q3
          simp only [List.getElem?_map, hk, Option.map_some] at this
          have e0 : Option.map (fun x => x.lat) casts[n]? = some (some y) := by
            rw [← List.getElem?_map, hlats, List.getElem?_map, hy]; rfl
          rw [e0] at this
          rw [Option.map_eq_some_iff] at this
          obtain ⟨o, ho, e⟩ := this
          rw [ho]; exact e
        have longAt : ∀ (k n : ℕ) (x : ℝ), (keptNumbers (pressureLimit f.pres E.cfg.pDelta) index casts)[k]? = some n → longs[n]? = some x →
            ∃ (x' : ℝ) (m : ℤ), d.long[k]? = some (some x') ∧ x' = x + 360 * m := by
          intro k n x hk hx
          have hkk : k < d.long.length := by rw [q5]; exact (List.getElem?_eq_some_iff.1 hk).1
          have hs' := q6 k n d.long[k] (some x) hk (List.getElem?_eq_getElem hkk) (by rw [hlongs, List.getElem?_map, hx]; rfl)
          rcases hs' with ⟨-, h⟩ | ⟨x', x'', m, h1, h2, h3⟩
          · cases h
          · obtain rfl := Option.some.inj h2
            exact ⟨x', m, by rw [List.getElem?_eq_getElem hkk, h1], h3⟩
        refine ⟨q8, q9, q10, by rw [q4]; simp only [List.getElem?_map], q7, hlatl, q5, hside, ?_⟩
        intro k n hk
        obtain ⟨c, y, x, x', m, h1, h2, h3, h4, h5, h6⟩ := castOf n (hkl n (List.mem_of_getElem? hk))
        obtain ⟨x1, m1, h7, h8⟩ := longAt k n x' hk h5
        exact ⟨c, y, x, x1, m1 + m, h1, h2, h3, latAt k n y hk h4, h7, by rw [h8, h6]; push_cast; ring⟩

/-- The positions of columns are known. -/
theorem Columns.known {limit : Option ℝ} {index : List ℕ} {casts : List (RefCast ℝ)} {kept : List ℕ} {d : RegionData ℝ} (h : Columns limit index casts kept d) :
    (∃ la : List ℝ, d.lat = la.map some) ∧ ∃ lo : List ℝ, d.long = lo.map some := by
  constructor
  · have := known_list d.lat id (by
      intro o ho
      obtain ⟨k, hk, rfl⟩ := List.mem_iff_getElem.1 ho
      obtain ⟨c, y, x, x', m, -, -, -, h4, -, -⟩ := h.place k _ (List.getElem?_eq_getElem (by rw [← h.latLen]; exact hk))
      rw [List.getElem?_eq_getElem hk] at h4
      rw [Option.some.inj h4]
      simp)
    simpa using this
  · have := known_list d.long id (by
      intro o ho
      obtain ⟨k, hk, rfl⟩ := List.mem_iff_getElem.1 ho
      obtain ⟨c, y, x, x', m, -, -, -, -, h4, -⟩ := h.place k _ (List.getElem?_eq_getElem (by rw [← h.longLen]; exact hk))
      rw [List.getElem?_eq_getElem hk] at h4
      rw [Option.some.inj h4]
      simp)
    simpa using this

/-- The positions as plain lists. -/
theorem Columns.plain {limit : Option ℝ} {index : List ℕ} {casts : List (RefCast ℝ)} {kept : List ℕ} {d : RegionData ℝ} (h : Columns limit index casts kept d) :
    (d.lat.filterMap id).length = kept.length ∧ (d.long.filterMap id).length = kept.length ∧
    ∀ (k n : ℕ), kept[k]? = some n → ∃ (c : RefCast ℝ) (y x x' : ℝ) (m : ℤ), casts[n]? = some c ∧ c.lat = some y ∧ c.long = some x ∧
      (d.lat.filterMap id)[k]? = some y ∧ (d.long.filterMap id)[k]? = some x' ∧ x' = x + 360 * m := by
  obtain ⟨⟨la, hla⟩, lo, hlo⟩ := h.known
  have fm : ∀ l : List ℝ, (l.map some).filterMap id = l := by
    intro l; rw [List.filterMap_map]; simp
  have e1 := h.latLen
  have e2 := h.longLen
  rw [hla, List.length_map] at e1
  rw [hlo, List.length_map] at e2
  rw [hla, hlo, fm, fm]
  refine ⟨e1, e2, ?_⟩
  intro k n hk
  obtain ⟨c, y, x, x', m, h1, h2, h3, h4, h5, h6⟩ := h.place k n hk
  refine ⟨c, y, x, x', m, h1, h2, h3, ?_, ?_, h6⟩
  · rw [hla, List.getElem?_map, Option.map_eq_some_iff] at h4
    obtain ⟨a, ha, e⟩ := h4
    rw [ha, Option.some.inj e]
  · rw [hlo, List.getElem?_map, Option.map_eq_some_iff] at h5
    obtain ⟨a, ha, e⟩ := h5
    rw [ha, Option.some.inj e]

/-- C45. What a profile is mapped with, when the frontal criterion is off. Let `casts` be the reference casts around the float and `index` what
`find_besthist` returned. The k-th position is that of the cast `keptNumbers[k]`: the numbers of `index` in ascending order, without those of casts
without data. The k-th depth is the depth at the cast `index[k]`. Positions are known and in the usual ranges. -/
theorem depth_of_chosen_cast (E : Env) (hi : IsInterp2d E.interp2) (hf : E.topo.length = 2160 * 4320) (hw : WellFormedDisk E.disk) (hs : E.useSaf ≠ 1)
    (f : FloatProfile) (lat long : ℝ) (p : Prepared) (hp : prepare E f lat long = .ok p) (casts : List (RefCast ℝ)) (hcasts : surrounding E long lat = casts)
    (hpos : ∀ c ∈ casts, ∀ y x : ℝ, c.lat = some y → c.long = some x → (-90 ≤ y ∧ y ≤ 90) ∧ -180 ≤ x ∧ x ≤ 360) :
    ∃ (index : List ℕ) (z : ℝ) (zs : List ℝ), floatDepth E lat long = .ok z ∧
      findBesthist (besthistArgs E lat (matchLongitude (wrapLongitude (casts.map (·.long))) long) f.date z) E.argsort E.rand
        (Verif.Profile.castsOf (casts.map (·.lat)) (wrapLongitude (casts.map (·.long))) (casts.map decimalDate) zs) = .ok index ∧
      zs.length = casts.length ∧
      p.grid.z.length = index.length ∧
      (∀ (k n : ℕ), index[k]? = some n → ∃ (c : RefCast ℝ) (y x d : ℝ), casts[n]? = some c ∧ c.lat = some y ∧ c.long = some x ∧
        p.grid.z[k]? = some d ∧ DepthAt E.topo (max y (-1079 / 12)) x d) ∧
      p.grid.lat.length = (keptNumbers (pressureLimit f.pres E.cfg.pDelta) index casts).length ∧
      p.grid.long.length = (keptNumbers (pressureLimit f.pres E.cfg.pDelta) index casts).length ∧
      ∀ (k n : ℕ), (keptNumbers (pressureLimit f.pres E.cfg.pDelta) index casts)[k]? = some n → ∃ (c : RefCast ℝ) (y x x' : ℝ) (m : ℤ),
        casts[n]? = some c ∧ c.lat = some y ∧ c.long = some x ∧ p.grid.lat[k]? = some y ∧ p.grid.long[k]? = some x' ∧ x' = x + 360 * m := by
  obtain ⟨index, z, zs, d, bz, b, S, P, hF, hb, -, hg, -⟩ := prepared_found E hi hf hw f lat long p hp casts hcasts hpos
  rw [show decide (E.useSaf = 1) = false by simpa using hs] at hb
  obtain rfl := (Except.ok.inj hb).symm
  obtain ⟨h6, h7, h8⟩ := hF.columns.plain
  rw [hg]
  exact ⟨index, z, zs, hF.float, hF.choice, hF.len, hF.zlen, hF.zdepth, h6, h7, h8⟩

/-- C45, in part. A profile is mapped with one depth for every cast, the depth at its position, if no more casts surround the float than may be used and
all of them have data down to the pressure of the float; the frontal criterion is off. Missing: more casts, or casts without data, for which it is false. -/
theorem own_depths_partial (E : Env) (hi : IsInterp2d E.interp2) (hf : E.topo.length = 2160 * 4320) (hw : WellFormedDisk E.disk) (hs : E.useSaf ≠ 1)
    (f : FloatProfile) (lat long : ℝ) (p : Prepared) (hp : prepare E f lat long = .ok p)
    (hpos : ∀ c ∈ surrounding E long lat, ∀ y x : ℝ, c.lat = some y → c.long = some x → (-90 ≤ y ∧ y ≤ 90) ∧ -180 ≤ x ∧ x ≤ 360)
    (hfew : (surrounding E long lat).length ≤ E.maxCasts)
    (hdata : ∀ c ∈ surrounding E long lat, HasData (pressureLimit f.pres E.cfg.pDelta) c) :
    p.grid.z.length = p.grid.lat.length ∧ p.grid.long.length = p.grid.lat.length ∧
    ∀ (k : ℕ) (y x d : ℝ), p.grid.lat[k]? = some y → p.grid.long[k]? = some x → p.grid.z[k]? = some d → DepthAt E.topo (max y (-1079 / 12)) x d := by
  obtain ⟨index, z, zs, -, h2, h3, h4, h5, h6, h7, h8⟩ := depth_of_chosen_cast E hi hf hw hs f lat long p hp _ rfl hpos
  set casts := surrounding E long lat with hc
  have hlen : (Verif.Profile.castsOf (casts.map (·.lat)) (wrapLongitude (casts.map (·.long))) (casts.map decimalDate) zs).length = casts.length := by
    simp [Verif.Profile.castsOf, wrapLongitude_len, h3]
  have hasc : index.Pairwise (· < ·) := by
    generalize hA : besthistArgs E lat (matchLongitude (wrapLongitude (casts.map (·.long))) long) f.date z = A at h2
    generalize Verif.Profile.castsOf (casts.map (·.lat)) (wrapLongitude (casts.map (·.long))) (casts.map decimalDate) zs = cs at h2 hlen
    by_cases h0 : cs = []
    · subst h0
      unfold findBesthist at h2
      rw [if_pos rfl] at h2
      cases h2
    · have hzero : A.mapPvUse = 1 → ∀ c ∈ cs, c.z ≠ some 0 := by
        intro hpv c hcm hcz
        rw [besthist_zero_depth_fails A _ _ cs hpv c hcm hcz] at h2
        cases h2
      obtain ⟨out, o1, o2, -⟩ := besthist_few_returns_all A E.argsort E.rand cs h0 hzero
        (le_trans List.countP_le_length (by rw [hlen, ← hA]; exact hfew))
      rw [o1] at h2
      obtain rfl := Except.ok.inj h2
      exact o2
  have hkept : keptNumbers (pressureLimit f.pres E.cfg.pDelta) index casts = index := by
    classical
    refine List.Perm.eq_of_pairwise' (r := (· < ·)) (keptNumbers_sorted _ _ _) hasc ?_
    rw [List.perm_ext_iff_of_nodup ((keptNumbers_sorted _ index casts).imp (fun h => h.ne)) (hasc.imp (fun h => h.ne))]
    intro k
    unfold keptNumbers
    simp only [List.mem_filter, List.mem_range, decide_eq_true_eq]
    refine ⟨fun h => h.2.1, fun h => ?_⟩
    obtain ⟨i, hi'⟩ := List.mem_iff_getElem?.1 h
    obtain ⟨c, -, -, -, hcc, -⟩ := h5 i k hi'
    exact ⟨(List.getElem?_eq_some_iff.1 hcc).1, h, c, hcc, hdata c (List.mem_of_getElem? hcc)⟩
  rw [hkept] at h6 h7 h8
  refine ⟨by omega, by omega, ?_⟩
  intro k y x d hy hx hd
  have hk : k < index.length := by rw [← h6]; exact (List.getElem?_eq_some_iff.1 hy).1
  obtain ⟨c, y1, x1, d1, e1, e2, e3, e4, e5⟩ := h5 k _ (List.getElem?_eq_getElem hk)
  obtain ⟨c', y2, x2, x3, m, i1, i2, i3, i4, i5, i6⟩ := h8 k _ (List.getElem?_eq_getElem hk)
  rw [e1] at i1
  obtain rfl := Option.some.inj i1
  rw [e2] at i2
  obtain rfl := Option.some.inj i2
  rw [e3] at i3
  obtain rfl := Option.some.inj i3
  rw [hy] at i4
  obtain rfl := Option.some.inj i4
  rw [hx] at i5
  obtain rfl := Option.some.inj i5
  rw [hd] at e4
  obtain rfl := Option.some.inj e4
  refine depth_turn _ _ _ _ (-m) ?_
  rw [show x + 360 * ((-m : ℤ) : ℝ) = x1 by rw [i6]; push_cast; ring]
  exact e5

end Verif.Props
