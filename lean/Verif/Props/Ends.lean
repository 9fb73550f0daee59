import Verif.Props.OrderRun
import Verif.Spec.Ends

/-!
# C163, C164: when a run without a mapped file ends normally
-/

set_option linter.unusedSectionVars false

namespace Verif.Props

open Verif.Np Verif.Utilities Verif.Helper Verif.Region Verif.Profile Verif.Spec Verif.Spec.Profile Verif.Topo Verif.Finders Verif.Saf Verif.Level Verif.Update
open Verif.Lemmas.Profile

/-! ## The choice of casts -/

theorem wrapLongitude_among (casts : List (RefCast ℝ)) : wrapLongitude (casts.map (·.long)) = casts.map fun c => c.long.map (amongCasts casts) := by
  classical
  rw [wrapLongitude_each (casts.map (·.long)) (∃ c ∈ casts, ∃ x', c.long = some x' ∧ 320 ≤ eastward x'), List.map_map]
  · refine List.map_congr_left fun c _ => ?_
    cases h : c.long with
    | none => simp [Function.comp, h]
    | some x =>
      simp only [Function.comp, h, Option.map_some, Option.some.injEq]
      unfold amongCasts
      congr
  · constructor
    · rintro ⟨c, hc, x, hx, h⟩
      exact ⟨x, List.mem_map.2 ⟨c, hc, hx⟩, h⟩
    · rintro ⟨x, hx, h⟩
      obtain ⟨c, hc, hcx⟩ := List.mem_map.1 hx
      exact ⟨c, hc, x, hcx, h⟩

theorem matchLongitude_among (casts : List (RefCast ℝ)) (long : ℝ) :
    matchLongitude (casts.map fun c => c.long.map (amongCasts casts)) long = floatAmong (amongCasts casts) casts long := by
  classical
  have h : (argwhere pastTurn (casts.map fun c => c.long.map (amongCasts casts))).length > 0 ↔ ∃ c ∈ casts, ∃ x, c.long = some x ∧ 360 < amongCasts casts x := by
    rw [gt_iff_lt, List.length_pos_iff_exists_mem]
    constructor
    · rintro ⟨i, hi⟩
      obtain ⟨o, ho, hp⟩ := (argwhere_mem _ _ _).1 hi
      obtain ⟨c, hc, rfl⟩ := List.mem_map.1 (List.mem_of_getElem? ho)
      cases hx : c.long with
      | none => rw [hx] at hp; cases hp
      | some x => exact ⟨c, hc, x, hx, by rw [hx] at hp; simpa [pastTurn] using hp⟩
    · rintro ⟨c, hc, x, hx, h⟩
      obtain ⟨i, hi⟩ := List.mem_iff_getElem?.1 hc
      refine ⟨i, (argwhere_mem _ _ _).2 ⟨some (amongCasts casts x), ?_, by simpa [pastTurn] using h⟩⟩
      rw [List.getElem?_map, hi, Option.map_some, hx]
      rfl
  unfold matchLongitude floatAmong
  by_cases h1 : ∃ c ∈ casts, ∃ x, c.long = some x ∧ 360 < amongCasts casts x
  · rw [if_pos (h.2 h1)]
    by_cases h2 : 0 ≤ long ∧ long ≤ 20
    · rw [if_pos h2, if_pos ⟨h1, h2⟩]
    · rw [if_neg h2, if_neg fun h' => h2 h'.2]
  · rw [if_neg (fun h' => h1 (h.1 h')), if_neg fun h' => h1 h'.1]

theorem chosen_filter (cfg : MapConfig) (lat long : ℝ) (casts : List (RefCast ℝ)) (index : List ℕ)
    (h : ∀ n, n ∈ index ↔ ∃ c, casts[n]? = some c ∧ Near cfg lat long casts c) : chosen index casts = nearCasts cfg lat long casts := by
  classical
  unfold chosen nearCasts
  have e : (casts.filter fun c => decide (Near cfg lat long casts c)) = (casts.zipIdx.filter fun x => decide (Near cfg lat long casts x.1)).map Prod.fst := by
    conv_lhs => rw [← List.zipIdx_map_fst 0 casts]
    rw [List.filter_map]
    congr 1
    rw [List.zipIdx_map_fst]
    rfl
  rw [e]
  congr 1
  refine List.filter_congr ?_
  rintro ⟨c, n⟩ hx
  rw [List.mem_zipIdx_iff_getElem?] at hx
  refine decide_eq_decide.2 ((h n).trans ⟨?_, fun hn => ⟨c, hx, hn⟩⟩)
  rintro ⟨c', hc', hn⟩
  change casts[n]? = some c at hx
  rw [hx] at hc'
  obtain rfl := Option.some.inj hc'
  exact hn

/-- With known positions in range, and not more casts in reach than may be used, the casts in reach are chosen. -/
theorem chosenCasts_few (R : FloatRun) (hf : R.env.topo.length = 2160 * 4320) (hw : WellFormedDisk R.env.disk) (hs : R.env.useSaf ≠ 1)
    (hpv : R.env.cfg.usePv ≠ 1) (f : FloatProfile) (lat long z : ℝ) (hW : Within R lat long)
    (hne : surrounding R.env long lat ≠ []) (hknown : ∀ c ∈ surrounding R.env long lat, c.lat ≠ none ∧ c.long ≠ none) :
    ∃ (boxes : List WmoBox) (index : List ℕ) (bz : List ℝ), surrounding R.env long lat = refCasts R.env.disk R.env.name boxes ∧
      chosen index (refCasts R.env.disk R.env.name boxes) = inReach R lat long ∧
      chosenCasts R.env f lat long z = (regionData R.env.disk R.env.name boxes index f.pres R.env.cfg.pDelta).map fun d => ⟨d, bz⟩ := by
  classical
  obtain ⟨boxes, hbox, hsur⟩ : ∃ boxes, boxesAt R.env long lat = .ok boxes ∧ surrounding R.env long lat = refCasts R.env.disk R.env.name boxes := by
    unfold surrounding at hne ⊢
    cases h : boxesAt R.env long lat with
    | error e => rw [h] at hne; exact absurd rfl hne
    | ok boxes => exact ⟨boxes, rfl, rfl⟩
  have hpos := hW.casts
  have hfew := hW.few
  unfold inReach at hfew ⊢
  obtain ⟨casts, hcasts⟩ : ∃ casts, casts = surrounding R.env long lat := ⟨_, rfl⟩
  rw [← hcasts] at hpos hfew hne hknown hsur ⊢
  have hh := (hist_locations_spec R.env.disk hw R.env.name boxes).2 (hsur ▸ hne)
  rw [← hsur] at hh
  obtain ⟨lats, hlats⟩ := known_list casts (·.lat) fun c hc => (hknown c hc).1
  obtain ⟨olongs, holongs⟩ := known_list casts (·.long) fun c hc => (hknown c hc).2
  obtain ⟨longs, hlongs⟩ : ∃ m : List ℝ, wrapLongitude (casts.map (·.long)) = m.map some := by
    rcases wrapLongitude_cases (casts.map (·.long)) with ⟨-, e⟩ | ⟨-, e⟩ <;> rw [e, holongs, List.map_map]
    · exact ⟨olongs.map fun x => w2 (w1 x), by rw [List.map_map]; rfl⟩
    · exact ⟨olongs.map fun x => w1 x, by rw [List.map_map]; rfl⟩
  have hll : lats.length = casts.length := by simpa using (congrArg List.length hlats).symm
  have hlo : longs.length = casts.length := by
    have := congrArg List.length hlongs
    rw [wrapLongitude_len] at this
    simpa using this.symm
  have hla : ∀ y ∈ lats, -90 ≤ y ∧ y ≤ 90 := by
    intro y hy
    have : some y ∈ casts.map (·.lat) := by rw [hlats]; exact List.mem_map.2 ⟨y, hy, rfl⟩
    obtain ⟨c, hc, hcy⟩ := List.mem_map.1 this
    obtain ⟨x, hx⟩ := Option.ne_none_iff_exists'.1 (hknown c hc).2
    exact (hpos c hc y x hcy hx).1
  have hlb : ∀ x ∈ longs, -180 ≤ x ∧ x ≤ 540 := by
    have hol : ∀ x ∈ olongs, -180 ≤ x ∧ x ≤ 360 := by
      intro x hx
      have : some x ∈ casts.map (·.long) := by rw [holongs]; exact List.mem_map.2 ⟨x, hx, rfl⟩
      obtain ⟨c, hc, hcx⟩ := List.mem_map.1 this
      obtain ⟨y, hy⟩ := Option.ne_none_iff_exists'.1 (hknown c hc).1
      exact (hpos c hc y x hy hcx).2
    intro x hx
    have hx' : some x ∈ wrapLongitude (casts.map (·.long)) := by rw [hlongs]; exact List.mem_map.2 ⟨x, hx, rfl⟩
    rcases wrapLongitude_cases (casts.map (·.long)) with ⟨-, e⟩ | ⟨-, e⟩ <;> rw [e, holongs, List.map_map] at hx' <;>
      obtain ⟨a, ha, e'⟩ := List.mem_map.1 hx' <;> have hb := hol a ha <;> simp only [Function.comp, Option.map_some, Option.some.injEq] at e' <;> rw [← e'] <;>
      unfold w1 <;> (try unfold w2) <;> split_ifs <;> constructor <;> linarith
  obtain ⟨gz, hgz, hgl⟩ := grid_depths_defined R.env hf lats longs (by omega) (by rintro rfl; exact hne (List.length_eq_zero_iff.1 hll.symm)) hla hlb
  rw [← hlats, ← hlongs] at hgz
  obtain ⟨view, hview⟩ : ∃ view, view = Verif.Profile.castsOf (casts.map (·.lat)) (wrapLongitude (casts.map (·.long))) (casts.map decimalDate) gz := ⟨_, rfl⟩
  obtain ⟨A, hA⟩ : ∃ A, A = besthistArgs R.env lat (matchLongitude (wrapLongitude (casts.map (·.long))) long) f.date z := ⟨_, rfl⟩
  have hvl : view.length = casts.length := by
    rw [hview]
    simp only [Verif.Profile.castsOf, List.length_map, List.length_zip, wrapLongitude_len]
    omega
  have at_ : ∀ (n : ℕ) (c : RefCast ℝ), casts[n]? = some c → ∃ v, view[n]? = some v ∧ (InEllipse A v ↔ Near R.env.cfg lat long casts c) := by
    intro n c hc
    have hn := (List.getElem?_eq_some_iff.1 hc).1
    have hzn : n < gz.length := by omega
    refine ⟨⟨c.long.map (amongCasts casts), c.lat, some (decimalDate c), some gz[n]⟩, ?_, ?_⟩
    · rw [hview, wrapLongitude_among]
      unfold Verif.Profile.castsOf
      rw [List.getElem?_map]
      have : ((casts.map (·.lat)).zip ((casts.map fun c => c.long.map (amongCasts casts)).zip ((casts.map decimalDate).zip gz)))[n]? =
          some (c.lat, c.long.map (amongCasts casts), decimalDate c, gz[n]) := by
        simp [List.getElem?_zip_eq_some, hc, List.getElem?_eq_getElem hzn]
      rw [this]
      rfl
    · rw [hA, wrapLongitude_among, matchLongitude_among]
      unfold InEllipse Near besthistArgs
      simp only [if_neg hpv, Option.map_eq_some_iff]
      constructor
      · rintro ⟨_, y, ⟨x, hx, rfl⟩, hy, h⟩
        exact ⟨x, y, hx, hy, h⟩
      · rintro ⟨x, y, hx, hy, h⟩
        exact ⟨_, y, ⟨x, hx, rfl⟩, hy, h⟩
  have hnum : numInside A view = (nearCasts R.env.cfg lat long casts).length := by
    unfold numInside nearCasts
    rw [← List.countP_eq_length_filter]
    have key : view.map (fun v => decide (InEllipse A v)) = casts.map fun c => decide (Near R.env.cfg lat long casts c) := by
      apply List.ext_getElem
      · simp [hvl]
      · intro n h1 h2
        have hn : n < casts.length := by simpa using h2
        obtain ⟨v, hv, e⟩ := at_ n _ (List.getElem?_eq_getElem hn)
        obtain ⟨_, rfl⟩ := List.getElem?_eq_some_iff.1 hv
        simp [e]
    have := congrArg (List.countP id) key
    rw [List.countP_map, List.countP_map] at this
    exact this
  have hmaxA : A.maxCasts = R.env.maxCasts := by rw [hA]; rfl
  obtain ⟨index, hfind, -, hmem⟩ := besthist_few_returns_all A R.env.argsort R.env.rand view (by
      intro h0
      rw [h0] at hvl
      exact hne (List.length_eq_zero_iff.1 hvl.symm)) (fun h => absurd h (by rw [hA]; exact hpv)) (by rw [hnum, hmaxA]; exact hfew)
  have hidx : ∀ n, n ∈ index ↔ ∃ c, casts[n]? = some c ∧ Near R.env.cfg lat long casts c := by
    intro n
    rw [hmem]
    constructor
    · rintro ⟨v, hv, he⟩
      have hn : n < casts.length := by rw [← hvl]; exact (List.getElem?_eq_some_iff.1 hv).1
      obtain ⟨v', hv', e⟩ := at_ n _ (List.getElem?_eq_getElem hn)
      rw [hv] at hv'
      obtain rfl := Option.some.inj hv'
      exact ⟨_, List.getElem?_eq_getElem hn, e.1 he⟩
    · rintro ⟨c, hc, hn⟩
      obtain ⟨v, hv, e⟩ := at_ n c hc
      exact ⟨v, hv, e.2 hn⟩
  obtain ⟨bz, hgather⟩ : ∃ bz, gather gz index = .ok bz := ⟨_, gather_ok gz index (by
    intro i hi
    obtain ⟨c, hc, -⟩ := (hidx i).1 hi
    have := (List.getElem?_eq_some_iff.1 hc).1
    omega)⟩
  refine ⟨boxes, index, bz, hsur, ?_, ?_⟩
  · rw [← hsur]
    exact chosen_filter R.env.cfg lat long casts index hidx
  · unfold chosenCasts
    simp only [bind, Except.bind, hbox, hh, hgz]
    rw [← hA, ← hview, hfind]
    dsimp only
    cases regionData R.env.disk R.env.name boxes index f.pres R.env.cfg.pDelta with
    | error e => rfl
    | ok d =>
      dsimp only
      rw [hgather]
      dsimp only
      unfold applySaf
      rw [if_neg (by simpa using hs)]
      rfl

/-! ## The columns of the chosen casts -/

open Classical in
theorem regionResult_columns (limit : Option ℝ) (sel : List (RefCast ℝ)) :
    (regionResult limit sel).sal = (sel.filter fun c => decide (HasData limit c)).map (fun c => (columnOf limit (depthOf limit sel) c).map (·.2.2)) ∧
    (regionResult limit sel).ptmp = (sel.filter fun c => decide (HasData limit c)).map (fun c => (columnOf limit (depthOf limit sel) c).map (·.2.1)) ∧
    (regionResult limit sel).pres = (sel.filter fun c => decide (HasData limit c)).map (fun c => (columnOf limit (depthOf limit sel) c).map (·.1)) := by
  have h : (sel.filter fun c => decide (HasData limit c)) =
      ((sel.zip (wrapLongitude (sel.map (·.long)))).filter fun p => decide (HasData limit p.1)).map Prod.fst := by
    have e : (sel.zip (wrapLongitude (sel.map (·.long)))).map Prod.fst = sel := List.map_fst_zip (by rw [wrapLongitude_len, List.length_map])
    conv_lhs => rw [← e]
    rw [List.filter_map]
    rfl
  rw [h, List.map_map, List.map_map, List.map_map]
  exact ⟨rfl, rfl, rfl⟩

theorem hasData_levels (limit : Option ℝ) (c : RefCast ℝ) : HasData limit c ↔ completeLevels limit c ≠ [] := by
  unfold HasData completeLevels
  rw [Ne, List.filterMap_eq_nil_iff]
  push Not
  constructor
  · rintro ⟨l, hl, p, t, s, rfl⟩
    exact ⟨_, hl, by simp [completeLevel]⟩
  · rintro ⟨⟨p, t, s⟩, hl, h⟩
    cases p <;> cases t <;> cases s <;> first | exact absurd rfl h | exact ⟨_, hl, _, _, _, rfl⟩

theorem floatLevels_mem (f : FloatProfile) (s v q : ℝ) :
    (⟨some s, some v, some q⟩ : Interp.FloatLevel ℝ) ∈ floatLevels f ↔ ∃ n : ℕ, f.sal[n]? = some (some s) ∧ f.ptmp[n]? = some (some v) ∧ f.pres[n]? = some (some q) := by
  unfold floatLevels
  rw [List.mem_map]
  constructor
  · rintro ⟨⟨a, b, c⟩, hm, he⟩
    simp only [Interp.FloatLevel.mk.injEq] at he
    obtain ⟨rfl, rfl, rfl⟩ := he
    obtain ⟨n, hn⟩ := List.mem_iff_getElem?.1 hm
    obtain ⟨h1, h2⟩ := List.getElem?_zip_eq_some.1 hn
    obtain ⟨h2, h3⟩ := List.getElem?_zip_eq_some.1 h2
    exact ⟨n, h1, h2, h3⟩
  · rintro ⟨n, h1, h2, h3⟩
    exact ⟨(some s, some v, some q), List.mem_iff_getElem?.2 ⟨n, List.getElem?_zip_eq_some.2 ⟨h1, List.getElem?_zip_eq_some.2 ⟨h2, h3⟩⟩⟩, rfl⟩

/-- When the interpolation between the levels of the chosen casts succeeds. -/
theorem interp_sel (limit : Option ℝ) (sel : List (RefCast ℝ)) (f : FloatProfile) :
    (∃ SP, Interp.interpClimatology (toGrid (regionResult limit sel).sal) (toGrid (regionResult limit sel).ptmp) (toGrid (regionResult limit sel).pres)
      (floatLevels f) = .ok SP) ↔ (∃ c ∈ sel, HasData limit c) ∧
      ∀ (n : ℕ) (s v q : ℝ), f.sal[n]? = some (some s) → f.ptmp[n]? = some (some v) → f.pres[n]? = some (some q) →
        (∃ c ∈ sel, 2 ≤ (completeLevels limit c).length) ∧
        ∀ c ∈ sel, 2 ≤ (completeLevels limit c).length → ∃ a ∈ completeLevels limit c, a.theta ≠ v := by
  classical
  obtain ⟨e1, e2, e3⟩ := regionResult_columns limit sel
  rw [e1, e2, e3]
  obtain ⟨cs, hcs⟩ : ∃ cs, cs = sel.filter fun c => decide (HasData limit c) := ⟨_, rfl⟩
  have hmem : ∀ c, c ∈ cs ↔ c ∈ sel ∧ HasData limit c := by
    intro c
    rw [hcs, List.mem_filter, decide_eq_true_eq]
  have htwo : ∀ c ∈ sel, 2 ≤ (completeLevels limit c).length → c ∈ cs := by
    intro c hc h
    refine (hmem c).2 ⟨hc, (hasData_levels limit c).2 ?_⟩
    intro h0
    rw [h0] at h
    simp at h
  rw [← hcs]
  obtain ⟨hshape, hst⟩ := station_column limit (depthOf limit sel) cs fun c hc => le_depthOf limit sel c ((hmem c).1 hc).1
  have hcols : (toGrid (cs.map fun c => (columnOf limit (depthOf limit sel) c).map (·.2.2))).cols = cs.length := by
    unfold toGrid
    simp
  have hiff := interp_fails_iff _ _ _ hshape (floatLevels f)
  rw [hcols] at hiff
  generalize toGrid (cs.map fun c => (columnOf limit (depthOf limit sel) c).map (·.2.2)) = gs at hiff hst ⊢
  generalize toGrid (cs.map fun c => (columnOf limit (depthOf limit sel) c).map (·.2.1)) = gt at hiff hst ⊢
  generalize toGrid (cs.map fun c => (columnOf limit (depthOf limit sel) c).map (·.1)) = gp at hiff hst ⊢
  have hst' : ∀ k, k < cs.length → ∃ c ∈ cs, station gs gt gp k = completeLevels limit c :=
    fun k hk => ⟨_, List.getElem_mem hk, hst k _ (List.getElem?_eq_getElem hk)⟩
  have hst2 : ∀ c ∈ cs, ∃ k < cs.length, station gs gt gp k = completeLevels limit c := by
    intro c hc
    obtain ⟨k, hk⟩ := List.mem_iff_getElem?.1 hc
    exact ⟨k, (List.getElem?_eq_some_iff.1 hk).1, hst k c hk⟩
  constructor
  · rintro ⟨SP, hSP⟩
    have hno := fun e => mt (hiff e).2
    have hno := hno .valueError (by rw [hSP]; simp)
    simp only [true_and, not_or, not_and, not_exists] at hno
    obtain ⟨h0, h1⟩ := hno
    obtain ⟨c0, hc0⟩ := List.exists_mem_of_length_pos (Nat.pos_of_ne_zero h0)
    refine ⟨⟨c0, ((hmem c0).1 hc0).1, ((hmem c0).1 hc0).2⟩, ?_⟩
    intro n s v q hs hv hq
    obtain ⟨k0, hk0, hk0'⟩ := hst2 c0 hc0
    have h2 := h1 ⟨k0, hk0, by rw [hk0']; exact (hasData_levels limit c0).1 ((hmem c0).1 hc0).2⟩ s v q ((floatLevels_mem f s v q).2 ⟨n, hs, hv, hq⟩)
    obtain ⟨h3, h4⟩ := h2
    constructor
    · push Not at h3
      obtain ⟨k, hk, hk'⟩ := h3
      obtain ⟨c, hc, e⟩ := hst' k hk
      exact ⟨c, ((hmem c).1 hc).1, by rw [← e]; omega⟩
    · intro c hc h
      obtain ⟨k, hk, e⟩ := hst2 c (htwo c hc h)
      have := h4 k hk (by rw [e]; exact h)
      rw [e] at this
      push Not at this
      exact this
  · rintro ⟨⟨c0, hc0, hd0⟩, h⟩
    cases hI : Interp.interpClimatology gs gt gp (floatLevels f) with
    | ok SP => exact ⟨SP, rfl⟩
    | error e =>
      exfalso
      obtain ⟨-, hbad⟩ := (hiff e).1 hI
      rcases hbad with h0 | ⟨-, s, v, q, hm, hbad⟩
      · have := List.length_pos_of_mem ((hmem c0).2 ⟨hc0, hd0⟩)
        omega
      · obtain ⟨n, hs, hv, hq⟩ := (floatLevels_mem f s v q).1 hm
        obtain ⟨⟨c, hc, h2⟩, h3⟩ := h n s v q hs hv hq
        rcases hbad with hbad | ⟨k, hk, hk2, hk3⟩
        · obtain ⟨k, hk, e⟩ := hst2 c (htwo c hc h2)
          have := hbad k hk
          rw [e] at this
          omega
        · obtain ⟨c, hc, e⟩ := hst' k hk
          rw [e] at hk2 hk3
          obtain ⟨a, ha, hav⟩ := h3 c ((hmem c).1 hc).1 hk2
          exact hav (hk3 a ha)

/-- When everything before the level loop succeeds. -/
theorem prepare_iff (R : FloatRun) (hi : IsInterp2d R.env.interp2) (hf : R.env.topo.length = 2160 * 4320) (hw : WellFormedDisk R.env.disk)
    (hs : R.env.useSaf ≠ 1) (hpv : R.env.cfg.usePv ≠ 1) (f : FloatProfile) (lat long : ℝ) (hW : Within R lat long) :
    (∃ p, prepare R.env f lat long = .ok p) ↔ (∀ c ∈ surrounding R.env long lat, c.lat ≠ none ∧ c.long ≠ none) ∧
      (∃ c cs, inReach R lat long = c :: cs ∧ usableLevels (pressureLimit f.pres R.env.cfg.pDelta) c ≠ []) ∧
      (∃ c ∈ inReach R lat long, HasData (pressureLimit f.pres R.env.cfg.pDelta) c) ∧
      ∀ (n : ℕ) (s v q : ℝ), f.sal[n]? = some (some s) → f.ptmp[n]? = some (some v) → f.pres[n]? = some (some q) →
        (∃ c ∈ inReach R lat long, 2 ≤ (completeLevels (pressureLimit f.pres R.env.cfg.pDelta) c).length) ∧
        ∀ c ∈ inReach R lat long, 2 ≤ (completeLevels (pressureLimit f.pres R.env.cfg.pDelta) c).length →
          ∃ a ∈ completeLevels (pressureLimit f.pres R.env.cfg.pDelta) c, a.theta ≠ v := by
  obtain ⟨limit, hlim⟩ : ∃ limit, limit = pressureLimit f.pres R.env.cfg.pDelta := ⟨_, rfl⟩
  rw [← hlim, ← interp_sel limit (inReach R lat long) f]
  obtain ⟨z, hz⟩ := float_depth_defined R.env hf lat long hW.latitude.1 hW.latitude.2 hW.longitude.1 hW.longitude.2
  constructor
  · rintro ⟨p, hp⟩
    obtain ⟨z', b, S, P, hz', hb, -, -, hint, -, -⟩ := prepare_all R.env f lat long p hp
    have hknown : ∀ c ∈ surrounding R.env long lat, c.lat ≠ none ∧ c.long ≠ none := by
      obtain ⟨_, _, _, _, _, _, _, _, hF, -⟩ := prepared_found R.env hi hf hw f lat long p hp _ rfl hW.casts
      intro c hc
      obtain ⟨n, hn⟩ := List.mem_iff_getElem?.1 hc
      obtain ⟨y, x, _, _, h1, h2, -⟩ := hF.all n c hn
      rw [h1, h2]
      simp
    have hne : surrounding R.env long lat ≠ [] := by
      obtain ⟨boxes, hl, gz, index, d, bz, g1, g2, -⟩ := chosenCasts_ok _ _ _ _ _ _ hb
      intro h0
      have : surrounding R.env long lat = refCasts R.env.disk R.env.name boxes := by
        unfold surrounding; rw [g1]
      rw [(hist_locations_spec R.env.disk hw R.env.name boxes).1 (this ▸ h0)] at g2
      cases g2
    obtain ⟨boxes, index, bz, k1, k2, k3⟩ := chosenCasts_few R hf hw hs hpv f lat long z' hW hne hknown
    rw [k3] at hb
    refine ⟨hknown, ?_⟩
    cases hsel : inReach R lat long with
    | nil =>
      rw [region_data_none _ hw _ _ _ _ _ (k2.trans hsel)] at hb
      cases hb
    | cons c0 l0 =>
      by_cases h0 : usableLevels limit c0 = []
      · rw [region_data_first_cast_empty _ hw _ _ _ _ _ c0 l0 (k2.trans hsel) (hlim ▸ h0)] at hb
        obtain rfl := Except.ok.inj hb
        have := (interp_fails_iff (toGrid []) (toGrid []) (toGrid []) ⟨rfl, rfl, rfl, rfl⟩ (floatLevels f) .valueError).2 ⟨rfl, Or.inl rfl⟩
        dsimp only at hint
        rw [this] at hint
        cases hint
      · rw [region_data_spec _ hw _ _ _ _ _ c0 l0 (k2.trans hsel) (hlim ▸ h0), k2, hsel, ← hlim] at hb
        obtain rfl := Except.ok.inj hb
        exact ⟨⟨c0, l0, rfl, h0⟩, ⟨_, hint⟩⟩
  · rintro ⟨hknown, ⟨c0, l0, hsel, h0⟩, SP, hint⟩
    have hne : surrounding R.env long lat ≠ [] := by
      intro h
      unfold inReach at hsel
      rw [h] at hsel
      cases hsel
    obtain ⟨boxes, index, bz, k1, k2, k3⟩ := chosenCasts_few R hf hw hs hpv f lat long z hW hne hknown
    rw [region_data_spec _ hw _ _ _ _ _ c0 l0 (k2.trans hsel) (hlim ▸ h0), k2, ← hlim] at k3
    unfold prepare
    simp only [bind, Except.bind, hz, k3, Except.map]
    rw [hint]
    exact ⟨_, rfl⟩

/-! ## The levels -/

/-- A list of casts has one noise variance. -/
theorem noise_unique (obs : List (Stats.Obs ℝ)) (v v' : ℝ) (h : IsNoiseVariance obs v) (h' : IsNoiseVariance obs v') : v = v' := by
  rcases h with ⟨c1, v1⟩ | ⟨c1, p, p1, p2, -, p4⟩ <;> rcases h' with ⟨c2, v2⟩ | ⟨c2, q, q1, q2, -, q4⟩
  · rw [v1, v2]
  · exact absurd c1 c2
  · exact absurd c2 c1
  · have : p = q := by
      apply List.ext_getElem
      · rw [p1, q1]
      · intro i h1 h2
        obtain ⟨a, b, d, e1, e2, e3, e4, e5⟩ := p2 i _ (List.getElem?_eq_getElem h1)
        obtain ⟨a', b', d', g1, g2, g3, g4, g5⟩ := q2 i _ (List.getElem?_eq_getElem h2)
        rw [e1] at g1
        obtain rfl := Option.some.inj g1
        obtain ⟨k1, k2⟩ := e5 _ b' d' g2 g3 g4
        obtain ⟨k3, k4⟩ := g5 _ b d e2 e3 e4
        by_contra hne
        rcases Nat.lt_or_gt_of_ne hne with hlt | hlt
        · exact absurd (k4 hlt) (not_lt.2 k1)
        · exact absurd (k2 hlt) (not_lt.2 k3)
    rw [p4, q4, this]

/-- What a level gives. -/
theorem level_ends (R : FloatRun) (hi : IsInterp2d R.env.interp2) (hf : R.env.topo.length = 2160 * 4320) (hw : WellFormedDisk R.env.disk)
    (hs : R.env.useSaf ≠ 1) (hpv : R.env.cfg.usePv ≠ 1) (hsort : IsArgsort R.env.argsort) (hrand : ValidRand R.env.rand) (hcfg : ProperConfig R.env.cfg)
    (hmax : 1 ≤ R.env.maxCasts) (f : FloatProfile) (lat long : ℝ) (hW : Within R lat long) (hl1 : f.ptmp.length = f.sal.length)
    (hl2 : f.pres.length = f.sal.length) (p : Prepared) (hp : prepare R.env f lat long = .ok p) (n : ℕ) (hn : n < f.sal.length) :
    ((∀ q, ¬ Mappable R f lat long n q) → levelOf R.env f p n = .ok none) ∧
    ∀ q, Mappable R f lat long n q →
      (IsNoiseVariance (sampleObs (inliers (contributions R f lat long n q))) 0 → levelOf R.env f p n = .error .linAlgError) ∧
      (¬ IsNoiseVariance (sampleObs (inliers (contributions R f lat long n q))) 0 → ∃ o, levelOf R.env f p n = .ok (some o)) ∧
      ∃ nv, IsNoiseVariance (sampleObs (inliers (contributions R f lat long n q))) nv := by
  obtain ⟨index, all, sel, kept, deep, there, d, bz, c1, c2, -, c4, c5, c6, hS, key⟩ := prepared_levels R.env hi hf hw hsort hrand hcfg hmax f lat long
    hW.latitude hW.longitude hl1 hl2 hW.casts p hp
  have hsel := c4.off fun h => hs h.1
  have hk : kept = keptNumbers (pressureLimit f.pres R.env.cfg.pDelta) index (surrounding R.env long lat) := by
    rw [c5, hsel, ← c1]
    apply List.ext_getElem
    · simp
    · intro i h1 h2
      simp [h2]
  obtain ⟨-, k2⟩ := chosen_near R.env hpv f lat long _ index kept deep p.pos there hS hW.few
  have hjoin : ∀ v, f.ptmp[n]? = some (some v) ↔ (f.ptmp[n]?).join = some v := by
    intro v
    cases f.ptmp[n]? <;> simp
  -- the samples
  have hlevel : ∀ s q, f.sal[n]? = some (some s) → f.pres[n]? = some (some q) → R.env.cfg.pExclude ≤ q →
      ((contributions R f lat long n q).length ≤ 5 → levelOf R.env f p n = .ok none) ∧
      (5 < (contributions R f lat long n q).length → ∃ nv, IsNoiseVariance (sampleObs (inliers (contributions R f lat long n q))) nv ∧
        (nv = 0 ∧ levelOf R.env f p n = .error .linAlgError ∨ 0 < nv ∧ ∃ o, levelOf R.env f p n = .ok (some o))) := by
    intro s q hsal hpres hex
    obtain ⟨used, u1, u2, u3, u4⟩ := key n s q hsal hpres hex
    have hused := used_near R.env f lat long _ index kept deep p.pos there hS _ hk k2 R.env.cfg.pDelta q (f.ptmp[n]?).join used u1
      (by
        intro k s'
        rw [u2]
        simp only [hjoin])
    change _ = (contributions R f lat long n q).map some at hused
    obtain ⟨l, hl⟩ : ∃ l, l = contributions R f lat long n q := ⟨_, rfl⟩
    rw [← hl] at hused ⊢
    have hlen' : used.length = l.length := by simpa using congrArg List.length hused
    rw [hlen'] at u3 u4
    refine ⟨u3, fun h5 => ?_⟩
    obtain ⟨samples, nv, a1, a2, a3⟩ := u4 h5
    have hsam : samples.map Sample.flat = l := by
      have := congrArg (List.map (Option.map Sample.flat)) a1
      rw [List.map_map, List.map_map] at this
      apply List.map_injective_iff.2 (Option.some_injective _)
      rw [← hused, List.map_map]
      refine this.trans (List.map_congr_left fun u _ => ?_)
      simp only [Function.comp, Option.map_map]
      rfl
    have hin : inliers l = (inliers samples).map Sample.flat := by rw [← hsam, inliers_flat]
    refine ⟨nv, by rw [hin, sampleObs_flat]; exact a2, ?_⟩
    rcases a3 with h | ⟨h1, _, _, o, -, h2, -⟩
    · exact .inl h
    · exact .inr ⟨h1, o, h2⟩
  constructor
  · intro hno
    have hskip : ∀ o, mapLevel R.env.cfg p.pos p.grid f.sal f.pres p.interpSal p.interpPres n = .ok none → levelOf R.env f p n = o → o = .ok none := by
      intro o h1 h2
      rw [← h2]
      unfold levelOf
      rw [h1]
      rfl
    have e1 := List.getElem?_eq_getElem hn
    have e2 := List.getElem?_eq_getElem (hl2 ▸ hn : n < f.pres.length)
    generalize f.sal[n] = s at e1
    generalize f.pres[n]'(hl2 ▸ hn) = q at e2
    by_cases hall : ∃ s' q', s = some s' ∧ q = some q' ∧ R.env.cfg.pExclude ≤ q'
    · obtain ⟨s', q', rfl, rfl, hex⟩ := hall
      exact (hlevel s' q' e1 e2 hex).1 (not_lt.1 fun h5 => hno q' ⟨⟨s', e1⟩, e2, hex, h5⟩)
    · refine hskip _ ?_ rfl
      unfold mapLevel item
      rw [e1, e2]
      simp only [bind, Except.bind]
      cases s with
      | none => rfl
      | some s' =>
        cases q with
        | none => rfl
        | some q' => dsimp only; rw [if_neg fun h => hall ⟨s', q', rfl, rfl, h⟩]; rfl
  · rintro q ⟨⟨s, hsal⟩, hpres, hex, h5⟩
    obtain ⟨nv, h1, h2⟩ := (hlevel s q hsal hpres hex).2 h5
    refine ⟨?_, ?_, nv, h1⟩
    · intro h0
      rcases h2 with h | ⟨h, -⟩
      · exact h.2
      · rw [noise_unique _ _ _ h1 h0] at h
        exact absurd h (lt_irrefl _)
    · intro h0
      rcases h2 with ⟨h, -⟩ | ⟨-, h⟩
      · exact absurd (h ▸ h1) h0
      · exact h

/-! ## The run -/

/-- C163. When a run without a mapped file ends normally, if neither the potential vorticity nor the front is used and not more casts are in reach of any
profile than may be used: exactly if the reference data suffice for every profile with a position and a pressure, and more than five casts contribute to one
level of one of them. -/
theorem run_ends_iff (R : FloatRun) (fs : Fs ℝ) (hi : IsInterp2d R.env.interp2) (hf : R.env.topo.length = 2160 * 4320) (hw : WellFormedDisk R.env.disk)
    (hs : R.env.useSaf ≠ 1) (hpv : R.env.cfg.usePv ≠ 1) (hsort : IsArgsort R.env.argsort) (hrand : ValidRand R.env.rand) (hcfg : ProperConfig R.env.cfg)
    (hmax : 1 ≤ R.env.maxCasts) (hlen : R.no.length = R.source.length) (hload : fs R.loadPath = none)
    (hshape : ∀ f ∈ R.source, f.sal.length = R.levels ∧ f.ptmp.length = R.levels ∧ f.pres.length = R.levels)
    (hwithin : ∀ f ∈ R.source, Placed f → ∀ lat long, f.lat = some lat → f.long = some long → Within R lat long) :
    (updateMapping R.args fs).1 = none ↔
      (∀ f ∈ R.source, Placed f → ∀ lat long, f.lat = some lat → f.long = some long → Suffices R f lat long (pressureLimit f.pres R.env.cfg.pDelta)) ∧
      ∃ f ∈ R.source, Placed f ∧ ∃ lat long, f.lat = some lat ∧ f.long = some long ∧ ∃ n q, Mappable R f lat long n q := by
  have hP : ∀ i f, R.source[i]? = some f → R.args.P i = profileOf R.env f := by
    intro i f h
    change profilesOf R.env R.source i = _
    unfold profilesOf item
    rw [h]
    rfl
  have hunplaced : ∀ f, ¬ Placed f → profileOf R.env f = .ok none := by
    intro f h
    unfold profileOf
    rw [if_neg fun h' => h ((usable_iff f).1 h')]
    rfl
  have hplaced : ∀ f lat long, Placed f → f.lat = some lat → f.long = some long →
      profileOf R.env f = (prepare R.env f lat long).map fun p => some (levelOf R.env f p) := by
    intro f lat long h h1 h2
    unfold profileOf
    rw [if_pos ((usable_iff f).2 h), h1, h2]
    dsimp only [bind, Except.bind]
    cases prepare R.env f lat long <;> rfl
  have hlev := fun (f : FloatProfile) (hfm : f ∈ R.source) (lat long : ℝ) (hW : Within R lat long) (p : Prepared) (hp : prepare R.env f lat long = .ok p) (n : ℕ)
    (hn : n < R.levels) => level_ends R hi hf hw hs hpv hsort hrand hcfg hmax f lat long hW ((hshape f hfm).2.1.trans (hshape f hfm).1.symm)
      ((hshape f hfm).2.2.trans (hshape f hfm).1.symm) p hp n ((hshape f hfm).1 ▸ hn)
  have hin : ∀ f ∈ R.source, ∀ lat long n q, Mappable R f lat long n q → n < R.levels := by
    rintro f hfm lat long n q ⟨⟨s, h⟩, -⟩
    rw [← (hshape f hfm).1]
    exact (List.getElem?_eq_some_iff.1 h).1
  constructor
  · intro hrun
    have hall := fresh_ok_all R.args fs hload hrun
    refine ⟨?_, ?_⟩
    · intro f hfm hpl lat long hla hlo
      have hW := hwithin f hfm hpl lat long hla hlo
      obtain ⟨i, hi'⟩ := List.mem_iff_getElem?.1 hfm
      obtain ⟨r, hr, hr2⟩ := hall i (by rw [show R.args.no = R.no from rfl, hlen]; exact (List.getElem?_eq_some_iff.1 hi').1)
      rw [hP i f hi', hplaced f lat long hpl hla hlo] at hr
      cases hpr : prepare R.env f lat long with
      | error e => rw [hpr] at hr; cases hr
      | ok p =>
        rw [hpr] at hr
        obtain rfl := Except.ok.inj hr
        obtain ⟨h1, h2, h3, h4⟩ := (prepare_iff R hi hf hw hs hpv f lat long hW).1 ⟨p, hpr⟩
        refine ⟨h1, h2, h3, h4, ?_⟩
        intro n q hm h0
        have hn := hin f hfm lat long n q hm
        obtain ⟨o, ho⟩ := hr2 _ rfl n hn
        rw [((hlev f hfm lat long hW p hpr n hn).2 q hm).1 h0] at ho
        cases ho
    · obtain ⟨i, hi', n, hn, ho⟩ := fresh_mapped R fs hsort hload hrun
      obtain ⟨o, ho⟩ := Option.isSome_iff_exists.1 ho
      obtain ⟨f, lat, long, p, h1, h2, h3, h4, h5, h6⟩ := levelOut_cases R.env R.source i n o ho
      have hfm := List.mem_of_getElem? h1
      have hpl := (usable_iff f).1 h2
      refine ⟨f, hfm, hpl, lat, long, h3, h4, n, ?_⟩
      by_contra hno
      rw [(hlev f hfm lat long (hwithin f hfm hpl lat long h3 h4) p h5 n hn).1 fun q hq => hno ⟨q, hq⟩] at h6
      cases h6
  · rintro ⟨hsuf, f0, hf0, hpl0, lat0, long0, hla0, hlo0, n0, q0, hm0⟩
    have hprep : ∀ f ∈ R.source, Placed f → ∀ lat long, f.lat = some lat → f.long = some long → ∃ p, prepare R.env f lat long = .ok p := by
      intro f hfm hpl lat long hla hlo
      have h := hsuf f hfm hpl lat long hla hlo
      exact (prepare_iff R hi hf hw hs hpv f lat long (hwithin f hfm hpl lat long hla hlo)).2 ⟨h.known, h.first, h.data, h.temperatures⟩
    have hcomp : Computable R.args.P R.args.no.length R.args.levels := by
      constructor
      · intro i hi'
        have hlt : i < R.source.length := by rw [← hlen]; exact hi'
        have hfi := List.getElem?_eq_getElem hlt
        generalize R.source[i] = f at hfi
        have hfm := List.mem_of_getElem? hfi
        rw [hP i f hfi]
        by_cases hpl : Placed f
        swap
        · exact ⟨none, hunplaced f hpl, fun g hg => by cases hg⟩
        obtain ⟨lat, hla⟩ := Option.ne_none_iff_exists'.1 hpl.1
        obtain ⟨long, hlo⟩ := Option.ne_none_iff_exists'.1 hpl.2.1
        obtain ⟨p, hp⟩ := hprep f hfm hpl lat long hla hlo
        rw [hplaced f lat long hpl hla hlo, hp]
        refine ⟨_, rfl, ?_⟩
        intro g hg n hn
        obtain rfl := Option.some.inj hg
        obtain ⟨l1, l2⟩ := hlev f hfm lat long (hwithin f hfm hpl lat long hla hlo) p hp n hn
        by_cases hm : ∃ q, Mappable R f lat long n q
        · obtain ⟨q, hm⟩ := hm
          obtain ⟨o, ho⟩ := (l2 q hm).2.1 ((hsuf f hfm hpl lat long hla hlo).noise n q hm)
          exact ⟨_, ho⟩
        · exact ⟨_, l1 fun q hq => hm ⟨q, hq⟩⟩
      · intro i _ n _ o ho
        obtain ⟨f, lat, long, p, -, -, -, -, -, hl⟩ := levelOut_cases R.env R.source i n o ho
        exact levelOf_points R.env f p n o hl
    have hsome : SomethingMapped R.args.P R.args.no.length R.args.levels := by
      obtain ⟨i, hi'⟩ := List.mem_iff_getElem?.1 hf0
      have hn := hin f0 hf0 lat0 long0 n0 q0 hm0
      refine ⟨i, by rw [show R.args.no = R.no from rfl, hlen]; exact (List.getElem?_eq_some_iff.1 hi').1, n0, hn, ?_⟩
      obtain ⟨p, hp⟩ := hprep f0 hf0 hpl0 lat0 long0 hla0 hlo0
      obtain ⟨o, ho⟩ := ((hlev f0 hf0 lat0 long0 (hwithin f0 hf0 hpl0 lat0 long0 hla0 hlo0) p hp n0 hn).2 q0 hm0).2.1
        ((hsuf f0 hf0 hpl0 lat0 long0 hla0 hlo0).noise n0 q0 hm0)
      unfold levelOut
      rw [hP i f0 hi', hplaced f0 lat0 long0 hpl0 hla0 hlo0, hp]
      dsimp only [Except.map]
      rw [ho]
      rfl
    obtain ⟨file, h, -⟩ := fresh_run_file R.args fs hload hsort hcomp hsome
    rw [h]

/-! ## The order of the casts -/

/-- C164. If a run without a mapped file ends normally, then the same run with the casts of the reference files in another order ends normally exactly if for
each profile the first cast in reach, in the new order, has a level down to the deepest pressure wanted. -/
theorem order_ends (R : FloatRun) (fs : Fs ℝ) (hi : IsInterp2d R.env.interp2) (hf : R.env.topo.length = 2160 * 4320) (hw : WellFormedDisk R.env.disk)
    (hs : R.env.useSaf ≠ 1) (hpv : R.env.cfg.usePv ≠ 1) (hsort : IsArgsort R.env.argsort) (hrand : ValidRand R.env.rand) (hcfg : ProperConfig R.env.cfg)
    (hmax : 1 ≤ R.env.maxCasts) (hlen : R.no.length = R.source.length) (hload : fs R.loadPath = none)
    (hshape : ∀ f ∈ R.source, f.sal.length = R.levels ∧ f.ptmp.length = R.levels ∧ f.pres.length = R.levels)
    (hclear : ∀ f ∈ R.source, Placed f → ∀ lat long, f.lat = some lat → f.long = some long → Clear R f lat long)
    (disk' : Disk ℝ) (hd : Shuffled R.env.disk disk') (hrun : (updateMapping R.args fs).1 = none) :
    (updateMapping (runWith R disk').args fs).1 = none ↔
      ∀ f ∈ R.source, Placed f → ∀ lat long, f.lat = some lat → f.long = some long → ∃ c cs, inReach (runWith R disk') lat long = c :: cs ∧
        usableLevels (pressureLimit f.pres R.env.cfg.pDelta) c ≠ [] := by
  have hwithin : ∀ f ∈ R.source, Placed f → ∀ lat long, f.lat = some lat → f.long = some long → Within R lat long := by
    intro f hfm hpl lat long hla hlo
    have h := hclear f hfm hpl lat long hla hlo
    exact ⟨h.latitude, h.longitude, h.casts, h.few⟩
  have hsur := surrounding_shuffled R hd
  have hnear : ∀ lat long, (inReach R lat long).Perm (inReach (runWith R disk') lat long) := fun lat long => nearCasts_perm R.env.cfg lat long (hsur long lat)
  have hcon : ∀ f lat long n q, (contributions R f lat long n q).Perm (contributions (runWith R disk') f lat long n q) :=
    fun f lat long n q => samplesAt_perm _ _ (hnear lat long) _ _
  have hmap : ∀ f lat long n q, Mappable R f lat long n q ↔ Mappable (runWith R disk') f lat long n q := by
    intro f lat long n q
    unfold Mappable
    rw [(hcon f lat long n q).length_eq]
    rfl
  have hwithin' : ∀ f ∈ R.source, Placed f → ∀ lat long, f.lat = some lat → f.long = some long → Within (runWith R disk') lat long := by
    intro f hfm hpl lat long hla hlo
    have h := hwithin f hfm hpl lat long hla hlo
    exact ⟨h.latitude, h.longitude, fun c hc => h.casts c ((hsur long lat).mem_iff.2 hc), by rw [← (hnear lat long).length_eq]; exact h.few⟩
  obtain ⟨h1, f0, hf0, hpl0, lat0, long0, hla0, hlo0, n0, q0, hm0⟩ :=
    (run_ends_iff R fs hi hf hw hs hpv hsort hrand hcfg hmax hlen hload hshape hwithin).1 hrun
  rw [run_ends_iff (runWith R disk') fs hi hf (shuffled_wellFormed hd hw) hs hpv hsort hrand hcfg hmax hlen hload hshape hwithin']
  constructor
  · rintro ⟨h, -⟩ f hfm hpl lat long hla hlo
    exact (h f hfm hpl lat long hla hlo).first
  · intro h
    refine ⟨?_, f0, hf0, hpl0, lat0, long0, hla0, hlo0, n0, q0, (hmap _ _ _ _ _).1 hm0⟩
    intro f hfm hpl lat long hla hlo
    have hS := h1 f hfm hpl lat long hla hlo
    have hC := hclear f hfm hpl lat long hla hlo
    refine ⟨fun c hc => hS.known c ((hsur long lat).mem_iff.2 hc), h f hfm hpl lat long hla hlo, ?_, ?_, ?_⟩
    · obtain ⟨c, hc, h2⟩ := hS.data
      exact ⟨c, (hnear lat long).mem_iff.1 hc, h2⟩
    · intro n s v q h3 h4 h5
      obtain ⟨⟨c, hc, h6⟩, h7⟩ := hS.temperatures n s v q h3 h4 h5
      exact ⟨⟨c, (hnear lat long).mem_iff.1 hc, h6⟩, fun c hc => h7 c ((hnear lat long).mem_iff.2 hc)⟩
    · intro n q hm h0
      have hm' := (hmap f lat long n q).2 hm
      obtain ⟨⟨s, hsal⟩, hpres, hex, -⟩ := hm'
      have hn : n < f.ptmp.length := by
        rw [(hshape f hfm).2.1, ← (hshape f hfm).1]
        exact (List.getElem?_eq_some_iff.1 hsal).1
      have hcl := hC.neighbours n _ q (List.getElem?_eq_getElem hn) hpres hex
      have hjoin : (f.ptmp[n]?).join = f.ptmp[n] := by rw [List.getElem?_eq_getElem hn]; rfl
      rw [← hjoin] at hcl
      have hW := hwithin f hfm hpl lat long hla hlo
      obtain ⟨p, hp⟩ := (prepare_iff R hi hf hw hs hpv f lat long hW).2 ⟨hS.known, hS.first, hS.data, hS.temperatures⟩
      obtain ⟨s1, s2, s3⟩ := hshape f hfm
      obtain ⟨-, -, nv, hnv⟩ := (level_ends R hi hf hw hs hpv hsort hrand hcfg hmax f lat long hW (s2.trans s1.symm) (s3.trans s1.symm) p hp n
        (List.getElem?_eq_some_iff.1 hsal).1).2 q ((hmap f lat long n q).2 hm)
      have h00 : nv = 0 := noise_perm (inliers_perm (hcon f lat long n q)) hcl nv 0 hnv h0
      exact hS.noise n q ((hmap f lat long n q).2 hm) (h00 ▸ hnv)

/-- C162. The same without the assumption that the second run ends normally: it does, and saves the same matrices, if for each profile the first cast in reach,
in the new order, has a level down to the deepest pressure wanted. -/
theorem saved_order_first (R : FloatRun) (fs : Fs ℝ) (hi : IsInterp2d R.env.interp2) (hf : R.env.topo.length = 2160 * 4320) (hw : WellFormedDisk R.env.disk)
    (hs : R.env.useSaf ≠ 1) (hpv : R.env.cfg.usePv ≠ 1) (hsort : IsArgsort R.env.argsort) (hrand : ValidRand R.env.rand) (hcfg : ProperConfig R.env.cfg)
    (hmax : 1 ≤ R.env.maxCasts) (hno : R.no.Pairwise (· < ·)) (hlen : R.no.length = R.source.length) (hload : fs R.loadPath = none)
    (hshape : ∀ f ∈ R.source, f.sal.length = R.levels ∧ f.ptmp.length = R.levels ∧ f.pres.length = R.levels)
    (hclear : ∀ f ∈ R.source, Placed f → ∀ lat long, f.lat = some lat → f.long = some long → Clear R f lat long)
    (disk' : Disk ℝ) (hd : Shuffled R.env.disk disk') (hrun : (updateMapping R.args fs).1 = none)
    (hfirst : ∀ f ∈ R.source, Placed f → ∀ lat long, f.lat = some lat → f.long = some long → ∃ c cs, inReach (runWith R disk') lat long = c :: cs ∧
      usableLevels (pressureLimit f.pres R.env.cfg.pDelta) c ≠ []) :
    (updateMapping (runWith R disk').args fs).1 = none ∧
    ∃ file file' : MapFile ℝ, finalFs R.args fs = Function.update fs R.savePath (some (.whole file)) ∧
      finalFs (runWith R disk').args fs = Function.update fs R.savePath (some (.whole file')) ∧ file.profileNo = file'.profileNo ∧
      ∀ m, file.mats m = file'.mats m := by
  have hrun' := (order_ends R fs hi hf hw hs hpv hsort hrand hcfg hmax hlen hload hshape hclear disk' hd hrun).2 hfirst
  exact ⟨hrun', saved_order R fs hi hf hw hs hpv hsort hrand hcfg hmax hno hlen hload hshape hclear disk' hd hrun hrun'⟩

end Verif.Props
