import Verif.Lemmas.Profile
import Verif.Props.Region
import Verif.Props.Besthist
import Verif.Props.Utilities
import Verif.Props.Topo

/-!
# Properties of a whole run over the profiles of a float
-/

set_option linter.unusedSectionVars false

namespace Verif.Props

open Verif.Np Verif.Helper Verif.Region Verif.Profile Verif.Update Verif.Spec Verif.Spec.Profile Verif.Level Verif.Finders
open Verif.Lemmas.Profile Verif.Utilities Verif.Saf

theorem usable_iff (f : FloatProfile) : usable f = true ↔ Placed f := by
  unfold usable Placed
  simp only [Bool.and_eq_true, List.any_eq_true, decide_eq_true_eq, argwhere_mem, Option.isSome_iff_ne_none]
  constructor
  · rintro ⟨⟨h1, h2⟩, n, ⟨o, ho, hs⟩, hn⟩
    obtain ⟨p, rfl⟩ := Option.ne_none_iff_exists'.1 hs
    exact ⟨h2, h1, n, p, by omega, ho⟩
  · rintro ⟨h1, h2, n, p, hn, hp⟩
    exact ⟨⟨h2, h1⟩, n, ⟨some p, hp, by simp⟩, by omega⟩

theorem mapM_id_none {α : Type} (l : List (Option α)) (h : none ∈ l) : l.mapM id = none := by
  induction l with
  | nil => cases h
  | cons a l ih =>
    rcases List.mem_cons.1 h with h | h
    · rw [← h]; rfl
    · rw [List.mapM_cons, ih h]
      cases a <;> rfl

theorem gridDepths_missing (E : Env) (lat long : List (Option ℝ)) (h : none ∈ lat ∨ none ∈ long) :
    gridDepths E lat long = .error .valueError := by
  unfold gridDepths
  rcases h with h | h
  · rw [mapM_id_none lat h]
  · rw [mapM_id_none long h]
    cases lat.mapM id <;> rfl

/-- The longitude of the float used beside casts is its longitude, or this plus one turn. -/
theorem matchLongitude_cases (grid : List (Option ℝ)) (long : ℝ) :
    matchLongitude grid long = long ∨ matchLongitude grid long = long + 360 := by
  unfold matchLongitude
  split_ifs <;> simp

/-- The pieces of a successful preparation. -/
theorem prepare_ok (E : Env) (f : FloatProfile) (lat long : ℝ) (p : Prepared) (h : prepare E f lat long = .ok p) :
    ∃ z b, floatDepth E lat long = .ok z ∧ chosenCasts E f lat long z = .ok b ∧ p.pos = ⟨lat, matchLongitude b.data.long long, f.date, z⟩ ∧
      p.grid = ⟨b.data.long.filterMap id, b.data.lat.filterMap id, b.data.dates, b.z⟩ := by
  unfold prepare at h
  simp only [bind, Except.bind] at h
  cases hz : floatDepth E lat long with
  | error e => rw [hz] at h; cases h
  | ok z =>
    rw [hz] at h
    dsimp only at h
    cases hb : chosenCasts E f lat long z with
    | error e => rw [hb] at h; cases h
    | ok b =>
      rw [hb] at h
      dsimp only at h
      cases hs : Interp.interpClimatology (toGrid b.data.sal) (toGrid b.data.ptmp) (toGrid b.data.pres) (floatLevels f) with
      | error e => rw [hs] at h; cases h
      | ok s =>
        rw [hs] at h
        have := Except.ok.inj h
        rw [← this]
        exact ⟨z, b, rfl, hb, rfl, rfl⟩

/-- The pieces of a successful choice of casts. -/
theorem chosenCasts_ok (E : Env) (f : FloatProfile) (lat long z : ℝ) (b : SafGrid ℝ) (h : chosenCasts E f lat long z = .ok b) :
    ∃ boxes hl gz idx d bz, boxesAt E long lat = .ok boxes ∧ histLocations E.disk E.name boxes = .ok hl ∧ gridDepths E hl.1 hl.2.1 = .ok gz ∧
      findBesthist (besthistArgs E lat (matchLongitude hl.2.1 long) f.date z) E.argsort E.rand (Verif.Profile.castsOf hl.1 hl.2.1 hl.2.2 gz) = .ok idx ∧
      regionData E.disk E.name boxes idx f.pres E.cfg.pDelta = .ok d ∧ gather gz idx = .ok bz ∧
      applySaf E.interp E.temperature E.saf (decide (E.useSaf = 1)) ⟨d, bz⟩ ⟨lat, f.pres.zip (f.tmp.zip f.sal)⟩ = .ok b := by
  unfold chosenCasts at h
  simp only [bind, Except.bind] at h
  cases h1 : boxesAt E long lat with
  | error e => rw [h1] at h; cases h
  | ok boxes =>
    rw [h1] at h; dsimp only at h
    cases h2 : histLocations E.disk E.name boxes with
    | error e => rw [h2] at h; cases h
    | ok hl =>
      rw [h2] at h; dsimp only at h
      cases h3 : gridDepths E hl.1 hl.2.1 with
      | error e => rw [h3] at h; cases h
      | ok gz =>
        rw [h3] at h; dsimp only at h
        cases h4 : findBesthist (besthistArgs E lat (matchLongitude hl.2.1 long) f.date z) E.argsort E.rand
            (Verif.Profile.castsOf hl.1 hl.2.1 hl.2.2 gz) with
        | error e => rw [h4] at h; cases h
        | ok idx =>
          rw [h4] at h; dsimp only at h
          cases h5 : regionData E.disk E.name boxes idx f.pres E.cfg.pDelta with
          | error e => rw [h5] at h; cases h
          | ok d =>
            rw [h5] at h; dsimp only at h
            cases h6 : gather gz idx with
            | error e => rw [h6] at h; cases h
            | ok bz =>
              rw [h6] at h; dsimp only at h
              exact ⟨boxes, hl, gz, idx, d, bz, rfl, h2, h3, h4, h5, h6, h⟩

theorem chosen_nil (casts : List (RefCast ℝ)) : chosen [] casts = [] := by
  unfold chosen
  simp

/-- An index returned by `find_besthist` implies a cast in the ellipse. -/
theorem besthist_some_inside (A : BesthistArgs) (argsort : List (Option ℝ) → List ℕ) (rand : ℕ → ℕ → List ℝ) (casts : List Cast)
    (out : List ℕ) (h : findBesthist A argsort rand casts = .ok out) (hne : out ≠ []) : ∃ c ∈ casts, InEllipse A c := by
  by_contra hc
  have hidx : indexEllipse A casts = [] := by
    rw [List.eq_nil_iff_forall_not_mem]
    intro i hi
    obtain ⟨c, h1, h2⟩ := (mem_indexEllipse A casts i).1 hi
    exact hc ⟨c, List.mem_of_getElem? h1, h2⟩
  unfold findBesthist at h
  split_ifs at h with h1 h2
  rw [hidx] at h
  simp only [gather, List.mapM_nil, bind, Except.bind, pure, Except.pure, List.length_nil, gt_iff_lt, Nat.not_lt_zero, if_false] at h
  exact hne (Except.ok.inj h).symm

/-- C91. If a run without a mapped file ends without exception, then for every profile with a position and a pressure below its first level there
are reference casts in the boxes around it, all of them have a position, and one of them lies in the ellipse of three times the large
scales (longitudes up to full turns). A single profile for which this fails ends the run and nothing is saved
(`run_without_casts_saves_nothing`). -/
theorem successful_run_found_casts (R : FloatRun) (fs : Fs ℝ) (hno : R.no.length = R.source.length) (hw : WellFormedDisk R.env.disk)
    (hload : fs R.loadPath = none) (h : (updateMapping R.args fs).1 = none) :
    ∀ f ∈ R.source, Placed f → ∃ lat long, f.lat = some lat ∧ f.long = some long ∧
      (∀ c ∈ surrounding R.env long lat, c.lat ≠ none ∧ c.long ≠ none) ∧
      ∃ c ∈ surrounding R.env long lat, ∃ (x y : ℝ) (k : ℤ), c.long = some x ∧ c.lat = some y ∧
        ((x + 360 * k - long) / (3 * R.env.cfg.longLarge)) ^ 2 + ((y - lat) / (3 * R.env.cfg.latLarge)) ^ 2 < 1 := by
  intro f hf hp
  obtain ⟨i, hi, hfi⟩ := List.mem_iff_getElem.1 hf
  obtain ⟨r, hr, -⟩ := fresh_ok_all R.args fs hload h i (by change i < R.no.length; omega)
  change profilesOf R.env R.source i = .ok r at hr
  unfold profilesOf item at hr
  rw [List.getElem?_eq_getElem hi, hfi] at hr
  simp only [bind, Except.bind] at hr
  unfold profileOf at hr
  rw [if_pos ((usable_iff f).2 hp)] at hr
  obtain ⟨h1, h2, -⟩ := hp
  obtain ⟨lat, hlat⟩ := Option.ne_none_iff_exists'.1 h1
  obtain ⟨long, hlong⟩ := Option.ne_none_iff_exists'.1 h2
  rw [hlat, hlong] at hr
  simp only [bind, Except.bind] at hr
  cases hpr : prepare R.env f lat long with
  | error e => rw [hpr] at hr; cases hr
  | ok p =>
    obtain ⟨z, b, -, hb, -⟩ := prepare_ok _ _ _ _ _ hpr
    obtain ⟨boxes, hl, gz, idx, d, bz, g1, g2, g3, g4, g5, -⟩ := chosenCasts_ok _ _ _ _ _ _ hb
    refine ⟨lat, long, hlat, hlong, ?_⟩
    have hs : surrounding R.env long lat = refCasts R.env.disk R.env.name boxes := by
      unfold surrounding; rw [g1]
    rw [hs]
    obtain ⟨s1, s2⟩ := hist_locations_spec R.env.disk hw R.env.name boxes
    have hne : refCasts R.env.disk R.env.name boxes ≠ [] := by
      intro h0
      rw [s1 h0] at g2
      cases g2
    rw [s2 hne] at g2
    have hl' := (Except.ok.inj g2).symm
    subst hl'
    have hknown : ∀ c ∈ refCasts R.env.disk R.env.name boxes, c.lat ≠ none ∧ c.long ≠ none := by
      intro c hc
      constructor
      · intro h0
        rw [gridDepths_missing _ _ _ (Or.inl (List.mem_map.2 ⟨c, hc, h0⟩))] at g3
        cases g3
      · intro h0
        obtain ⟨k, hk, hkc⟩ := List.mem_iff_getElem.1 hc
        have hcong := wrap_longitude_congruent ((refCasts R.env.disk R.env.name boxes).map (·.long))
        rw [List.forall₂_iff_get] at hcong
        have hk' : k < ((refCasts R.env.disk R.env.name boxes).map (·.long)).length := by simpa using hk
        have := hcong.2 k hk' (hcong.1 ▸ hk')
        rcases this with ⟨-, e⟩ | ⟨x, n, e, -⟩
        · rw [gridDepths_missing _ _ _ (Or.inr (e ▸ List.get_mem _ _))] at g3
          cases g3
        · simp [hkc, h0] at e
    refine ⟨hknown, ?_⟩
    have hidx : idx ≠ [] := by
      rintro rfl
      rw [region_data_none _ hw _ _ _ _ _ (chosen_nil _)] at g5
      cases g5
    obtain ⟨c, hc, hin⟩ := besthist_some_inside _ _ _ _ _ g4 hidx
    unfold Verif.Profile.castsOf at hc
    obtain ⟨q, hq, rfl⟩ := List.mem_map.1 hc
    obtain ⟨k, hk, hkq⟩ := List.mem_iff_getElem.1 hq
    simp only [List.length_zip, List.length_map] at hk
    have hk1 : k < (refCasts R.env.disk R.env.name boxes).length := by omega
    have hcong := wrap_longitude_congruent ((refCasts R.env.disk R.env.name boxes).map (·.long))
    rw [List.forall₂_iff_get] at hcong
    have hk' : k < ((refCasts R.env.disk R.env.name boxes).map (·.long)).length := by simpa using hk1
    have hk2 := hcong.1 ▸ hk'
    have hcg := hcong.2 k hk' hk2
    simp only [List.getElem_zip, List.getElem_map] at hkq
    obtain ⟨x', y, hx', hy, hell⟩ := hin
    rw [← hkq] at hx' hy
    dsimp only at hx' hy
    refine ⟨_, List.getElem_mem hk1, ?_⟩
    rcases hcg with ⟨e1, e2⟩ | ⟨x, n, e1, e2⟩
    · simp only [List.get_eq_getElem] at e2
      rw [e2] at hx'; cases hx'
    · simp only [List.get_eq_getElem, List.getElem_map] at e1 e2
      rw [e2] at hx'
      have hxx := Option.some.inj hx'
      subst hxx
      have hineq : ((x + 360 * (n : ℝ) - matchLongitude (wrapLongitude ((refCasts R.env.disk R.env.name boxes).map (·.long))) long) /
          (3 * R.env.cfg.longLarge)) ^ 2 + ((y - lat) / (3 * R.env.cfg.latLarge)) ^ 2 < 1 := by
        split_ifs at hell with hpv
        · obtain ⟨zz, -, -, -, hlt⟩ := hell
          refine lt_of_le_of_lt ?_ hlt
          have : (0 : ℝ) ≤ (potentialVorticity lat z - potentialVorticity y zz) ^ 2 /
              (potentialVorticity lat z ^ 2 + potentialVorticity y zz ^ 2) / R.env.cfg.phiLarge ^ 2 := by positivity
          change _ ≤ _ + _ + (potentialVorticity lat z - potentialVorticity y zz) ^ 2 /
              (potentialVorticity lat z ^ 2 + potentialVorticity y zz ^ 2) / R.env.cfg.phiLarge ^ 2
          linarith [show ((x + 360 * (n : ℝ) - matchLongitude (wrapLongitude ((refCasts R.env.disk R.env.name boxes).map (·.long))) long) /
          (3 * R.env.cfg.longLarge)) ^ 2 + ((y - lat) / (3 * R.env.cfg.latLarge)) ^ 2 =
            ((x + 360 * (n : ℝ) - (besthistArgs R.env lat (matchLongitude (wrapLongitude ((refCasts R.env.disk R.env.name boxes).map (·.long))) long) f.date z).long) /
          (3 * (besthistArgs R.env lat (matchLongitude (wrapLongitude ((refCasts R.env.disk R.env.name boxes).map (·.long))) long) f.date z).longLarge)) ^ 2 + ((y - (besthistArgs R.env lat (matchLongitude (wrapLongitude ((refCasts R.env.disk R.env.name boxes).map (·.long))) long) f.date z).lat) / (3 * (besthistArgs R.env lat (matchLongitude (wrapLongitude ((refCasts R.env.disk R.env.name boxes).map (·.long))) long) f.date z).latLarge)) ^ 2 from rfl]
        · exact hell
      rcases matchLongitude_cases (wrapLongitude ((refCasts R.env.disk R.env.name boxes).map (·.long))) long with hm | hm
      · refine ⟨x, y, n, e1, hy, ?_⟩
        rw [hm] at hineq
        push_cast
        exact hineq
      · refine ⟨x, y, n - 1, e1, hy, ?_⟩
        rw [hm] at hineq
        push_cast
        rw [show x + 360 * ((n : ℝ) - 1) - long = x + 360 * (n : ℝ) - (long + 360) by ring]
        exact hineq

/-- C91. One profile with a position and pressures but without reference casts in the boxes around it: the run ends with an exception and saves nothing,
whatever the other profiles are. (The code means to skip such a profile.) -/
theorem run_without_casts_saves_nothing (R : FloatRun) (fs : Fs ℝ) (hno : R.no.length = R.source.length) (hw : WellFormedDisk R.env.disk)
    (hload : fs R.loadPath = none) (f : FloatProfile) (hf : f ∈ R.source) (hp : Placed f)
    (hs : ∀ lat long, f.lat = some lat → f.long = some long → surrounding R.env long lat = []) :
    (updateMapping R.args fs).1 ≠ none ∧ ∀ s ∈ (updateMapping R.args fs).2, s = fs := by
  have hne : (updateMapping R.args fs).1 ≠ none := by
    intro h0
    obtain ⟨lat, long, h1, h2, -, c, hc, -⟩ := successful_run_found_casts R fs hno hw hload h0 f hf hp
    rw [hs lat long h1 h2] at hc
    cases hc
  refine ⟨hne, ?_⟩
  cases h1 : (updateMapping R.args fs).1 with
  | none => exact absurd h1 hne
  | some e' => exact (run_writes_only_at_end R.args fs).1 e' h1

end Verif.Props
