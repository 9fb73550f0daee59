import Verif.Spec.SafIdle
import Verif.Props.NoEffect
import Verif.Props.Saved
import Verif.Lemmas.Calseries

/-!
# C174: when `MAP_USE_SAF` changes nothing
-/

set_option linter.unusedSectionVars false

namespace Verif.Props

open Verif.Np Verif.Helper Verif.Region Verif.Profile Verif.Update Verif.Spec Verif.Spec.Profile Verif.Level Verif.Finders
open Verif.Lemmas.Profile Verif.Utilities Verif.Saf Verif.Topo Verif.Spec.Saf

/-! ## The shape of the data of a region -/

/-- There are no more kept casts than chosen ones. -/
theorem kept_length (limit : Option ℝ) (index : List ℕ) (casts : List (RefCast ℝ)) : (keptNumbers limit index casts).length ≤ index.length := by
  classical
  refine List.Subperm.length_le (List.Nodup.subperm (List.nodup_range.filter _) ?_)
  intro k hk
  have := (List.mem_filter.1 hk).2
  simp only [decide_eq_true_eq] at this
  exact this.1

/-- All arrays of the data of a region have the same length, not more than the number of chosen casts, and no column is empty. -/
theorem region_shape (disk : Disk ℝ) (hw : WellFormedDisk disk) (name : List Char) (boxes : List WmoBox) (index : List ℕ) (pres : List (Option ℝ)) (delta : ℝ)
    (d : RegionData ℝ) (h : regionData disk name boxes index pres delta = .ok d) :
    (d.sal.length = d.long.length ∧ d.ptmp.length = d.long.length ∧ d.pres.length = d.long.length ∧ d.lat.length = d.long.length ∧
      d.dates.length = d.long.length) ∧ d.long.length ≤ index.length ∧ ∀ col ∈ d.sal, col ≠ [] := by
  classical
  cases hsel : chosen index (refCasts disk name boxes) with
  | nil => rw [region_data_none _ hw _ _ _ _ _ hsel] at h; cases h
  | cons c0 l0 =>
    by_cases h0 : usableLevels (pressureLimit pres delta) c0 = []
    · rw [region_data_first_cast_empty _ hw _ _ _ _ _ c0 l0 hsel h0] at h
      obtain rfl := Except.ok.inj h
      simp
    · rw [region_data_spec _ hw _ _ _ _ _ c0 l0 hsel h0] at h
      obtain rfl := Except.ok.inj h
      refine ⟨by simp [regionResult], ?_, ?_⟩
      · have := congrArg List.length (region_longitudes (pressureLimit pres delta) index (refCasts disk name boxes))
        rw [List.length_map, List.length_map] at this
        rw [this]
        exact kept_length _ _ _
      · intro col hcol
        unfold regionResult at hcol
        dsimp only at hcol
        obtain ⟨p, hp, rfl⟩ := List.mem_map.1 hcol
        have := (List.mem_filter.1 hp).2
        simp only [decide_eq_true_eq] at this
        obtain ⟨l, hl, -⟩ := this
        intro hnil
        have := congrArg List.length hnil
        have hpos := List.length_pos_of_mem hl
        simp [columnOf] at this
        simp [this.1] at hpos

/-! ## A profile the criterion says nothing about -/

theorem noSide_class (interp : Interp ℝ) (hI : IsInterp interp) (s : SafProfiles ℝ) (f : SafFloat ℝ) (h : NoSide interp s f) (hlat : f.lat < -30) :
    floatClass interp s f = .ok 0 := by
  classical
  rcases h with h | ⟨ha, h⟩
  · exact absurd hlat (not_lt.2 h)
  rcases h with h | ⟨T, hT, h3, h5, henv⟩
  · rw [floatClass_side interp hI s f ha 0 (.inr ⟨h, rfl⟩), if_neg fun hh => h hh.2]
  · by_cases hc : Crosses300 (floatProfile f)
    · rw [floatClass_side interp hI s f ha 0 (.inl ⟨hc, T, hT, by unfold sideOf; rw [if_neg (not_lt.2 h5), if_neg (not_lt.2 h3)]⟩), if_pos ⟨rfl, hc⟩]
      obtain ⟨e1, e2, e3 | e3 | e3⟩ := envelopeClass_eq interp s f
      · obtain ⟨a, b, c⟩ := e1.1 e3
        exact absurd ((henv a).1 b) c
      · rw [e3]
      · obtain ⟨a, b, c⟩ := e2.1 e3
        exact absurd ((henv a).2 b) c
    · rw [floatClass_side interp hI s f ha 0 (.inr ⟨hc, rfl⟩), if_neg fun hh => hc hh.2]

theorem argwhere_zeros (n : ℕ) : argwhere (fun c : ℤ => decide (c = 0)) (List.replicate n 0) = List.range n := by
  have : ∀ s, argwhereFrom (fun c : ℤ => decide (c = 0)) s (List.replicate n 0) = List.range' s n := by
    induction n with
    | zero => intro s; rfl
    | succ n ih =>
      intro s
      rw [List.replicate_succ, argwhereFrom, ih, List.range'_succ]
      simp
  rw [argwhere, this, List.range_eq_range']

theorem gather_first {α : Type} (l : List α) (n : ℕ) (h : n ≤ l.length) : gather l (List.range n) = .ok (l.take n) := by
  have := Verif.Calseries.gather_range (l.take n)
  rw [List.length_take, min_eq_left h] at this
  rw [← this]
  refine Verif.Piecewise.gather_congr _ _ _ fun i hi => ?_
  rw [List.getElem?_take, if_pos (List.mem_range.1 hi)]

/-- The criterion keeps all casts. At most it drops depths behind those of the casts. -/
theorem applySaf_noSide (interp : Interp ℝ) (hI : IsInterp interp) (temperature : Temperature ℝ) (s : SafProfiles ℝ) (use : Bool) (d : RegionData ℝ) (bz : List ℝ)
    (f : SafFloat ℝ) (h : NoSide interp s f)
    (hd : d.sal.length = d.long.length ∧ d.ptmp.length = d.long.length ∧ d.pres.length = d.long.length ∧ d.lat.length = d.long.length ∧
      d.dates.length = d.long.length) (hz : d.long.length ≤ bz.length) (hcol : ∀ col ∈ d.sal, col ≠ []) :
    ∃ z, applySaf interp temperature s use ⟨d, bz⟩ f = .ok ⟨d, z⟩ ∧ z.take d.sal.length = bz.take d.sal.length := by
  obtain ⟨d1, d2, d3, d4, d5⟩ := hd
  have hne : ¬ ((d.sal.headD []).length = 0 ∧ d.sal.length > 0) := by
    rintro ⟨h1, h2⟩
    cases hs : d.sal with
    | nil => rw [hs] at h2; exact absurd h2 (by simp)
    | cons a l =>
      rw [hs] at h1
      exact hcol a (by rw [hs]; simp) (List.length_eq_zero_iff.1 h1)
  cases use with
  | false => exact ⟨bz, rfl, rfl⟩
  | true =>
    have key : ∃ z, frontalConstraint interp temperature s ⟨d, bz⟩ f = .ok ⟨d, z⟩ ∧ z.take d.sal.length = bz.take d.sal.length := by
      unfold frontalConstraint
      by_cases hlat : f.lat < -30
      · rw [if_pos hlat, noSide_class interp hI s f h hlat]
        simp only [bind, Except.bind, gridClasses, ne_eq, not_true_eq_false, if_false, argwhere_zeros]
        unfold selectCasts
        rw [gather_first _ _ d1.ge, gather_first _ _ d2.ge, gather_first _ _ d3.ge, gather_first _ _ d4.ge, gather_first _ _ le_rfl, gather_first _ _ d5.ge,
          gather_first _ _ hz, List.take_of_length_le d1.le, List.take_of_length_le d2.le, List.take_of_length_le d3.le, List.take_of_length_le d4.le,
          List.take_of_length_le d5.le, List.take_of_length_le le_rfl]
        exact ⟨_, rfl, by rw [List.take_take, d1, min_self]⟩
      · rw [if_neg hlat]
        exact ⟨bz, rfl, rfl⟩
    obtain ⟨z, h1, h2⟩ := key
    unfold applySaf
    simp only [if_true, h1, bind, Except.bind, if_neg hne]
    split_ifs
    · exact ⟨z, rfl, h2⟩
    · exact ⟨bz, rfl, rfl⟩

/-! ## Depths behind those of the casts -/

/-- The same casts, with the same depths. -/
def SameCasts (b b' : SafGrid ℝ) : Prop := b'.data = b.data ∧ b'.z.take b.data.sal.length = b.z.take b.data.sal.length

theorem chosenCasts_saf (R : FloatRun) (hw : WellFormedDisk R.env.disk) (hI : IsInterp R.env.interp) (u : ℤ) (st : Setting → ℝ) (f : FloatProfile) (lat long z : ℝ)
    (h : NoSide R.env.interp R.env.saf ⟨lat, f.pres.zip (f.tmp.zip f.sal)⟩) :
    BothEnd SameCasts (chosenCasts R.env f lat long z) (chosenCasts (withSaf R u st).env f lat long z) := by
  have gen : ∀ (E E' : Env), E = R.env → boxesAt E' long lat = boxesAt E long lat → E'.disk = E.disk → E'.name = E.name → gridDepths E' = gridDepths E →
      besthistArgs E' = besthistArgs E → E'.argsort = E.argsort → E'.rand = E.rand → E'.cfg.pDelta = E.cfg.pDelta → E'.interp = E.interp →
      E'.temperature = E.temperature → E'.saf = E.saf → BothEnd SameCasts (chosenCasts E f lat long z) (chosenCasts E' f lat long z) := by
    intro E E' e0 e1 e2 e3 e4 e5 e6 e7 e8 e9 e10 e11
    unfold chosenCasts
    rw [e1, e2, e3, e4, e5, e6, e7, e8, e9, e10, e11]
    subst e0
    simp only [bind, Except.bind]
    cases boxesAt R.env long lat with
    | error e => rfl
    | ok boxes =>
    dsimp only
    cases histLocations R.env.disk R.env.name boxes with
    | error e => rfl
    | ok x =>
    dsimp only
    cases gridDepths R.env x.1 x.2.1 with
    | error e => rfl
    | ok gz =>
    dsimp only
    cases findBesthist (besthistArgs R.env lat (matchLongitude x.2.1 long) f.date z) R.env.argsort R.env.rand (Verif.Profile.castsOf x.1 x.2.1 x.2.2 gz) with
    | error e => rfl
    | ok idx =>
    dsimp only
    cases hd : regionData R.env.disk R.env.name boxes idx f.pres R.env.cfg.pDelta with
    | error e => rfl
    | ok d =>
    dsimp only
    cases hz : gather gz idx with
    | error e => rfl
    | ok bz =>
      dsimp only
      obtain ⟨s1, s2, s3⟩ := region_shape _ hw _ _ _ _ _ d hd
      have hl := (Verif.Piecewise.gather_inv hz).1
      obtain ⟨z1, a1, a2⟩ := applySaf_noSide R.env.interp hI R.env.temperature R.env.saf (decide (R.env.useSaf = 1)) d bz _ h s1 (by omega) s3
      obtain ⟨z2, b1, b2⟩ := applySaf_noSide R.env.interp hI R.env.temperature R.env.saf (decide (E'.useSaf = 1)) d bz _ h s1 (by omega) s3
      rw [a1, b1]
      exact ⟨rfl, by dsimp only; rw [a2, b2]⟩
  exact gen R.env (withSaf R u st).env rfl rfl rfl rfl rfl rfl rfl rfl rfl rfl rfl rfl

theorem processProfileHist_z (g : GridData ℝ) (z : List ℝ) (pres : List (Option ℝ)) (is ip : List (List (Option ℝ))) (n c : ℕ) (delta : ℝ)
    (hr : ∀ r ∈ is, r.length = c) (hz : z.take c = g.z.take c) :
    processProfileHist { g with z := z } pres is ip n delta = processProfileHist g pres is ip n delta := by
  unfold processProfileHist
  simp only [bind, Except.bind]
  cases hs : item is n with
  | error e => rfl
  | ok salRow =>
    have hlen : salRow.length = c := by
      unfold item at hs
      cases h : is[n]? with
      | none => rw [h] at hs; cases hs
      | some r => rw [h] at hs; obtain rfl := Except.ok.inj hs; exact hr r (List.mem_of_getElem? h)
    have e : gather z (argwhere Option.isSome salRow) = gather g.z (argwhere Option.isSome salRow) := by
      refine Verif.Piecewise.gather_congr _ _ _ fun i hi => ?_
      have hi' : i < c := by rw [← hlen]; exact argwhere_lt _ _ _ hi
      have := congrArg (fun l : List ℝ => l[i]?) hz
      simpa [List.getElem?_take, hi'] using this
    dsimp only
    rw [e]

theorem levelOf_z (E E' : Env) (f : FloatProfile) (p : Prepared) (z : List ℝ) (c : ℕ) (hc : E'.cfg = E.cfg) (hr : ∀ r ∈ p.interpSal, r.length = c)
    (hz : z.take c = p.grid.z.take c) : levelOf E' f { p with grid := { p.grid with z := z } } = levelOf E f p := by
  funext n
  unfold levelOf
  rw [hc]
  have : mapLevel E.cfg p.pos { p.grid with z := z } f.sal f.pres p.interpSal p.interpPres n = mapLevel E.cfg p.pos p.grid f.sal f.pres p.interpSal p.interpPres n := by
    unfold mapLevel
    simp only [processProfileHist_z p.grid z f.pres p.interpSal p.interpPres n c E.cfg.pDelta hr hz]
  dsimp only
  rw [this]

theorem profileOf_saf (R : FloatRun) (hw : WellFormedDisk R.env.disk) (hI : IsInterp R.env.interp) (u : ℤ) (st : Setting → ℝ) (f : FloatProfile)
    (h : Placed f → ∀ lat long, f.lat = some lat → f.long = some long → NoSide R.env.interp R.env.saf ⟨lat, f.pres.zip (f.tmp.zip f.sal)⟩) :
    profileOf (withSaf R u st).env f = profileOf R.env f := by
  unfold profileOf
  by_cases hu : usable f = true
  · rw [if_pos hu, if_pos hu]
    cases hlat : f.lat with
    | none => rfl
    | some lat =>
      cases hlong : f.long with
      | none => rfl
      | some long =>
        dsimp only
        unfold prepare
        rw [show floatDepth (withSaf R u st).env = floatDepth R.env from rfl]
        simp only [bind, Except.bind]
        cases floatDepth R.env lat long with
        | error e => rfl
        | ok z =>
          dsimp only
          have key := chosenCasts_saf R hw hI u st f lat long z (h ((usable_iff f).1 hu) lat long hlat hlong)
          cases e1 : chosenCasts R.env f lat long z with
          | error e => rw [e1] at key; cases e2 : chosenCasts (withSaf R u st).env f lat long z with
            | error e' => rw [e2] at key; obtain rfl : e = e' := key; rfl
            | ok b => rw [e2] at key; exact key.elim
          | ok b => rw [e1] at key; cases e2 : chosenCasts (withSaf R u st).env f lat long z with
            | error e' => rw [e2] at key; exact key.elim
            | ok b' =>
              rw [e2] at key
              obtain ⟨k1, k2⟩ := key
              obtain ⟨d, z1⟩ := b
              obtain ⟨d', z2⟩ := b'
              dsimp only at k1 k2
              subst k1
              dsimp only
              cases Interp.interpClimatology (toGrid d'.sal) (toGrid d'.ptmp) (toGrid d'.pres) (floatLevels f) with
              | error e => rfl
              | ok s =>
                dsimp only [pure, Except.pure]
                congr 2
                refine levelOf_z R.env (withSaf R u st).env f ⟨_, ⟨d'.long.filterMap id, d'.lat.filterMap id, d'.dates, z1⟩, _, _⟩ z2 d'.sal.length rfl ?_ k2
                intro r hr
                simp only [List.mem_map] at hr
                obtain ⟨i, -, rfl⟩ := hr
                simp
  · rw [if_neg hu, if_neg hu]

/-- C174: if the frontal criterion says nothing about any profile with a position and a pressure below its first level, a run does the same whatever `MAP_USE_SAF`: it ends with the same exception
or ends normally in both cases, and what it stores differs at most in the recorded settings. -/
theorem idle_saf (R : FloatRun) (fs : Fs ℝ) (hw : WellFormedDisk R.env.disk) (hI : IsInterp R.env.interp) (u : ℤ) (st : Setting → ℝ)
    (h : ∀ f ∈ R.source, Placed f → ∀ lat long, f.lat = some lat → f.long = some long → NoSide R.env.interp R.env.saf ⟨lat, f.pres.zip (f.tmp.zip f.sal)⟩) :
    (updateMapping (withSaf R u st).args fs).1 = (updateMapping R.args fs).1 ∧
      ((finalFs (withSaf R u st).args fs = fs ∧ finalFs R.args fs = fs) ∨
        ∃ file file' : MapFile ℝ, finalFs R.args fs = Function.update fs R.args.savePath (some (.whole file)) ∧
          finalFs (withSaf R u st).args fs = Function.update fs R.args.savePath (some (.whole file')) ∧ SameButRecord file file') := by
  have e : (withSaf R u st).args = { R.args with cfg := st } := by
    have := profilesOf_congr R.env (withSaf R u st).env R.source fun f hm => profileOf_saf R hw hI u st f (h f hm)
    unfold FloatRun.args
    rw [show (withSaf R u st).source = R.source from rfl, this]
    rfl
  rw [e]
  exact record_no_effect R.args st fs

end Verif.Props
