import Verif.Props.SafIdle
import Verif.Props.Failure

/-!
# C163 and C168 with the frontal criterion on
-/

set_option linter.unusedSectionVars false

namespace Verif.Props

open Verif.Np Verif.Helper Verif.Region Verif.Profile Verif.Update Verif.Spec Verif.Spec.Profile Verif.Level Verif.Finders
open Verif.Lemmas.Profile Verif.Utilities Verif.Saf Verif.Topo Verif.Spec.Saf

theorem suffices_saf (R : FloatRun) (u : ℤ) (st : Setting → ℝ) (f : FloatProfile) (lat long : ℝ) (limit : Option ℝ) :
    Suffices (withSaf R u st) f lat long limit ↔ Suffices R f lat long limit :=
  ⟨fun h => ⟨h.known, h.first, h.data, h.temperatures, h.noise⟩, fun h => ⟨h.known, h.first, h.data, h.temperatures, h.noise⟩⟩

theorem within_saf (R : FloatRun) (u : ℤ) (st : Setting → ℝ) (lat long : ℝ) : Within (withSaf R u st) lat long ↔ Within R lat long :=
  ⟨fun h => ⟨h.latitude, h.longitude, h.casts, h.few⟩, fun h => ⟨h.latitude, h.longitude, h.casts, h.few⟩⟩

theorem fails_saf (R : FloatRun) (u : ℤ) (st : Setting → ℝ) (f : FloatProfile) (lat long : ℝ) (limit : Option ℝ) (e : PyErr) :
    Fails (withSaf R u st) f lat long limit e ↔ Fails R f lat long limit e := by
  constructor
  · intro h
    cases h with
    | nothing h => exact .nothing h
    | position c hc h => exact .position c hc h
    | reach h hk hr => exact .reach h hk hr
    | first hk c cs hr h => exact .first hk c cs hr h
    | data hk hr h => exact .data hk hr h
    | temperatures hk hr n s v q hs hv hq h => exact .temperatures hk hr n s v q hs hv hq h
    | noise hk hf hd ht n q hm h => exact .noise hk hf hd ht n q hm h
  · intro h
    cases h with
    | nothing h => exact .nothing h
    | position c hc h => exact .position c hc h
    | reach h hk hr => exact .reach h hk hr
    | first hk c cs hr h => exact .first hk c cs hr h
    | data hk hr h => exact .data hk hr h
    | temperatures hk hr n s v q hs hv hq h => exact .temperatures hk hr n s v q hs hv hq h
    | noise hk hf hd ht n q hm h => exact .noise hk hf hd ht n q hm h

/-- C163, for profiles the frontal criterion says nothing about, whatever `MAP_USE_SAF`. -/
theorem run_ends_iff_front (R : FloatRun) (fs : Fs ℝ) (hi : IsInterp2d R.env.interp2) (hI : IsInterp R.env.interp) (hf : R.env.topo.length = 2160 * 4320)
    (hw : WellFormedDisk R.env.disk)
    (hs : ∀ f ∈ R.source, Placed f → ∀ lat long, f.lat = some lat → f.long = some long → NoSide R.env.interp R.env.saf ⟨lat, f.pres.zip (f.tmp.zip f.sal)⟩)
    (hpv : R.env.cfg.usePv ≠ 1) (hsort : IsArgsort R.env.argsort) (hrand : ValidRand R.env.rand) (hcfg : ProperConfig R.env.cfg)
    (hmax : 1 ≤ R.env.maxCasts) (hlen : R.no.length = R.source.length) (hload : fs R.loadPath = none)
    (hshape : ∀ f ∈ R.source, f.sal.length = R.levels ∧ f.ptmp.length = R.levels ∧ f.pres.length = R.levels)
    (hwithin : ∀ f ∈ R.source, Placed f → ∀ lat long, f.lat = some lat → f.long = some long → Within R lat long) :
    (updateMapping R.args fs).1 = none ↔
      (∀ f ∈ R.source, Placed f → ∀ lat long, f.lat = some lat → f.long = some long → Suffices R f lat long (pressureLimit f.pres R.env.cfg.pDelta)) ∧
      ∃ f ∈ R.source, Placed f ∧ ∃ lat long, f.lat = some lat ∧ f.long = some long ∧ ∃ n q, Mappable R f lat long n q := by
  rw [← (idle_saf R fs hw hI 0 R.settings hs).1, run_ends_iff (withSaf R 0 R.settings) fs hi hf hw (by change (0 : ℤ) ≠ 1; norm_num) hpv hsort hrand hcfg hmax
    hlen hload hshape fun f hm hp lat long h1 h2 => (within_saf ..).2 (hwithin f hm hp lat long h1 h2)]
  simp only [suffices_saf]
  exact Iff.rfl

/-- C168, for profiles the frontal criterion says nothing about, whatever `MAP_USE_SAF`. -/
theorem run_fails_iff_front (R : FloatRun) (fs : Fs ℝ) (hi : IsInterp2d R.env.interp2) (hI : IsInterp R.env.interp) (hf : R.env.topo.length = 2160 * 4320)
    (htab : R.env.table.length = 648) (hw : WellFormedDisk R.env.disk)
    (hs : ∀ f ∈ R.source, Placed f → ∀ lat long, f.lat = some lat → f.long = some long → NoSide R.env.interp R.env.saf ⟨lat, f.pres.zip (f.tmp.zip f.sal)⟩)
    (hpv : R.env.cfg.usePv ≠ 1) (hsort : IsArgsort R.env.argsort) (hrand : ValidRand R.env.rand)
    (hcfg : ProperConfig R.env.cfg) (hmax : 1 ≤ R.env.maxCasts) (hlen : R.no.length = R.source.length) (hload : fs R.loadPath = none)
    (hshape : ∀ f ∈ R.source, f.sal.length = R.levels ∧ f.ptmp.length = R.levels ∧ f.pres.length = R.levels)
    (hwithin : ∀ f ∈ R.source, Placed f → ∀ lat long, f.lat = some lat → f.long = some long → Within R lat long ∧ -10 ≤ long ∧ long ≤ 370) (e : PyErr) :
    (updateMapping R.args fs).1 = some e ↔
      (∃ (i : ℕ) (f : FloatProfile) (lat long : ℝ), R.source[i]? = some f ∧ Placed f ∧ f.lat = some lat ∧ f.long = some long ∧
        Fails R f lat long (pressureLimit f.pres R.env.cfg.pDelta) e ∧
        ∀ (j : ℕ) (g : FloatProfile) (lat' long' : ℝ), j < i → R.source[j]? = some g → Placed g → g.lat = some lat' → g.long = some long' →
          Suffices R g lat' long' (pressureLimit g.pres R.env.cfg.pDelta)) ∨
      e = .nameError ∧ ∀ f ∈ R.source, Placed f → ∀ lat long, f.lat = some lat → f.long = some long →
        Suffices R f lat long (pressureLimit f.pres R.env.cfg.pDelta) ∧ ∀ n q, ¬ Mappable R f lat long n q := by
  rw [← (idle_saf R fs hw hI 0 R.settings hs).1, run_fails_iff (withSaf R 0 R.settings) fs hi hf htab hw (by change (0 : ℤ) ≠ 1; norm_num) hpv hsort hrand hcfg hmax
    hlen hload hshape fun f hm hp lat long h1 h2 =>
      (hwithin f hm hp lat long h1 h2).imp_left (within_saf ..).2]
  simp only [suffices_saf, fails_saf]
  exact Iff.rfl

end Verif.Props
