import Verif.Spec.Unconstrained
import Verif.Props.SixCasts

/-!
# C181: the constraints on the casts give no level a value
-/

set_option linter.unusedSectionVars false

namespace Verif.Props

open Verif.Np Verif.Helper Verif.Region Verif.Profile Verif.Update Verif.Spec Verif.Spec.Profile Verif.Level Verif.Finders
open Verif.Lemmas.Profile Verif.Utilities Verif.Saf Verif.Topo Verif.Spec.Saf

/-- C181: whatever `MAP_USE_PV`, `MAP_USE_SAF` and `MAX_CASTS` are, every level for which the run saves a number has a signal variance in the run without
these constraints, if both end normally. -/
theorem unconstrained_keeps (R : FloatRun) (fs : Fs ℝ) (k : ℕ) (st : Setting → ℝ) (hi : IsInterp2d R.env.interp2) (hf : R.env.topo.length = 2160 * 4320)
    (hw : WellFormedDisk R.env.disk) (hsort : IsArgsort R.env.argsort) (hrand : ValidRand R.env.rand) (hcfg : ProperConfig R.env.cfg)
    (hmax : 1 ≤ R.env.maxCasts) (hk : 1 ≤ k) (hno : R.no.Pairwise (· < ·)) (hlen : R.no.length = R.source.length) (hload : fs R.loadPath = none)
    (hshape : ∀ f ∈ R.source, f.sal.length = R.levels ∧ f.ptmp.length = R.levels ∧ f.pres.length = R.levels)
    (hwithin : ∀ f ∈ R.source, Placed f → ∀ lat long, f.lat = some lat → f.long = some long → Within (unconstrained R k st) lat long)
    (h : (updateMapping R.args fs).1 = none) (h' : (updateMapping (unconstrained R k st).args fs).1 = none) :
    ∃ file file' : MapFile ℝ, finalFs R.args fs = Function.update fs R.savePath (some (.whole file)) ∧
      finalFs (unconstrained R k st).args fs = Function.update fs R.savePath (some (.whole file')) ∧
      ∀ (m : Mat) (i n : ℕ), i < R.source.length → n < R.levels → (∃ v, storedAt file m i n = some (some v)) → ∃ v, storedAt file' .signal i n = some (some v) := by
  obtain ⟨file, f1, f2⟩ := value_needs_casts R fs hi hf hw hsort hrand hcfg hmax hno hlen hload hshape (by
    intro f hm hpl lat long hla hlo
    have hW := hwithin f hm hpl lat long hla hlo
    exact ⟨hW.latitude, hW.longitude, hW.casts⟩) h
  obtain ⟨file', g1, g2⟩ := mapped_iff (unconstrained R k st) fs hi hf hw (by change (0 : ℤ) ≠ 1; norm_num) (by change (0 : ℤ) ≠ 1; norm_num) hsort hrand
    (by obtain ⟨a, b, c, d, -⟩ := hcfg; exact ⟨a, b, c, d, fun h => absurd h (by change ¬ (0 : ℤ) = 1; norm_num)⟩) hk hno hlen hload hshape hwithin h'
  refine ⟨file, file', f1, g1, ?_⟩
  intro m i n hi' hn hv
  have hif := List.getElem?_eq_getElem hi'
  exact (g2 i _ n hif hn).2 (f2 m i _ n hif hn hv)

end Verif.Props
