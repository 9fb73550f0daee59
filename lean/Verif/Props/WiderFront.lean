import Verif.Props.Wider
import Verif.Props.EndsFront

/-!
# C175 with the frontal criterion on
-/

set_option linter.unusedSectionVars false

namespace Verif.Props

open Verif.Np Verif.Helper Verif.Region Verif.Profile Verif.Update Verif.Spec Verif.Spec.Profile Verif.Level Verif.Finders
open Verif.Lemmas.Profile Verif.Utilities Verif.Saf Verif.Topo Verif.Spec.Saf

/-- C175. A run that ends normally saves a value (a signal variance) for exactly those levels that have a salinity and a pressure not less than `MAP_P_EXCLUDE`,
and to which more than five casts contribute; for profiles the
frontal criterion says nothing about, whatever `MAP_USE_SAF`. -/
theorem mapped_iff_front (R : FloatRun) (fs : Fs ℝ) (hi : IsInterp2d R.env.interp2) (hI : IsInterp R.env.interp) (hf : R.env.topo.length = 2160 * 4320) (hw : WellFormedDisk R.env.disk)
    (hs : ∀ f ∈ R.source, Placed f → ∀ lat long, f.lat = some lat → f.long = some long → NoSide R.env.interp R.env.saf ⟨lat, f.pres.zip (f.tmp.zip f.sal)⟩)
    (hpv : R.env.cfg.usePv ≠ 1) (hsort : IsArgsort R.env.argsort) (hrand : ValidRand R.env.rand) (hcfg : ProperConfig R.env.cfg)
    (hmax : 1 ≤ R.env.maxCasts) (hno : R.no.Pairwise (· < ·)) (hlen : R.no.length = R.source.length) (hload : fs R.loadPath = none)
    (hshape : ∀ f ∈ R.source, f.sal.length = R.levels ∧ f.ptmp.length = R.levels ∧ f.pres.length = R.levels)
    (hwithin : ∀ f ∈ R.source, Placed f → ∀ lat long, f.lat = some lat → f.long = some long → Within R lat long)
    (h : (updateMapping R.args fs).1 = none) :
    ∃ file : MapFile ℝ, finalFs R.args fs = Function.update fs R.savePath (some (.whole file)) ∧
      ∀ (i : ℕ) (f : FloatProfile) (n : ℕ), R.source[i]? = some f → n < R.levels →
        ((∃ v, storedAt file .signal i n = some (some v)) ↔
          Placed f ∧ ∃ lat long q, f.lat = some lat ∧ f.long = some long ∧ Mappable R f lat long n q) := by
  obtain ⟨file0, a1, a2⟩ := mapped_iff (withSaf R 0 R.settings) fs hi hf hw (by change (0 : ℤ) ≠ 1; norm_num) hpv hsort hrand hcfg hmax hno hlen hload hshape
    (fun f hm hp lat long h1 h2 => (within_saf ..).2 (hwithin f hm hp lat long h1 h2)) ((idle_saf R fs hw hI 0 R.settings hs).1.trans h)
  rcases (idle_saf R fs hw hI 0 R.settings hs).2 with ⟨b1, b2⟩ | ⟨file, file', c1, c2, c3⟩
  · exact ⟨file0, b2.trans (b1.symm.trans a1), a2⟩
  · have hsame : file' = file0 := by
      have := congrFun (c2.symm.trans a1) R.savePath
      rw [show (withSaf R 0 R.settings).savePath = R.savePath from rfl, show R.args.savePath = R.savePath from rfl] at this
      simp only [Function.update_self, Option.some.injEq] at this
      simpa using this
    subst hsame
    refine ⟨file, c1, fun i f n hif hn => ?_⟩
    have := a2 i f n hif hn
    unfold storedAt at this ⊢
    rw [c3.mats] at this
    exact this

/-- C175. With larger scales or a larger `MAP_P_DELTA` or a smaller `MAP_P_EXCLUDE`, whatever the other settings, no level loses its value, if the casts are
listed downwards, there are not too many of them and both runs end normally; for profiles the frontal criterion says nothing about, whatever `MAP_USE_SAF`. -/
theorem wider_keeps_front (R : FloatRun) (fs : Fs ℝ) (C : MapConfig) (k : ℕ) (st : Setting → ℝ) (hC : Wider R.env.cfg C) (hi : IsInterp2d R.env.interp2) (hI : IsInterp R.env.interp)
    (hf : R.env.topo.length = 2160 * 4320) (hw : WellFormedDisk R.env.disk)
    (hs : ∀ f ∈ R.source, Placed f → ∀ lat long, f.lat = some lat → f.long = some long → NoSide R.env.interp R.env.saf ⟨lat, f.pres.zip (f.tmp.zip f.sal)⟩)
    (hpv : R.env.cfg.usePv ≠ 1) (hpv' : C.usePv ≠ 1) (hsort : IsArgsort R.env.argsort) (hrand : ValidRand R.env.rand)
    (hcfg : ProperConfig R.env.cfg) (hcfg' : ProperConfig C)
    (hmax : 1 ≤ R.env.maxCasts) (hmax' : 1 ≤ k) (hno : R.no.Pairwise (· < ·)) (hlen : R.no.length = R.source.length) (hload : fs R.loadPath = none)
    (hshape : ∀ f ∈ R.source, f.sal.length = R.levels ∧ f.ptmp.length = R.levels ∧ f.pres.length = R.levels)
    (hwithin : ∀ f ∈ R.source, Placed f → ∀ lat long, f.lat = some lat → f.long = some long →
      Within R lat long ∧ Within (reconfigured R C k st) lat long ∧ ∀ c ∈ inReach R lat long, Downwards c)
    (h : (updateMapping R.args fs).1 = none) (h' : (updateMapping (reconfigured R C k st).args fs).1 = none) :
    ∃ file file' : MapFile ℝ, finalFs R.args fs = Function.update fs R.savePath (some (.whole file)) ∧
      finalFs (reconfigured R C k st).args fs = Function.update fs R.savePath (some (.whole file')) ∧
      ∀ (i n : ℕ) (v : ℝ), i < R.source.length → n < R.levels → storedAt file .signal i n = some (some v) →
        ∃ v', storedAt file' .signal i n = some (some v') := by
  obtain ⟨file, a1, a2⟩ := mapped_iff_front R fs hi hI hf hw hs hpv hsort hrand hcfg hmax hno hlen hload hshape
    (fun f hm hp lat long hla hlo => (hwithin f hm hp lat long hla hlo).1) h
  obtain ⟨file', b1, b2⟩ := mapped_iff_front (reconfigured R C k st) fs hi hI hf hw hs hpv' hsort hrand hcfg' hmax' hno hlen hload hshape
    (fun f hm hp lat long hla hlo => (hwithin f hm hp lat long hla hlo).2.1) h'
  refine ⟨file, file', a1, b1, ?_⟩
  intro i n v hi' hn hv
  have hif := List.getElem?_eq_getElem hi'
  obtain ⟨hpl, lat, long, q, hla, hlo, hq⟩ := (a2 i _ n hif hn).1 ⟨v, hv⟩
  exact (b2 i _ n hif hn).2 ⟨hpl, lat, long, q, hla, hlo,
    mappable_wider R C k st hC _ lat long (hwithin _ (List.getElem_mem hi') hpl lat long hla hlo).2.2 n q hq⟩

end Verif.Props
