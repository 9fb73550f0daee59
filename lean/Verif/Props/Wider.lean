import Verif.Spec.Wider
import Verif.Props.Delta

/-!
# C175: wider settings lose no level
-/

set_option linter.unusedSectionVars false

namespace Verif.Props

open Verif.Np Verif.Helper Verif.Region Verif.Profile Verif.Update Verif.Spec Verif.Spec.Profile Verif.Level Verif.Finders
open Verif.Lemmas.Profile Verif.Utilities Verif.Saf Verif.Topo

theorem near_wider (C C' : MapConfig) (hC : Wider C C') (lat long : ℝ) (cs : List (RefCast ℝ)) (c : RefCast ℝ) (h : Near C lat long cs c) :
    Near C' lat long cs c := by
  obtain ⟨x, y, h1, h2, h3⟩ := h
  refine ⟨x, y, h1, h2, lt_of_le_of_lt ?_ h3⟩
  have key : ∀ u a b : ℝ, 0 < a → a ≤ b → (u / (3 * b)) ^ 2 ≤ (u / (3 * a)) ^ 2 := by
    intro u a b ha hab
    rw [div_pow, div_pow]
    exact div_le_div_of_nonneg_left (sq_nonneg u) (by positivity) (pow_le_pow_left₀ (by positivity) (by linarith) 2)
  exact add_le_add (key _ _ _ hC.long.1 hC.long.2) (key _ _ _ hC.lat.1 hC.lat.2)

/-- A level that can be mapped still can be with wider settings. -/
theorem mappable_wider (R : FloatRun) (C : MapConfig) (k : ℕ) (st : Setting → ℝ) (hC : Wider R.env.cfg C) (f : FloatProfile) (lat long : ℝ)
    (hdown : ∀ c ∈ inReach R lat long, Downwards c) (n : ℕ) (q : ℝ) (h : Mappable R f lat long n q) :
    Mappable (reconfigured R C k st) f lat long n q := by
  classical
  obtain ⟨h1, h2, h3, h4⟩ := h
  refine ⟨h1, h2, hC.exclude.trans h3, lt_of_lt_of_le h4 ?_⟩
  have hsub : (inReach R lat long).Sublist (inReach (reconfigured R C k st) lat long) := by
    change (nearCasts R.env.cfg lat long (surrounding R.env long lat)).Sublist (nearCasts C lat long (surrounding R.env long lat))
    unfold nearCasts
    refine List.monotone_filter_right _ ?_
    intro c hc
    rw [decide_eq_true_eq] at hc ⊢
    exact near_wider _ _ hC lat long _ c hc
  change (samplesAt (pressureLimit f.pres R.env.cfg.pDelta) R.env.cfg.pDelta (inReach R lat long) (f.ptmp[n]?).join q).length ≤
    (samplesAt (pressureLimit f.pres C.pDelta) C.pDelta (inReach (reconfigured R C k st) lat long) (f.ptmp[n]?).join q).length
  cases (f.ptmp[n]?).join with
  | none => exact le_rfl
  | some v =>
    unfold samplesAt
    dsimp only
    refine le_trans ?_ (List.Sublist.length_le (hsub.filterMap _))
    refine filterMap_length_mono _ _ _ fun c hc h => ?_
    unfold sampleOf at h ⊢
    split at h
    · rename_i he
      rw [dif_pos (meets_raise f.pres c (hdown c hc) _ C.pDelta v q hC.delta he)]
      rfl
    · cases h

/-- C175. With larger scales or a larger `MAP_P_DELTA` or a smaller `MAP_P_EXCLUDE`, whatever the other settings, no level loses its value, if the casts are
listed downwards, there are not too many of them and both runs end normally. -/
theorem wider_keeps (R : FloatRun) (fs : Fs ℝ) (C : MapConfig) (k : ℕ) (st : Setting → ℝ) (hC : Wider R.env.cfg C) (hi : IsInterp2d R.env.interp2)
    (hf : R.env.topo.length = 2160 * 4320) (hw : WellFormedDisk R.env.disk)
    (hs : R.env.useSaf ≠ 1) (hpv : R.env.cfg.usePv ≠ 1) (hpv' : C.usePv ≠ 1) (hsort : IsArgsort R.env.argsort) (hrand : ValidRand R.env.rand)
    (hcfg : ProperConfig R.env.cfg) (hcfg' : ProperConfig C)
    (hmax : 1 ≤ R.env.maxCasts) (hmax' : 1 ≤ k) (hno : R.no.Pairwise (· < ·)) (hlen : R.no.length = R.source.length) (hload : fs R.loadPath = none)
    (hshape : ∀ f ∈ R.source, f.sal.length = R.levels ∧ f.ptmp.length = R.levels ∧ f.pres.length = R.levels)
    (hwithin : ∀ f ∈ R.source, Placed f → ∀ lat long, f.lat = some lat → f.long = some long →
      Within R lat long ∧ Within (reconfigured R C k st) lat long ∧ ∀ c ∈ inReach R lat long, Downwards c)
    (h : (updateMapping R.args fs).1 = none) (h' : (updateMapping (reconfigured R C k st).args fs).1 = none) :
    ∃ file file' : MapFile ℝ, finalFs R.args fs = Function.update fs R.savePath (some (.whole file)) ∧
      finalFs (reconfigured R C k st).args fs = Function.update fs R.savePath (some (.whole file')) ∧
      ∀ (i n : ℕ) (v : ℝ), i < R.source.length → n < R.levels → storedAt file .signal i n = some (some v) →
        ∃ v', storedAt file' .signal i n = some (some v') := by
  obtain ⟨file, a1, a2⟩ := mapped_iff R fs hi hf hw hs hpv hsort hrand hcfg hmax hno hlen hload hshape
    (fun f hm hp lat long hla hlo => (hwithin f hm hp lat long hla hlo).1) h
  obtain ⟨file', b1, b2⟩ := mapped_iff (reconfigured R C k st) fs hi hf hw hs hpv' hsort hrand hcfg' hmax' hno hlen hload hshape
    (fun f hm hp lat long hla hlo => (hwithin f hm hp lat long hla hlo).2.1) h'
  refine ⟨file, file', a1, b1, ?_⟩
  intro i n v hi' hn hv
  have hif := List.getElem?_eq_getElem hi'
  obtain ⟨hpl, lat, long, q, hla, hlo, hq⟩ := (a2 i _ n hif hn).1 ⟨v, hv⟩
  exact (b2 i _ n hif hn).2 ⟨hpl, lat, long, q, hla, hlo,
    mappable_wider R C k st hC _ lat long (hwithin _ (List.getElem_mem hi') hpl lat long hla hlo).2.2 n q hq⟩

end Verif.Props
