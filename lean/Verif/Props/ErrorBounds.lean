import Verif.Lemmas.Residual
import Verif.Props.Saved
import Verif.Props.Clean

/-!
# C173: how large a saved mapping error can be
-/

set_option linter.unusedSectionVars false

namespace Verif.Props

open Verif.Np Verif.Utilities Verif.Helper Verif.Region Verif.Profile Verif.Spec Verif.Spec.Profile Verif.Topo Verif.Finders Verif.Saf Verif.Level Verif.Update
open Verif.Lemmas.Profile

theorem sum_ofFn_sq {n : ℕ} (f : Fin n → ℝ) (a : ℝ) : ((List.ofFn f).map fun v => (v - a) ^ 2).sum = ∑ i, (f i - a) ^ 2 := by
  rw [List.map_ofFn, List.sum_ofFn]
  rfl

theorem variance_nonneg (l : List ℝ) : 0 ≤ populationVariance l := by
  unfold populationVariance
  refine div_nonneg (List.sum_nonneg ?_) (Nat.cast_nonneg _)
  intro x hx
  obtain ⟨v, -, rfl⟩ := List.mem_map.1 hx
  exact sq_nonneg _

/-- C173. The residuals of the first stage at the casts sum to zero, and their variance is at most that of the salinities. -/
theorem residual_variance (c : MapConfig) (l : List Sample) (noise : ℝ) (hn : 0 < noise) (hl : l ≠ []) (W : Fin l.length → Fin l.length → ℝ) (res : Fin l.length → ℝ)
    (hW : ∀ i, BestWeights (fieldCorrelation c.latLarge c.longLarge c.ageLarge c.phiLarge c.usePv) (populationVariance (l.map Sample.sal)) noise
      (fun i => (l.get i).pos) (l.get i).pos (W i)) (hres : ∀ i, res i = (l.get i).sal - ∑ j, W i j * (l.get j).sal) :
    ∑ i, res i = 0 ∧ populationVariance (List.ofFn res) ≤ populationVariance (l.map Sample.sal) := by
  have hpos : 0 < l.length := List.length_pos_of_ne_nil hl
  obtain ⟨h0, h1⟩ := Lemmas.Residual.residuals (largeScales c) (populationVariance (l.map Sample.sal)) noise (variance_nonneg _) hn hpos
    (fun i => toPos (l.get i).pos) (fun i => (l.get i).sal) W (fun i => (best_large c _ noise (fun i => (l.get i).pos) (l.get i).pos (W i)).2 (hW i)) res hres
  refine ⟨h0, ?_⟩
  have e : l.map Sample.sal = List.ofFn fun i => (l.get i).sal := by
    apply List.ext_getElem <;> simp
  have e1 : populationVariance (List.ofFn res) = (∑ i, res i ^ 2) / l.length := by
    unfold populationVariance
    rw [sum_ofFn_sq, List.sum_ofFn, h0, List.length_ofFn]
    simp
  have h2 := h1 ((l.map Sample.sal).sum / l.length)
  rw [e1]
  unfold populationVariance
  rw [List.length_map]
  refine div_le_div_of_nonneg_right (h2.trans (le_of_eq ?_)) (Nat.cast_nonneg _)
  rw [e, sum_ofFn_sq]

/-- C173. The error of an estimate in two stages. -/
theorem two_stage_bounds (c : MapConfig) (here : FloatPos) (l : List Sample) (noise value err : ℝ) (hn : 0 < noise) (hl : l ≠ [])
    (h : TwoStage c here l noise value err) :
    0 < err ∧ err ^ 2 ≤ 4 * populationVariance (l.map Sample.sal) + 2 * noise ∧ 2 * noise ≤ l.length * err ^ 2 := by
  obtain ⟨w1, W, res, w2, e1, e2, h1, hW, hres, h2, p1, q1, p2, q2, -, he⟩ := h
  have hpos : 0 < l.length := List.length_pos_of_ne_nil hl
  have hv := (residual_variance c l noise hn hl W res hW hres).2
  obtain ⟨a1, b1⟩ := Lemmas.Residual.best_bounds (largeScales c) _ noise (variance_nonneg (l.map Sample.sal)) hn hpos (fun i => toPos (l.get i).pos) (toPos here) w1
    ((best_large c _ noise (fun i => (l.get i).pos) here w1).2 h1)
  obtain ⟨a2, b2⟩ := Lemmas.Residual.best_bounds (smallScales c) _ noise (variance_nonneg (List.ofFn res)) hn hpos (fun i => toPos (l.get i).pos) (toPos here) w2
    ((best_small c _ noise (fun i => (l.get i).pos) here w2).2 h2)
  rw [mse_large c, ← q1] at a1 b1
  rw [mse_small c, ← q2] at a2 b2
  have hsq : err ^ 2 = e1 ^ 2 + e2 ^ 2 := by rw [he, Real.sq_sqrt (by positivity)]
  have hN : (0 : ℝ) < l.length := Nat.cast_pos.2 hpos
  refine ⟨?_, by rw [hsq]; linarith, by rw [hsq]; linarith⟩
  rw [he, Real.sqrt_pos]
  by_contra h0
  have h1 := mul_nonpos_of_nonneg_of_nonpos hN.le (not_lt.1 h0)
  linarith

theorem increasing_length (l : List ℕ) (N : ℕ) (h : l.Nodup) (hN : ∀ k ∈ l, k < N) : l.length ≤ N := by
  have := (List.subperm_of_subset h (fun k hk => List.mem_range.2 (hN k hk))).length_le
  rwa [List.length_range] at this

theorem choice_length {A : BesthistArgs} {casts : List Cast} {index : List ℕ} (h : Choice A casts index) (hm : A.maxCasts = 3 ∨ 5 ≤ A.maxCasts) :
    index.length ≤ A.maxCasts := by
  rcases Nat.lt_or_ge A.maxCasts (numInside A casts) with h1 | h1
  · exact le_of_eq (h.many hm h1).2
  · refine le_trans ?_ h1
    have hnd : index.Nodup := (h.few h1).1.imp fun h => h.ne
    rw [numInside_eq]
    exact (List.subperm_of_subset hnd fun k hk => (mem_indexEllipse A casts k).2 (h.inside k hk)).length_le

/-- C173. Wherever a run saves a mapping error, it saves the variances of noise and signal too, and these limit the error. -/
theorem saved_error_bounds (R : FloatRun) (fs : Fs ℝ) (hi : IsInterp2d R.env.interp2) (hf : R.env.topo.length = 2160 * 4320) (hw : WellFormedDisk R.env.disk)
    (hsort : IsArgsort R.env.argsort) (hrand : ValidRand R.env.rand) (hcfg : ProperConfig R.env.cfg)
    (hmax : R.env.maxCasts = 3 ∨ 5 ≤ R.env.maxCasts)
    (hno : R.no.Pairwise (· < ·)) (hlen : R.no.length = R.source.length) (hload : fs R.loadPath = none) (hrun : (updateMapping R.args fs).1 = none) :
    ∃ file : MapFile ℝ, finalFs R.args fs = Function.update fs R.savePath (some (.whole file)) ∧ file.profileNo = R.no ∧
      ∀ (i : ℕ) (f : FloatProfile) (lat long : ℝ), R.source[i]? = some f → f.lat = some lat → f.long = some long →
        (-90 ≤ lat ∧ lat ≤ 90) → (-180 ≤ long ∧ long ≤ 540) → f.sal.length = R.levels → f.ptmp.length = R.levels → f.pres.length = R.levels →
        (∀ c ∈ surrounding R.env long lat, ∀ y x : ℝ, c.lat = some y → c.long = some x → (-90 ≤ y ∧ y ≤ 90) ∧ -180 ≤ x ∧ x ≤ 360) →
        ∀ (n : ℕ) (e : ℝ), n < R.levels → storedAt file .mapErrors i n = some (some e) →
          ∃ nv V : ℝ, storedAt file .noise i n = some (some nv) ∧ storedAt file .signal i n = some (some V) ∧ 0 < nv ∧ 0 ≤ V ∧ 0 < e ∧
            e ^ 2 ≤ 4 * V + 2 * nv ∧ 2 * nv ≤ R.env.maxCasts * e ^ 2 := by
  obtain ⟨file, h1, h2, h3⟩ := saved_any R fs hi hf hw hsort hrand hcfg (by omega) hno hlen hload hrun
  obtain ⟨file', g1, -, g3⟩ := saved_missing R fs hsort hno hlen hload hrun
  have hfile : file' = file := by
    have := congrFun (g1.symm.trans h1) R.savePath
    rw [Function.update_self, Function.update_self] at this
    cases this
    rfl
  subst hfile
  refine ⟨file', h1, h2, ?_⟩
  intro i f lat long hif hla hlo hlat hlong hl0 hl1 hl2 hpos n e hn he
  have hmiss : ¬ (¬ Placed f ∨ f.sal[n]? = some none ∨ f.pres[n]? = some none ∨ ∃ q, f.pres[n]? = some (some q) ∧ q < R.env.cfg.pExclude) := by
    intro h
    obtain ⟨col, c1, c2⟩ := (g3 i f hif).1 n hn h .mapErrors
    unfold storedAt at he
    rw [c1, Option.bind_some, c2] at he
    cases he
  rw [not_or, not_or, not_or, not_not] at hmiss
  obtain ⟨hpl, hsal, hpres, hex⟩ := hmiss
  obtain ⟨s, hs'⟩ : ∃ s, f.sal[n]? = some (some s) := by
    rw [List.getElem?_eq_getElem (by omega)] at hsal ⊢
    cases h : f.sal[n] with
    | none => exact absurd (by rw [h]) hsal
    | some s => exact ⟨s, rfl⟩
  obtain ⟨q, hq⟩ : ∃ q, f.pres[n]? = some (some q) := by
    rw [List.getElem?_eq_getElem (by omega)] at hpres ⊢
    cases h : f.pres[n] with
    | none => exact absurd (by rw [h]) hpres
    | some s => exact ⟨s, rfl⟩
  have hqx : R.env.cfg.pExclude ≤ q := by
    by_contra h
    exact hex ⟨q, hq, not_le.1 h⟩
  obtain ⟨index, all, sel, kept, deep, here, there, d, bz, -, l5, -, hsel, hk, -, hS, key⟩ := h3 i f lat long hif hpl hla hlo hlat hlong (by omega) (by omega) hpos
  obtain ⟨used, u1, u2, u3, u4⟩ := key n s q hn hs' hq hqx
  have h5 : 5 < used.length := by
    by_contra h
    rw [u3 (by omega) .mapErrors] at he
    cases he
  obtain ⟨samples, nv, value, err, s1, -, s3, s4, -, -, -, s8, s9, s10⟩ := u4 h5
  have hee : err = e := by
    rw [s8] at he
    exact Option.some.inj (Option.some.inj he)
  subst hee
  have hsl : samples.length = used.length := by
    have := congrArg List.length s1
    simpa using this
  have hin : inliers samples ≠ [] := by
    have := inliers_two samples (by omega)
    intro h0
    rw [h0] at this
    simp at this
  obtain ⟨b1, b2, b3⟩ := two_stage_bounds R.env.cfg here (inliers samples) nv value err s3 hin s4
  refine ⟨nv, _, s9, s10, s3, variance_nonneg _, b1, b2, b3.trans ?_⟩
  refine mul_le_mul_of_nonneg_right (Nat.cast_le.2 ?_) (sq_nonneg _)
  have l1 : (inliers samples).length ≤ samples.length := List.length_filter_le _ _
  have l2 : used.length ≤ kept.length := by
    have := increasing_length (used.map Prod.fst) kept.length (by
        rw [List.Nodup, List.pairwise_map]
        exact u1.imp fun h => h.ne) (by
      intro k hk
      obtain ⟨⟨k', s'⟩, hm, rfl⟩ := List.mem_map.1 hk
      obtain ⟨j, c, v, r1, -⟩ := (u2 k' s').1 hm
      exact (List.getElem?_eq_some_iff.1 r1).1)
    rwa [List.length_map] at this
  have l3 : kept.length ≤ index.length := by
    rw [hk, List.length_map]
    exact (increasing_length sel all.length (hsel.ascending.imp fun h => h.ne) hsel.inside).trans l5
  obtain ⟨xs, view, -, -, -, hch⟩ := hS.chosen
  have l4 : index.length ≤ R.env.maxCasts := choice_length hch hmax
  omega

end Verif.Props
