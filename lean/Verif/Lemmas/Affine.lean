import Verif.Props.Level
import Verif.Lemmas.Shift

/-!
# Lemmas: runs whose reference salinities are measured in another unit or with an offset
-/

set_option linter.unusedSectionVars false

namespace Verif.Lemmas.Affine

open Verif.Np Verif.Helper Verif.Region Verif.Profile Verif.Update Verif.Spec Verif.Level Verif.Saf Verif.Stats Verif.Mapping Verif.Lemmas.Shift Matrix

/-! ### One mapping -/

theorem npDiv_scale (q x t : ℝ) (hq : q ≠ 0) : npDiv x (q⁻¹ * t) = (npDiv x t).map (q * ·) := by
  unfold npDiv
  by_cases h : t = 0
  · rw [if_pos (by rw [h, mul_zero]), if_pos h]; rfl
  · rw [if_neg (mul_ne_zero (inv_ne_zero hq) h), if_neg h]
    simp only [Option.map_some, Option.some.injEq]
    field_simp

theorem npSqrt_scale (a x : ℝ) (ha : a ≠ 0) : npSqrt (a ^ 2 * x) = (npSqrt x).map (|a| * ·) := by
  unfold npSqrt
  have hq : 0 < a ^ 2 := by positivity
  by_cases h : x < 0
  · rw [if_pos (mul_neg_of_pos_of_neg hq h), if_pos h]; rfl
  · rw [if_neg (not_lt.2 (mul_nonneg hq.le (not_lt.1 h))), if_neg h]
    simp only [Option.map_some, Option.some.injEq]
    rw [Real.sqrt_mul hq.le, Real.sqrt_sq_eq_abs]

theorem mapError_scale (a s d c t : ℝ) (ha : a ≠ 0) : mapError (a ^ 2 * s) (a ^ 2 * d) c ((a ^ 2)⁻¹ * t) = (mapError s d c t).map (|a| * ·) := by
  unfold mapError
  rw [npDiv_scale _ _ _ (pow_ne_zero 2 ha)]
  cases npDiv ((1 - c) ^ 2) t with
  | none => rfl
  | some q =>
    simp only [Option.map_some, Option.bind_some]
    rw [← npSqrt_scale a _ ha]
    congr 1
    ring

/-- The results of a mapping in another unit. -/
noncomputable def scaleMapped {n : ℕ} (a b : ℝ) (m : Mapping.Mapped n) : Mapping.Mapped n :=
  ⟨m.gridSal.map (fun v => a * v + b), m.gridErr.map (|a| * ·), fun i => (m.dataSal i).map fun v => a * v + b, fun i => (m.dataErr i).map (|a| * ·)⟩

theorem mapDataGrid_affine {n : ℕ} (a b : ℝ) (ha : a ≠ 0) (sal : Fin n → ℝ) (g : Pos) (p : Fin n → Pos) (S : Scales) (s nv : ℝ) :
    mapDataGrid (fun i => a * sal i + b) g p S (a ^ 2 * s) (a ^ 2 * nv) = (mapDataGrid sal g p S s nv).map (scaleMapped a b) := by
  have hq : a ^ 2 ≠ 0 := pow_ne_zero 2 ha
  unfold mapDataGrid
  cases covarXytPv p p S with
  | error e => rfl
  | ok C =>
    simp only [bind, Except.bind]
    have hM : (a ^ 2 * s) • C + (a ^ 2 * nv) • (1 : Matrix (Fin n) (Fin n) ℝ) = a ^ 2 • (s • C + nv • (1 : Matrix (Fin n) (Fin n) ℝ)) := by
      rw [smul_add, smul_smul, smul_smul]
    rw [hM]
    generalize hMdef : s • C + nv • (1 : Matrix (Fin n) (Fin n) ℝ) = M
    by_cases hd : M.det = 0
    · rw [if_pos (by rw [det_smul, hd, mul_zero]), if_pos hd]; rfl
    rw [if_neg (by rw [det_smul]; exact mul_ne_zero (pow_ne_zero _ hq) hd), if_neg hd]
    by_cases hn : n = 0
    · rw [if_pos hn, if_pos hn]; rfl
    rw [if_neg hn, if_neg hn]
    have hinv : (a ^ 2 • M)⁻¹ = (a ^ 2)⁻¹ • M⁻¹ := by
      apply Matrix.inv_eq_left_inv
      rw [Matrix.smul_mul, Matrix.mul_smul, smul_smul, inv_mul_cancel₀ hq, one_smul, Matrix.nonsing_inv_mul _ (isUnit_iff_ne_zero.2 hd)]
    rw [hinv]
    generalize hI : M⁻¹ = I
    have htot : ∑ j, ∑ i, ((a ^ 2)⁻¹ • I) i j = (a ^ 2)⁻¹ * ∑ j, ∑ i, I i j := by
      simp only [Matrix.smul_apply, smul_eq_mul, Finset.mul_sum]
    have hnum : ∑ i, (((a ^ 2)⁻¹ • I) *ᵥ fun i => a * sal i + b) i = (a ^ 2)⁻¹ * (a * (∑ i, (I *ᵥ sal) i) + b * ∑ j, ∑ i, I i j) := by
      rw [Finset.sum_comm (f := fun j i => I i j)]
      simp only [Matrix.mulVec, dotProduct, Matrix.smul_apply, smul_eq_mul, Finset.mul_sum]
      rw [← Finset.sum_add_distrib, Finset.mul_sum]
      refine Finset.sum_congr rfl fun i _ => ?_
      rw [← Finset.sum_add_distrib, Finset.mul_sum]
      exact Finset.sum_congr rfl fun j _ => by ring
    rw [htot, hnum]
    generalize hT : ∑ j, ∑ i, I i j = T
    generalize hN : ∑ i, (I *ᵥ sal) i = N
    have hmean : npDiv ((a ^ 2)⁻¹ * (a * N + b * T)) ((a ^ 2)⁻¹ * T) = (npDiv N T).map fun v => a * v + b := by
      rw [npDiv_scale _ _ _ hq]
      unfold npDiv
      by_cases h : T = 0
      · rw [if_pos h, if_pos h]; rfl
      · rw [if_neg h, if_neg h]
        simp only [Option.map_some, Option.some.injEq]
        field_simp
    rw [hmean]
    have hw : ∀ m : ℝ, (((a ^ 2)⁻¹ • I) *ᵥ fun i => a * sal i + b - (a * m + b)) = a⁻¹ • (I *ᵥ fun i => sal i - m) := by
      intro m
      have : (fun i => a * sal i + b - (a * m + b)) = a • (fun i => sal i - m) := by
        funext i; simp only [Pi.smul_apply, smul_eq_mul]; ring
      rw [this, Matrix.mulVec_smul, Matrix.smul_mulVec, smul_smul]
      congr 1
      field_simp
    have hD : ∀ {k : ℕ} (D : Matrix (Fin k) (Fin n) ℝ) (w : Fin n → ℝ) (i : Fin k) (m : ℝ), (((a ^ 2 * s) • D) *ᵥ (a⁻¹ • w)) i + (a * m + b) = a * (((s • D) *ᵥ w) i + m) + b := by
      intro k D w i m
      rw [Matrix.mulVec_smul, Matrix.smul_mulVec, Matrix.smul_mulVec]
      simp only [Pi.smul_apply, smul_eq_mul]
      field_simp
      ring
    have hE1 : ∀ {k : ℕ} (D : Matrix (Fin k) (Fin n) ℝ), ((a ^ 2 * s) • D) * ((a ^ 2)⁻¹ • I) = (s • D) * I := by
      intro k D
      rw [Matrix.smul_mul, Matrix.mul_smul, smul_smul, Matrix.smul_mul]
      congr 1
      field_simp
    have hE2 : ∀ {k : ℕ} (D : Matrix (Fin k) (Fin n) ℝ) (i : Fin k), (((s • D) * I) * ((a ^ 2 * s) • D)ᵀ) i i = a ^ 2 * (((s • D) * I) * (s • D)ᵀ) i i := by
      intro k D i
      rw [mul_smul, Matrix.transpose_smul, Matrix.mul_smul, Matrix.smul_apply, smul_eq_mul]
    cases covarXytPv p (fun _ : Fin 1 => g) S with
    | error e => rfl
    | ok G =>
      simp only [Except.map, pure, Except.pure, scaleMapped, Except.ok.injEq]
      have hG : ∀ t : ℝ, (t • G)ᵀ = t • Gᵀ := fun t => Matrix.transpose_smul t G
      simp only [hG, hE1, hE2, mapError_scale a _ _ _ _ ha]
      cases npDiv N T with
      | none => rfl
      | some m =>
        simp only [Option.map_some, Option.bind_some, hw, hD]

/-! ### One level -/

theorem mapM_id_map {α β : Type} (f : α → β) (l : List (Option α)) : (l.map (Option.map f)).mapM id = (l.mapM id).map (List.map f) := by
  induction l with
  | nil => rfl
  | cons o l ih =>
    rw [List.map_cons, List.mapM_cons, List.mapM_cons, ih]
    cases o with
    | none => rfl
    | some x => cases l.mapM id <;> rfl

theorem signalVariance_affine (a b : ℝ) (l : List ℝ) :
    signalVariance ((l.map fun s => a * s + b).map some) = (signalVariance (l.map some)).map (a ^ 2 * ·) := by
  by_cases h : l = []
  · subst h; rfl
  · rw [signal_known _ (by simpa using h), signal_known _ h, Verif.Props.populationVariance_affine a b l h]
    rfl

/-- What a level stores, in another unit. -/
noncomputable def scaleResult (a b : ℝ) (r : LevelResult) : LevelResult :=
  ⟨r.mappedSal.map fun v => a * v + b, r.mapError.map (|a| * ·), r.noise.map (a ^ 2 * ·), a ^ 2 * r.signal⟩

theorem mapStages_affine (a b : ℝ) (ha : a ≠ 0) (c : MapConfig) (g : Pos) {n : ℕ} (sal : Fin n → ℝ) (p : Fin n → Pos) (s nv : ℝ) :
    mapStages c g (fun i => a * sal i + b) p (a ^ 2 * s) (a ^ 2 * nv) = (mapStages c g sal p s nv).map (scaleResult a b) := by
  unfold mapStages
  rw [mapDataGrid_affine a b ha]
  cases mapDataGrid sal g p (largeScales c) s nv with
  | error e => rfl
  | ok m1 =>
    simp only [Except.map, bind, Except.bind]
    have hres : (List.ofFn fun i => ((scaleMapped a b m1).dataSal i).map fun v => a * sal i + b - v) =
        (List.ofFn fun i => (m1.dataSal i).map fun v => sal i - v).map (Option.map (a * ·)) := by
      rw [List.map_ofFn]
      congr 1
      funext i
      simp only [scaleMapped, Function.comp]
      cases m1.dataSal i with
      | none => rfl
      | some v => simp only [Option.map_some, Option.some.injEq]; ring
    rw [hres, mapM_id_map]
    cases (List.ofFn fun i => (m1.dataSal i).map fun v => sal i - v).mapM id with
    | none => rfl
    | some res =>
      simp only [Option.map_some]
      have h0 : (res.map (a * ·)) = res.map fun s => a * s + 0 := by simp
      rw [h0, signalVariance_affine a 0 res]
      cases signalVariance (res.map some) with
      | error e => rfl
      | ok s2 =>
        simp only [Except.map]
        have h1 : (fun i : Fin n => (res.map fun s => a * s + 0).getD i 0) = fun i : Fin n => a * res.getD i 0 + 0 := by
          funext i
          simp only [List.getD_eq_getElem?_getD, List.getElem?_map]
          cases res[(i : ℕ)]? <;> simp
        rw [h1, mapDataGrid_affine a 0 ha]
        cases mapDataGrid (fun i : Fin n => res.getD i 0) g p (smallScales c) s2 nv with
        | error e => rfl
        | ok m2 =>
          simp only [Except.map, pure, Except.pure, Except.ok.injEq, scaleResult, scaleMapped]
          have e1 : addOpt (m1.gridSal.map fun v => a * v + b) (m2.gridSal.map fun v => a * v + 0) = (addOpt m1.gridSal m2.gridSal).map fun v => a * v + b := by
            unfold addOpt
            cases m1.gridSal <;> cases m2.gridSal <;> try rfl
            simp only [Option.map_some, bind, Option.bind_some, Option.some.injEq]
            ring
          have e2 : combineErr (m1.gridErr.map (|a| * ·)) (m2.gridErr.map (|a| * ·)) = (combineErr m1.gridErr m2.gridErr).map (|a| * ·) := by
            unfold combineErr
            cases m1.gridErr <;> cases m2.gridErr <;> try rfl
            rename_i x y
            simp only [Option.map_some, bind, Option.bind_some]
            rw [← npSqrt_scale a _ ha]
            congr 1
            rw [← sq_abs a]
            ring
          rw [e1, e2]
          rfl

theorem outliers_affine (a b : ℝ) (ha : a ≠ 0) (sal : List ℝ) (hne : sal ≠ []) (s : ℝ) : outliers (sal.map fun s => a * s + b) (a ^ 2 * s) = outliers sal s := by
  unfold outliers
  dsimp only
  rw [argwhere_comp]
  congr 1
  funext x
  have hl : (sal.length : ℝ) ≠ 0 := by
    have := List.length_pos_of_ne_nil hne
    exact_mod_cast this.ne'
  have hm : (sal.map fun s => a * s + b).sum / ((sal.map fun s => a * s + b).length : ℝ) = a * (sal.sum / (sal.length : ℝ)) + b :=
    Verif.Props.meanOf_affine a b sal hne
  have hpos : 0 < |a| := abs_pos.2 ha
  rw [hm]
  have e1 : |a * x + b - (a * (sal.sum / (sal.length : ℝ)) + b)| = |a| * |x - sal.sum / (sal.length : ℝ)| := by
    rw [← abs_mul]; congr 1; ring
  rw [e1, Real.sqrt_mul (sq_nonneg a), Real.sqrt_sq_eq_abs]
  have e2 : npDiv (|a| * |x - sal.sum / (sal.length : ℝ)|) (|a| * Real.sqrt s) = npDiv |x - sal.sum / (sal.length : ℝ)| (Real.sqrt s) := by
    unfold npDiv
    by_cases h : Real.sqrt s = 0
    · rw [if_pos (by rw [h, mul_zero]), if_pos h]
    · rw [if_neg (mul_ne_zero hpos.ne' h), if_neg h, mul_div_mul_left _ _ hpos.ne']
  rw [e2]

theorem removeOutliers_affine (a b : ℝ) (o : List ℕ) (h : HistData ℝ) :
    removeOutliers o (Verif.Props.rescale a b h) = (removeOutliers o h).map (Verif.Props.rescale a b) := by
  unfold removeOutliers
  split_ifs
  · unfold Verif.Props.rescale
    dsimp only
    rw [npDelete_comp]
    cases npDelete h.sal o <;> try rfl
    cases npDelete h.pres o <;> try rfl
    cases npDelete h.long o <;> try rfl
    cases npDelete h.lat o <;> try rfl
    cases npDelete h.dates o <;> try rfl
    cases npDelete h.z o <;> rfl
  · rfl

theorem observations_affine (a b : ℝ) (h : HistData ℝ) :
    observations (Verif.Props.rescale a b h) = (observations h).map fun o => { o with sal := o.sal.map fun s => a * s + b } := by
  unfold observations Verif.Props.rescale
  simp only [List.map_map, List.zip_map_left]
  rfl

theorem mapCasts_affine (a b : ℝ) (ha : a ≠ 0) (c : MapConfig) (f : FloatPos) (h : HistData ℝ) :
    mapCasts c f (Verif.Props.rescale a b h) = (mapCasts c f h).map fun x => (Verif.Props.rescale a b x.1, scaleResult a b x.2) := by
  by_cases hne : h.sal = []
  · unfold mapCasts
    have : (Verif.Props.rescale a b h).sal = [] := by unfold Verif.Props.rescale; simp [hne]
    rw [this, hne]
    rfl
  unfold mapCasts
  rw [show (Verif.Props.rescale a b h).sal = h.sal.map fun s => a * s + b from rfl, signalVariance_affine]
  cases signalVariance (h.sal.map some) with
  | error e => rfl
  | ok s0 =>
    simp only [Except.map, bind, Except.bind]
    rw [outliers_affine a b ha _ hne, removeOutliers_affine]
    cases removeOutliers (outliers h.sal s0) h with
    | error e => rfl
    | ok k =>
      simp only [Except.map]
      rw [observations_affine, Verif.Props.noise_variance_affine, show (Verif.Props.rescale a b k).sal = k.sal.map fun s => a * s + b from rfl, signalVariance_affine]
      cases noiseVariance (observations k) with
      | error e => rfl
      | ok nv =>
        cases signalVariance (k.sal.map some) with
        | error e => rfl
        | ok s =>
          simp only [Except.map]
          rw [show (Verif.Props.rescale a b k).lat = k.lat from rfl, show (Verif.Props.rescale a b k).long = k.long from rfl,
            show (Verif.Props.rescale a b k).dates = k.dates from rfl, show (Verif.Props.rescale a b k).z = k.z from rfl]
          cases columnStack k.lat k.long k.dates k.z with
          | error e => rfl
          | ok pos =>
            simp only [List.length_map]
            by_cases hl : k.sal.length = pos.length
            · rw [if_pos hl, if_pos hl]
              cases nv with
              | none => rfl
              | some nv =>
                simp only [Option.map_some]
                have h1 : (fun i : Fin pos.length => (k.sal.map fun s => a * s + b).getD i 0) = fun i : Fin pos.length => a * k.sal.getD i 0 + b := by
                  funext i
                  have : (i : ℕ) < k.sal.length := by have := i.2; omega
                  simp only [List.getD_eq_getElem?_getD, List.getElem?_map, List.getElem?_eq_getElem this, Option.map_some, Option.getD_some]
                rw [h1, mapStages_affine a b ha]
                cases mapStages c ⟨f.lat, f.long, f.date, f.z⟩ (fun i : Fin pos.length => k.sal.getD i 0) (fun i => pos[(i : ℕ)]) s nv <;> rfl
            · rw [if_neg hl, if_neg hl]

end Verif.Lemmas.Affine
