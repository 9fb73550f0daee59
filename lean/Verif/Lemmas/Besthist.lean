import Verif.Model.Finders
import Verif.Lemmas.Np

set_option linter.unusedSectionVars false

namespace Verif.Finders

open Verif.Np Verif.Utilities

theorem findEllipse_lt_one_pv (x x0 sx y y0 sy phi q p : ℝ) (hp : p ≠ 0) (hq : q ≠ 0) :
    findEllipse x x0 sx y y0 sy phi q p < 1 ↔
      ((x - x0) / (3 * sx)) ^ 2 + ((y - y0) / (3 * sy)) ^ 2 + (p - q) ^ 2 / (p ^ 2 + q ^ 2) / phi ^ 2 < 1 := by
  have hpq : 0 < p ^ 2 + q ^ 2 := by positivity
  unfold findEllipse
  simp only
  rw [if_pos ⟨hq, hp⟩, Real.sqrt_lt' (by norm_num), div_pow (_ / _) phi, div_pow _ (Real.sqrt _), Real.sq_sqrt hpq.le,
    div_pow _ (3 * sx), div_pow _ (3 * sy), mul_comm sx, mul_comm sy, one_pow]

theorem findEllipse_lt_one_nopv (x x0 sx y y0 sy phi : ℝ) :
    findEllipse x x0 sx y y0 sy phi 0 0 < 1 ↔
      ((x - x0) / (3 * sx)) ^ 2 + ((y - y0) / (3 * sy)) ^ 2 < 1 := by
  unfold findEllipse
  simp only
  rw [if_neg (by simp), Real.sqrt_lt' (by norm_num), div_pow _ (3 * sx), div_pow _ (3 * sy), mul_comm sx, mul_comm sy,
    one_pow]
  simp

theorem indexRand_spec (n : ℕ) (us : List ℝ) (hn : 0 < n) (hu : ∀ u ∈ us, 0 ≤ u ∧ u < 1) :
    (indexRand n us).Nodup ∧ (∀ i ∈ indexRand n us, i < n) ∧ (indexRand n us).length ≤ us.length ∧
      (us ≠ [] → 0 < (indexRand n us).length) := by
  set draws : List ℤ := us.map fun (u : ℝ) =>
    let r := roundHalfEven (u * (n : ℝ) - 1)
    if r = -1 then 0 else r with hdraws
  have hb : ∀ d ∈ uniqueInt draws, 0 ≤ d ∧ d < n := by
    intro d hd
    rw [uniqueInt_mem, hdraws, List.mem_map] at hd
    obtain ⟨u, hu', rfl⟩ := hd
    obtain ⟨h0, h1⟩ := hu u hu'
    have hnR : (0 : ℝ) < n := by exact_mod_cast hn
    have hlow : (-1 : ℤ) ≤ roundHalfEven (u * (n : ℝ) - 1) := by
      apply le_roundHalfEven
      push_cast
      have : 0 ≤ u * (n : ℝ) := by positivity
      linarith
    have hup : roundHalfEven (u * (n : ℝ) - 1) ≤ (n : ℤ) - 1 := by
      apply roundHalfEven_le
      push_cast
      nlinarith
    simp only
    split_ifs <;> omega
  have hlen : (indexRand n us).length = (uniqueInt draws).length := by
    unfold indexRand; rw [List.length_map]
  refine ⟨?_, ?_, ?_, ?_⟩
  · unfold indexRand
    refine List.Nodup.map_on ?_ (uniqueInt_nodup draws)
    intro x hx y hy hxy
    have := hb x hx
    have := hb y hy
    omega
  · intro i hi
    unfold indexRand at hi
    rw [List.mem_map] at hi
    obtain ⟨d, hd, rfl⟩ := hi
    have := hb d hd
    omega
  · rw [hlen]
    have := uniqueInt_length_le draws
    rwa [hdraws, List.length_map] at this
  · intro hne
    rw [hlen]
    obtain ⟨u, us', rfl⟩ := List.exists_cons_of_ne_nil hne
    apply List.length_pos_of_mem (a := (let r := roundHalfEven (u * (n : ℝ) - 1); if r = -1 then (0 : ℤ) else r))
    rw [uniqueInt_mem, hdraws]
    simp

theorem filter_not_mem_perm (n : ℕ) (R : List ℕ) (hnd : R.Nodup) (hlt : ∀ i ∈ R, i < n) :
    (R ++ (List.range n).filter (fun i => decide (i ∉ R))).Perm (List.range n) := by
  rw [List.perm_ext_iff_of_nodup]
  · intro i
    simp only [List.mem_append, List.mem_filter, List.mem_range, decide_eq_true_eq]
    constructor
    · rintro (h | ⟨h, _⟩)
      · exact hlt i h
      · exact h
    · intro h
      by_cases hi : i ∈ R
      · exact Or.inl hi
      · exact Or.inr ⟨h, hi⟩
  · rw [List.nodup_append]
    refine ⟨hnd, (List.nodup_range).filter _, ?_⟩
    intro a ha b hb hab
    subst hab
    simp only [List.mem_filter, decide_eq_true_eq] at hb
    exact hb.2 ha
  · exact List.nodup_range

/-- What the many-casts branch computes: random part `R`, remaining casts by large-scale closeness `Z`, and those of them not
taken by small-scale closeness `T`. -/
theorem selectBest_core (A : BesthistArgs) (argsort : List (Option ℝ) → List ℕ) (hsort : IsArgsort argsort)
    (hist : List Cast) (idx : List ℕ) (us : List ℝ) (hlen : hist.length = idx.length)
    (hmc : 1 ≤ A.maxCasts) (hn : A.maxCasts < idx.length) (hus : us.length = (A.maxCasts + 2) / 3)
    (hu : ∀ u ∈ us, 0 ≤ u ∧ u < 1) (hrem : 2 * ((A.maxCasts + 2) / 3) < idx.length) :
    ∃ R Z T : List ℕ,
      selectBest A argsort hist idx us =
        (if pyTake T ((A.maxCasts : ℤ) - 2 * ((A.maxCasts + 2) / 3 : ℕ)) = [] then .error .valueError
          else .ok ((R ++ Z.take (2 * ((A.maxCasts + 2) / 3) - R.length) ++
            pyTake T ((A.maxCasts : ℤ) - 2 * ((A.maxCasts + 2) / 3 : ℕ))).map (fun i => idx[i]!))) ∧
      R.Nodup ∧ 1 ≤ R.length ∧ R.length ≤ (A.maxCasts + 2) / 3 ∧
      (R ++ Z).Perm (List.range idx.length) ∧
      T.Perm (Z.drop (2 * ((A.maxCasts + 2) / 3) - R.length)) ∧
      Z.Pairwise (fun i j => NpLe (corrLarge A hist[i]!) (corrLarge A hist[j]!)) ∧
      T.Pairwise (fun i j => NpLe (corrSmall A hist[i]!) (corrSmall A hist[j]!)) := by
  obtain ⟨hRnd, hRlt, hRle, hRpos⟩ := indexRand_spec idx.length us (by omega) hu
  set n := idx.length with hnd
  set c := (A.maxCasts + 2) / 3 with hc
  set R := indexRand n us with hR
  have hc1 : 1 ≤ c := by omega
  have husne : us ≠ [] := by intro h; rw [h] at hus; simp at hus; omega
  have hR1 := hRpos husne
  set remain := (List.range hist.length).filter (fun i => decide (i ∉ R)) with hremain
  have hremain' : remain = (List.range n).filter (fun i => decide (i ∉ R)) := by rw [hremain, hlen]
  have hRperm : (R ++ remain).Perm (List.range n) := by
    rw [hremain']; exact filter_not_mem_perm n R hRnd hRlt
  have hRl : R.length + remain.length = n := by
    have := hRperm.length_eq; simpa using this
  have hremlt : ∀ i ∈ remain, i < n := by
    intro i hi
    rw [hremain'] at hi
    simp only [List.mem_filter, List.mem_range] at hi
    exact hi.1
  -- remaining casts
  have g1 : gather hist remain = .ok (remain.map (fun i => hist[i]!)) :=
    gather_ok hist remain (fun i hi => by rw [hlen]; exact hremlt i hi)
  set remainHist := remain.map (fun i => hist[i]!) with hrh
  have hrhlen : remainHist.length = remain.length := by simp [hrh]
  have hrhne : remainHist ≠ [] := by
    intro h; rw [h] at hrhlen; simp at hrhlen; rw [← hrhlen] at hRl; simp at hRl; omega
  have v1 : vectorize (corrLarge A) remainHist = .ok (remainHist.map (corrLarge A)) := by
    unfold vectorize; rw [if_neg hrhne]
  set cl := remainHist.map (corrLarge A) with hcl
  have hcllen : cl.length = remain.length := by rw [hcl, List.length_map, hrhlen]
  obtain ⟨hp1, hs1⟩ := hsort cl
  set clS := argsort cl with hclS
  rw [hcllen] at hp1
  have hclSlt : ∀ i ∈ clS, i < remain.length := fun i hi => by
    have := hp1.mem_iff.1 hi; simpa using this
  have hclSlen : clS.length = remain.length := by simpa using hp1.length_eq
  have g2 : gather remainHist clS = .ok (clS.map (fun i => remainHist[i]!)) :=
    gather_ok _ _ (fun i hi => by rw [hrhlen]; exact hclSlt i hi)
  set zRemain := clS.map (fun i => remainHist[i]!) with hzr
  have hzrlen : zRemain.length = remain.length := by rw [hzr, List.length_map, hclSlen]
  -- Z
  set Z := clS.map (fun i => remain[i]!) with hZ
  have hZlen : Z.length = remain.length := by rw [hZ, List.length_map, hclSlen]
  have hZperm : Z.Perm remain := map_getElem!_perm remain clS hp1
  have hzrZ : zRemain = Z.map (fun i => hist[i]!) := by
    rw [hzr, hZ, List.map_map]
    apply List.map_congr_left
    intro i hi
    have hi' := hclSlt i hi
    simp only [Function.comp]
    rw [getElem!_pos remainHist i (by omega), getElem!_pos remain i hi']
    simp [hrh]
  -- lsegment2
  set l2 := 2 * c - R.length with hl2
  have hl2Z : ((c : ℤ) + c - R.length).toNat = l2 := by omega
  have hl2Z' : ((c : ℤ) + c - R.length) = (l2 : ℤ) := by omega
  set indexZ := (List.range zRemain.length).drop l2 with hindexZ
  have hizlen : indexZ.length = n - 2 * c := by
    rw [hindexZ, List.length_drop, List.length_range, hzrlen]; omega
  have hizget : ∀ k, k < indexZ.length → indexZ[k]! = l2 + k := by
    intro k hk
    rw [getElem!_pos indexZ k hk]
    simp [hindexZ]
  have g3 : gather zRemain indexZ = .ok (indexZ.map (fun i => zRemain[i]!)) := by
    apply gather_ok
    intro i hi
    have := List.mem_of_mem_drop hi
    simpa using this
  have hdropmap : indexZ.map (fun i => zRemain[i]!) = zRemain.drop l2 := by
    rw [hindexZ, List.map_drop, map_getElem!_range]
  set D := Z.drop l2 with hD
  have hDlen : D.length = n - 2 * c := by rw [hD, List.length_drop, hZlen]; omega
  have hsr : zRemain.drop l2 = D.map (fun i => hist[i]!) := by
    rw [hzrZ, hD, List.map_drop]
  have hsne : zRemain.drop l2 ≠ [] := by
    intro h
    have : (zRemain.drop l2).length = n - 2 * c := by rw [hsr, List.length_map, hDlen]
    rw [h] at this; simp at this; omega
  have v2 : vectorize (corrSmall A) (zRemain.drop l2) = .ok ((zRemain.drop l2).map (corrSmall A)) := by
    unfold vectorize; rw [if_neg hsne]
  set cs := (zRemain.drop l2).map (corrSmall A) with hcs
  have hcslen : cs.length = D.length := by rw [hcs, hsr]; simp
  obtain ⟨hp2, hs2⟩ := hsort cs
  set csS := argsort cs with hcsS
  rw [hcslen] at hp2
  have hcsSlt : ∀ i ∈ csS, i < D.length := fun i hi => by
    have := hp2.mem_iff.1 hi; simpa using this
  set T := csS.map (fun i => D[i]!) with hT
  have hTperm : T.Perm D := map_getElem!_perm D csS hp2
  -- gathers of the result
  have g4 : gather idx R = .ok (R.map (fun i => idx[i]!)) := gather_ok _ _ hRlt
  have hRmne : R.map (fun i => idx[i]!) ≠ [] := by
    intro h; have := congrArg List.length h; simp at this; rw [this] at hR1; simp at hR1
  set lo : ℤ := (A.maxCasts : ℤ) - 2 * (c : ℕ) with hlo
  have hlo' : (A.maxCasts : ℤ) - R.length - ((c : ℤ) + c - R.length) = lo := by rw [hlo]; ring
  have hmemtake : ∀ {α : Type} (l : List α) (k : ℤ), ∀ x ∈ pyTake l k, x ∈ l := by
    intro α l k x hx
    unfold pyTake at hx
    split_ifs at hx <;> exact List.mem_of_mem_take hx
  have t1 : pyTake clS ((c : ℤ) + c - R.length) = clS.take l2 := by
    rw [pyTake_nonneg _ _ (by omega), hl2Z]
  have g5 : gather remain (clS.take l2) = .ok (Z.take l2) := by
    rw [gather_ok remain _ (fun i hi => hclSlt i (List.mem_of_mem_take hi)), hZ, List.map_take]
  have hZlt : ∀ i ∈ Z, i < n := fun i hi => hremlt i (hZperm.mem_iff.1 hi)
  have g6 : gather idx (Z.take l2) = .ok ((Z.take l2).map (fun i => idx[i]!)) :=
    gather_ok _ _ (fun i hi => hZlt i (List.mem_of_mem_take hi))
  have hLne : (Z.take l2).map (fun i => idx[i]!) ≠ [] := by
    intro h
    have := congrArg List.length h
    rw [List.length_map, List.length_take, hZlen, List.length_nil] at this
    omega
  have g7 : gather indexZ (pyTake csS lo) = .ok ((pyTake csS lo).map (fun i => indexZ[i]!)) :=
    gather_ok _ _ (fun i hi => by rw [hizlen, ← hDlen]; exact hcsSlt i (hmemtake _ _ i hi))
  have e7 : (pyTake csS lo).map (fun i => indexZ[i]!) = (pyTake csS lo).map (fun i => l2 + i) := by
    apply List.map_congr_left
    intro i hi
    exact hizget i (by rw [hizlen, ← hDlen]; exact hcsSlt i (hmemtake _ _ i hi))
  have g8 : gather clS ((pyTake csS lo).map (fun i => l2 + i)) =
      .ok ((pyTake csS lo).map (fun i => clS[l2 + i]!)) := by
    rw [gather_ok]
    · rw [List.map_map]; rfl
    · intro i hi
      rw [List.mem_map] at hi
      obtain ⟨k, hk, rfl⟩ := hi
      have := hcsSlt k (hmemtake _ _ k hk)
      omega
  have g9 : gather remain ((pyTake csS lo).map (fun i => clS[l2 + i]!)) = .ok (pyTake T lo) := by
    rw [gather_ok]
    · rw [hT, ← pyTake_map, List.map_map]
      congr 1
      apply List.map_congr_left
      intro k hk
      have hk' := hcsSlt k (hmemtake _ _ k hk)
      simp only [Function.comp]
      rw [getElem!_pos D k hk']
      simp only [hD, List.getElem_drop, hZ, List.getElem_map]
      rw [getElem!_pos clS (l2 + k) (by omega)]
    · intro i hi
      rw [List.mem_map] at hi
      obtain ⟨k, hk, rfl⟩ := hi
      have := hcsSlt k (hmemtake _ _ k hk)
      rw [getElem!_pos clS (l2 + k) (by omega)]
      exact hclSlt _ (List.getElem_mem _)
  have hTlt : ∀ i ∈ T, i < n := fun i hi => hZlt i (List.mem_of_mem_drop (hTperm.mem_iff.1 hi))
  have g10 : gather idx (pyTake T lo) = .ok ((pyTake T lo).map (fun i => idx[i]!)) :=
    gather_ok _ _ (fun i hi => hTlt i (hmemtake _ _ i hi))
  refine ⟨R, Z, T, ?_, hRnd, hR1, by rw [← hus]; exact hRle, ?_, hTperm, ?_, ?_⟩
  · unfold selectBest
    simp only [← hnd, ← hc, ← hR, ← hremain, g1, bind, Except.bind, v1, ← hclS, g2, hl2Z, ← hindexZ, g3, hdropmap, v2,
      ← hcsS, g4, concat1, if_neg hRmne, t1, g5, g6, if_neg hLne, hlo', g7, e7, g8, g9, g10, pure, Except.pure]
    by_cases hT0 : pyTake T lo = []
    · simp [hT0]
    · have : (pyTake T lo).map (fun i => idx[i]!) ≠ [] := by simpa using hT0
      simp only [if_neg this, if_neg hT0]
      simp [hl2]
  · exact (List.Perm.append_left R hZperm).trans hRperm
  · rw [hZ, List.pairwise_map]
    refine hs1.imp_of_mem ?_
    intro i j hi hj hij
    have hi' := hclSlt i hi
    have hj' := hclSlt j hj
    have := hij (corrLarge A hist[remain[i]]!) (corrLarge A hist[remain[j]]!)
      (by rw [hcl, hrh]; simp [hi']) (by rw [hcl, hrh]; simp [hj'])
    rwa [getElem!_pos remain i hi', getElem!_pos remain j hj']
  · rw [hT, List.pairwise_map]
    refine hs2.imp_of_mem ?_
    intro i j hi hj hij
    have hi' := hcsSlt i hi
    have hj' := hcsSlt j hj
    have := hij (corrSmall A hist[D[i]]!) (corrSmall A hist[D[j]]!)
      (by rw [hcs, hsr]; simp [hi']) (by rw [hcs, hsr]; simp [hj'])
    rwa [getElem!_pos D i hi', getElem!_pos D j hj']

/-- With no cast left for the small scale, the correlation of an empty array is asked for. -/
theorem selectBest_none_left (A : BesthistArgs) (argsort : List (Option ℝ) → List ℕ) (hsort : IsArgsort argsort)
    (hist : List Cast) (idx : List ℕ) (us : List ℝ) (hlen : hist.length = idx.length) (hn : 0 < idx.length)
    (hus : us.length = (A.maxCasts + 2) / 3) (hu : ∀ u ∈ us, 0 ≤ u ∧ u < 1)
    (hrem : idx.length ≤ 2 * ((A.maxCasts + 2) / 3)) :
    selectBest A argsort hist idx us = .error .valueError := by
  obtain ⟨hRnd, hRlt, hRle, -⟩ := indexRand_spec idx.length us hn hu
  set n := idx.length with hnd
  set c := (A.maxCasts + 2) / 3 with hc
  set R := indexRand n us with hR
  set remain := (List.range hist.length).filter (fun i => decide (i ∉ R)) with hremain
  have hremain' : remain = (List.range n).filter (fun i => decide (i ∉ R)) := by rw [hremain, hlen]
  have hRperm : (R ++ remain).Perm (List.range n) := by
    rw [hremain']; exact filter_not_mem_perm n R hRnd hRlt
  have hRl : R.length + remain.length = n := by
    have := hRperm.length_eq; simpa using this
  have hremlt : ∀ i ∈ remain, i < n := by
    intro i hi
    rw [hremain'] at hi
    simp only [List.mem_filter, List.mem_range] at hi
    exact hi.1
  have g1 : gather hist remain = .ok (remain.map (fun i => hist[i]!)) :=
    gather_ok hist remain (fun i hi => by rw [hlen]; exact hremlt i hi)
  set remainHist := remain.map (fun i => hist[i]!) with hrh
  have hrhlen : remainHist.length = remain.length := by simp [hrh]
  by_cases hrhne : remainHist = []
  · unfold selectBest
    simp only [← hnd, ← hc, ← hR, ← hremain, g1, bind, Except.bind, vectorize, if_pos hrhne]
  · have v1 : vectorize (corrLarge A) remainHist = .ok (remainHist.map (corrLarge A)) := by
      unfold vectorize; rw [if_neg hrhne]
    obtain ⟨hp1, -⟩ := hsort (remainHist.map (corrLarge A))
    have hclSlen : (argsort (remainHist.map (corrLarge A))).length = remain.length := by
      have := hp1.length_eq
      simpa [hrhlen] using this
    have g2 := gather_ok remainHist (argsort (remainHist.map (corrLarge A))) (fun i hi => by
      have := hp1.mem_iff.1 hi; simpa using this)
    have hd : (List.range (List.map (fun i => remainHist[i]!) (argsort (remainHist.map (corrLarge A)))).length).drop
        ((c : ℤ) + c - R.length).toNat = [] := by
      apply List.drop_eq_nil_of_le
      rw [List.length_range, List.length_map, hclSlen]
      omega
    unfold selectBest
    have g3 : ∀ l : List Cast, gather l [] = .ok [] := fun _ => rfl
    have v2 : vectorize (corrSmall A) [] = .error .valueError := rfl
    simp only [← hnd, ← hc, ← hR, ← hremain, g1, bind, Except.bind, v1, g2, hd, g3, v2]

end Verif.Finders
