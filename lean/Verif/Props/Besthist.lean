import Verif.Lemmas.Besthist
import Verif.Props.Utilities
import Verif.Spec.Finders

/-!
# Properties of `find_ellipse` and `find_besthist` (C10 - C14)
-/

namespace Verif.Props

open Verif.Np Verif.Utilities Verif.Finders Verif.Spec

/-- The membership test of the code is the ellipse of the specification. -/
theorem inside_iff_inEllipse (A : BesthistArgs) (c : Cast) : inside A c = true ↔ InEllipse A c := by
  unfold inside ellipseOf InEllipse pvFloat pvHist pvOf
  rcases c with ⟨lo, la, da, zz⟩
  cases lo with
  | none => simp
  | some x =>
    cases la with
    | none => simp
    | some y =>
      by_cases hpv : A.mapPvUse = 1
      · cases zz with
        | none => by_cases hA : A.z = 0 <;> simp [hpv, hA]
        | some z =>
          by_cases hA : A.z = 0
          · simp [hpv, hA]
          · by_cases hz : z = 0
            · simp [hpv, hA, hz]
            · simp [hpv, hA, hz, findEllipse_lt_one_pv _ _ _ _ _ _ _ _ _ (potential_vorticity_ne_zero A.lat A.z)
                (potential_vorticity_ne_zero y z)]
      · simp [hpv, findEllipse_lt_one_nopv]

theorem numInside_eq (A : BesthistArgs) (casts : List Cast) :
    numInside A casts = (indexEllipse A casts).length := by
  unfold numInside indexEllipse
  rw [argwhere_length]
  congr 1
  funext c
  by_cases h : InEllipse A c
  · simp [h, (inside_iff_inEllipse A c).2 h]
  · have : inside A c ≠ true := fun h' => h ((inside_iff_inEllipse A c).1 h')
    simp [h, this]

theorem mem_indexEllipse (A : BesthistArgs) (casts : List Cast) (i : ℕ) :
    i ∈ indexEllipse A casts ↔ ∃ c, casts[i]? = some c ∧ InEllipse A c := by
  unfold indexEllipse
  rw [argwhere_mem]
  simp only [inside_iff_inEllipse]

theorem not_zeroDepth {A : BesthistArgs} {casts : List Cast} (hz : A.mapPvUse = 1 → ∀ c ∈ casts, c.z ≠ some 0) :
    ¬ zeroDepth A casts := fun ⟨h1, c, hc, h2⟩ => hz h1 c hc h2

/-- A zero depth among the historical casts makes `find_besthist` fail when the potential vorticity is used. -/
theorem besthist_zero_depth_fails (A : BesthistArgs) (argsort : List (Option ℝ) → List ℕ) (rand : ℕ → ℕ → List ℝ)
    (casts : List Cast) (hpv : A.mapPvUse = 1) (c : Cast) (hc : c ∈ casts) (hz : c.z = some 0) :
    findBesthist A argsort rand casts = .error .zeroDivision := by
  unfold findBesthist
  rw [if_neg (List.ne_nil_of_mem hc), if_pos ⟨hpv, c, hc, hz⟩]

theorem findBesthist_many (A : BesthistArgs) (argsort : List (Option ℝ) → List ℕ) (rand : ℕ → ℕ → List ℝ)
    (casts : List Cast) (hz : A.mapPvUse = 1 → ∀ c ∈ casts, c.z ≠ some 0)
    (h : A.maxCasts < numInside A casts) :
    findBesthist A argsort rand casts =
      selectBest A argsort ((indexEllipse A casts).map (fun i => casts[i]!)) (indexEllipse A casts)
        (rand (indexEllipse A casts).length ((A.maxCasts + 2) / 3)) := by
  rw [numInside_eq] at h
  have hne : casts ≠ [] := by
    rintro rfl; simp [indexEllipse, argwhere, argwhereFrom] at h
  unfold findBesthist
  rw [if_neg hne, if_neg (not_zeroDepth hz)]
  simp only
  rw [gather_ok casts (indexEllipse A casts) (fun i hi => argwhere_lt _ _ _ hi)]
  simp only [bind, Except.bind]
  rw [if_pos h]

/-! ## C11 few casts -/

/-- C11. At most `max_casts` casts in the ellipse: all of them, ascending, no random choice. -/
theorem besthist_few_returns_all (A : BesthistArgs) (argsort : List (Option ℝ) → List ℕ) (rand : ℕ → ℕ → List ℝ)
    (casts : List Cast) (hne : casts ≠ []) (hz : A.mapPvUse = 1 → ∀ c ∈ casts, c.z ≠ some 0)
    (h : numInside A casts ≤ A.maxCasts) :
    ∃ out, findBesthist A argsort rand casts = .ok out ∧ out.Pairwise (· < ·) ∧
      ∀ i, i ∈ out ↔ ∃ c, casts[i]? = some c ∧ InEllipse A c := by
  rw [numInside_eq] at h
  refine ⟨indexEllipse A casts, ?_, argwhere_sorted _ _, mem_indexEllipse A casts⟩
  unfold findBesthist
  rw [if_neg hne, if_neg (not_zeroDepth hz)]
  simp only
  rw [gather_ok casts (indexEllipse A casts) (fun i hi => argwhere_lt _ _ _ hi)]
  simp only [bind, Except.bind]
  rw [if_neg (by omega)]

/-! ## C10 membership -/

theorem pyTake_mem {α : Type} (l : List α) (k : ℤ) (x : α) (hx : x ∈ pyTake l k) : x ∈ l := by
  unfold pyTake at hx
  split_ifs at hx <;> exact List.mem_of_mem_take hx

/-- C10. Every index returned is that of a cast in the ellipse, whatever the random numbers and the sort do, for every
`max_casts ≥ 1`. -/
theorem besthist_only_inside (A : BesthistArgs) (argsort : List (Option ℝ) → List ℕ) (hsort : IsArgsort argsort)
    (rand : ℕ → ℕ → List ℝ) (hrand : ValidRand rand) (casts : List Cast) (hmc : 1 ≤ A.maxCasts) (out : List ℕ)
    (hout : findBesthist A argsort rand casts = .ok out) :
    ∀ i ∈ out, ∃ c, casts[i]? = some c ∧ InEllipse A c := by
  intro i hi
  rw [← mem_indexEllipse]
  by_cases hz : A.mapPvUse = 1 → ∀ c ∈ casts, c.z ≠ some 0
  swap
  · push Not at hz
    obtain ⟨hpv, c, hc, h0⟩ := hz
    rw [besthist_zero_depth_fails A argsort rand casts hpv c hc h0] at hout
    simp at hout
  by_cases hm : A.maxCasts < numInside A casts
  · rw [findBesthist_many A argsort rand casts hz hm] at hout
    rw [numInside_eq] at hm
    set idx := indexEllipse A casts
    obtain ⟨hr1, hr2⟩ := hrand idx.length ((A.maxCasts + 2) / 3)
    by_cases hrem : 2 * ((A.maxCasts + 2) / 3) < idx.length
    · obtain ⟨R, Z, T, he, _, _, _, hp, hT, _⟩ := selectBest_core A argsort hsort (idx.map (fun i => casts[i]!)) idx _
        (by simp) hmc hm hr1 hr2 hrem
      rw [he] at hout
      split_ifs at hout with h0
      simp only [Except.ok.injEq] at hout
      subst hout
      simp only [List.map_append, List.mem_append, List.mem_map] at hi
      have hlt : ∀ j, j ∈ R ∨ j ∈ Z → j < idx.length := by
        intro j hj
        have : j ∈ R ++ Z := by simpa using hj
        simpa using hp.mem_iff.1 this
      have hget : ∀ j, j < idx.length → idx[j]! ∈ idx := fun j hj => by
        rw [getElem!_pos idx j hj]; exact List.getElem_mem hj
      rcases hi with (⟨j, hj, rfl⟩ | ⟨j, hj, rfl⟩) | ⟨j, hj, rfl⟩
      · exact hget j (hlt j (Or.inl hj))
      · exact hget j (hlt j (Or.inr (List.mem_of_mem_take hj)))
      · exact hget j (hlt j (Or.inr (List.mem_of_mem_drop (hT.mem_iff.1 (pyTake_mem _ _ _ hj)))))
    · -- one cast wanted, two found: the code fails
      exfalso
      rw [selectBest_none_left A argsort hsort (idx.map (fun i => casts[i]!)) idx _ (by simp) (by omega) hr1 hr2
        (by omega)] at hout
      exact absurd hout (by simp)
  · by_cases hne : casts = []
    · subst hne
      simp [findBesthist] at hout
    · obtain ⟨out', h1, _, h3⟩ := besthist_few_returns_all A argsort rand casts hne hz (by omega)
      rw [h1] at hout
      simp only [Except.ok.injEq] at hout
      subst hout
      rw [mem_indexEllipse, ← h3]; exact hi

/-! ## C12 size -/

theorem besthist_many_structure (A : BesthistArgs) (argsort : List (Option ℝ) → List ℕ) (hsort : IsArgsort argsort)
    (rand : ℕ → ℕ → List ℝ) (hrand : ValidRand rand) (casts : List Cast)
    (hz : A.mapPvUse = 1 → ∀ c ∈ casts, c.z ≠ some 0) (hmc : A.maxCasts = 3 ∨ 5 ≤ A.maxCasts) (hm : A.maxCasts < numInside A casts) :
    ∃ R Z T : List ℕ,
      findBesthist A argsort rand casts = .ok ((R ++ Z.take (2 * ((A.maxCasts + 2) / 3) - R.length) ++
            T.take (A.maxCasts - 2 * ((A.maxCasts + 2) / 3))).map (fun i => (indexEllipse A casts)[i]!)) ∧
      R.Nodup ∧ 1 ≤ R.length ∧ R.length ≤ (A.maxCasts + 2) / 3 ∧
      (R ++ Z).Perm (List.range (indexEllipse A casts).length) ∧
      T.Perm (Z.drop (2 * ((A.maxCasts + 2) / 3) - R.length)) ∧
      Z.Pairwise (fun i j => NpLe (corrLarge A casts[(indexEllipse A casts)[i]!]!)
        (corrLarge A casts[(indexEllipse A casts)[j]!]!)) ∧
      T.Pairwise (fun i j => NpLe (corrSmall A casts[(indexEllipse A casts)[i]!]!)
        (corrSmall A casts[(indexEllipse A casts)[j]!]!)) := by
  rw [findBesthist_many A argsort rand casts hz hm]
  rw [numInside_eq] at hm
  set idx := indexEllipse A casts
  obtain ⟨hr1, hr2⟩ := hrand idx.length ((A.maxCasts + 2) / 3)
  obtain ⟨R, Z, T, he, h1, h2, h3, h4, h5, h6, h7⟩ := selectBest_core A argsort hsort
    (idx.map (fun i => casts[i]!)) idx _ (by simp) (by omega) hm hr1 hr2 (by omega)
  have hlen4 := h4.length_eq
  have hlen5 := h5.length_eq
  simp only [List.length_append, List.length_range, List.length_drop] at hlen4 hlen5
  have hlo : pyTake T ((A.maxCasts : ℤ) - 2 * ((A.maxCasts + 2) / 3 : ℕ)) =
      T.take (A.maxCasts - 2 * ((A.maxCasts + 2) / 3)) := by
    rw [pyTake_nonneg _ _ (by omega)]
    congr 1; omega
  rw [hlo] at he
  have hne : T.take (A.maxCasts - 2 * ((A.maxCasts + 2) / 3)) ≠ [] := by
    intro h
    have := congrArg List.length h
    rw [List.length_take, List.length_nil] at this
    omega
  rw [if_neg hne] at he
  have hget : ∀ i, i < idx.length → (idx.map (fun i => casts[i]!))[i]! = casts[idx[i]!]! := by
    intro i hi
    rw [getElem!_pos _ i (by simpa using hi), getElem!_pos idx i hi]
    simp
  have hZlt : ∀ i ∈ Z, i < idx.length := fun i hi => by
    have : i ∈ R ++ Z := by simp [hi]
    simpa using h4.mem_iff.1 this
  refine ⟨R, Z, T, he, h1, h2, h3, h4, h5, h6.imp_of_mem ?_, h7.imp_of_mem ?_⟩
  · intro i j hi hj h
    rwa [hget i (hZlt i hi), hget j (hZlt j hj)] at h
  · intro i j hi hj h
    rwa [hget i (hZlt i (List.mem_of_mem_drop (h5.mem_iff.1 hi))),
      hget j (hZlt j (List.mem_of_mem_drop (h5.mem_iff.1 hj)))] at h

theorem subperm_nodup {l l' : List ℕ} (h : l.Subperm l') (hn : l'.Nodup) : l.Nodup := by
  obtain ⟨m, hm, hs⟩ := h
  exact hm.nodup_iff.1 (hn.sublist hs)

theorem structure_subperm (R Z T : List ℕ) (n l lo : ℕ) (hp : (R ++ Z).Perm (List.range n))
    (hT : T.Perm (Z.drop l)) : (R ++ Z.take l ++ T.take lo).Subperm (List.range n) := by
  have h1 : (R ++ Z.take l ++ T.take lo).Subperm (R ++ Z.take l ++ T) :=
    (List.Sublist.append_left (List.take_sublist lo T) _).subperm
  have h2 : (R ++ Z.take l ++ T).Perm (R ++ Z) := by
    refine (List.Perm.append_left _ hT).trans ?_
    rw [List.append_assoc, List.take_append_drop]
  exact h1.trans (h2.trans hp).subperm

/-- C12. More casts than `max_casts` (3 or at least 5) in the ellipse: exactly `max_casts` indices, all different, for every
outcome of the random generator and of the sort. -/
theorem besthist_many_exact_size (A : BesthistArgs) (argsort : List (Option ℝ) → List ℕ) (hsort : IsArgsort argsort)
    (rand : ℕ → ℕ → List ℝ) (hrand : ValidRand rand) (casts : List Cast)
    (hz : A.mapPvUse = 1 → ∀ c ∈ casts, c.z ≠ some 0) (hmc : A.maxCasts = 3 ∨ 5 ≤ A.maxCasts) (hm : A.maxCasts < numInside A casts) :
    ∃ out, findBesthist A argsort rand casts = .ok out ∧ out.length = A.maxCasts ∧ out.Nodup := by
  obtain ⟨R, Z, T, he, h1, h2, h3, h4, h5, _, _⟩ :=
    besthist_many_structure A argsort hsort rand hrand casts hz hmc hm
  rw [numInside_eq] at hm
  have hlen4 := h4.length_eq
  have hlen5 := h5.length_eq
  simp only [List.length_append, List.length_range, List.length_drop] at hlen4 hlen5
  refine ⟨_, he, ?_, ?_⟩
  · simp only [List.length_map, List.length_append, List.length_take]
    omega
  · have hsub := structure_subperm R Z T _ (2 * ((A.maxCasts + 2) / 3) - R.length)
      (A.maxCasts - 2 * ((A.maxCasts + 2) / 3)) h4 h5
    refine List.Nodup.map_on ?_ (subperm_nodup hsub List.nodup_range)
    intro x hx y hy hxy
    have hx' : x < (indexEllipse A casts).length := by simpa using hsub.subset hx
    have hy' : y < (indexEllipse A casts).length := by simpa using hsub.subset hy
    rw [getElem!_pos _ x hx', getElem!_pos _ y hy'] at hxy
    exact (List.Nodup.getElem_inj_iff (argwhere_nodup _ _)).1 hxy

/-! ## C13 closeness -/

theorem npLe_iff_closer (a b : Option ℝ) : NpLe a b ↔ Closer a b := by
  cases a <;> cases b <;> simp [NpLe, Closer]

theorem corrLarge_nopv (A : BesthistArgs) (hpv : A.mapPvUse ≠ 1) (c : Cast) :
    corrLarge A c = distance A A.longLarge A.latLarge A.ageLarge c := by
  unfold corrLarge distance pvFloat pvHist spatialCorrelation
  rw [if_neg hpv, if_neg hpv]
  rcases c with ⟨_ | x, _ | y, _ | t, z⟩ <;> simp [div_pow]

theorem corrSmall_nopv (A : BesthistArgs) (hpv : A.mapPvUse ≠ 1) (c : Cast) :
    corrSmall A c = distance A A.longSmall A.latSmall A.ageSmall c := by
  unfold corrSmall distance pvFloat pvHist spatialCorrelation
  rw [if_neg hpv, if_neg hpv]
  rcases c with ⟨_ | x, _ | y, _ | t, z⟩ <;> simp [div_pow]

theorem pairwise_take_drop {r : ℕ → ℕ → Prop} (l : List ℕ) (k : ℕ) (h : l.Pairwise r) :
    ∀ i ∈ l.take k, ∀ j ∈ l.drop k, r i j := by
  rw [← List.take_append_drop k l, List.pairwise_append] at h
  exact h.2.2

theorem besthist_closest_aux (A : BesthistArgs) (argsort : List (Option ℝ) → List ℕ) (hsort : IsArgsort argsort)
    (rand : ℕ → ℕ → List ℝ) (hrand : ValidRand rand) (casts : List Cast)
    (hz : A.mapPvUse = 1 → ∀ c ∈ casts, c.z ≠ some 0) (hmc : A.maxCasts = 3 ∨ 5 ≤ A.maxCasts) (hm : A.maxCasts < numInside A casts) :
    ∃ R L S : List ℕ, findBesthist A argsort rand casts = .ok (R ++ L ++ S) ∧
      1 ≤ R.length ∧ R.length ≤ (A.maxCasts + 2) / 3 ∧ R.length + L.length = 2 * ((A.maxCasts + 2) / 3) ∧
      R.length + L.length + S.length = A.maxCasts ∧
      (∀ i ∈ L, ∀ j cj, casts[j]? = some cj → InEllipse A cj → j ∉ R → j ∉ L →
        Closer (corrLarge A casts[i]!) (corrLarge A cj)) ∧
      (∀ i ∈ S, ∀ j cj, casts[j]? = some cj → InEllipse A cj → j ∉ R → j ∉ L → j ∉ S →
        Closer (corrSmall A casts[i]!) (corrSmall A cj)) := by
  obtain ⟨R, Z, T, he, h1, h2, h3, h4, h5, h6, h7⟩ :=
    besthist_many_structure A argsort hsort rand hrand casts hz hmc hm
  rw [numInside_eq] at hm
  set idx := indexEllipse A casts
  set c := (A.maxCasts + 2) / 3
  have hlen4 := h4.length_eq
  have hlen5 := h5.length_eq
  simp only [List.length_append, List.length_range, List.length_drop] at hlen4 hlen5
  rw [List.map_append, List.map_append] at he
  have key : ∀ j cj, casts[j]? = some cj → InEllipse A cj → ∃ k, k ∈ R ++ Z ∧ idx[k]! = j ∧ casts[idx[k]!]! = cj := by
    intro j cj hj hin
    have hmem : j ∈ idx := (mem_indexEllipse A casts j).2 ⟨cj, hj, hin⟩
    obtain ⟨k, hk, hkj⟩ := List.mem_iff_getElem.1 hmem
    refine ⟨k, h4.mem_iff.2 (by simpa using hk), by rw [getElem!_pos idx k hk, hkj], ?_⟩
    rw [getElem!_pos idx k hk, hkj]
    obtain ⟨hlt, hval⟩ := List.getElem?_eq_some_iff.1 hj
    rw [getElem!_pos casts j hlt, hval]
  have hsplit : ∀ k, k ∈ Z → k ∈ Z.take (2 * c - R.length) ∨ k ∈ Z.drop (2 * c - R.length) := by
    intro k hk
    rw [← List.take_append_drop (2 * c - R.length) Z, List.mem_append] at hk
    exact hk
  have hTsplit : ∀ k, k ∈ T → k ∈ T.take (A.maxCasts - 2 * c) ∨ k ∈ T.drop (A.maxCasts - 2 * c) := by
    intro k hk
    rw [← List.take_append_drop (A.maxCasts - 2 * c) T, List.mem_append] at hk
    exact hk
  refine ⟨_, _, _, he, by simpa using h2, by simpa using h3, ?_, ?_, ?_, ?_⟩
  · simp only [List.length_map, List.length_take]; omega
  · simp only [List.length_map, List.length_take]; omega
  · intro i hi j cj hj hin hjR hjL
    obtain ⟨k, hk, hkj, hkc⟩ := key j cj hj hin
    obtain ⟨i', hi', rfl⟩ := List.mem_map.1 hi
    rw [List.mem_append] at hk
    rcases hk with hk | hk
    · exact absurd (List.mem_map.2 ⟨k, hk, hkj⟩) hjR
    rcases hsplit k hk with hk | hk
    · exact absurd (List.mem_map.2 ⟨k, hk, hkj⟩) hjL
    have := pairwise_take_drop Z _ h6 i' hi' k hk
    rw [hkc] at this
    exact (npLe_iff_closer _ _).1 this
  · intro i hi j cj hj hin hjR hjL hjS
    obtain ⟨k, hk, hkj, hkc⟩ := key j cj hj hin
    obtain ⟨i', hi', rfl⟩ := List.mem_map.1 hi
    rw [List.mem_append] at hk
    rcases hk with hk | hk
    · exact absurd (List.mem_map.2 ⟨k, hk, hkj⟩) hjR
    rcases hsplit k hk with hk | hk
    · exact absurd (List.mem_map.2 ⟨k, hk, hkj⟩) hjL
    rcases hTsplit k (h5.mem_iff.2 hk) with hk | hk
    · exact absurd (List.mem_map.2 ⟨k, hk, hkj⟩) hjS
    have := pairwise_take_drop T _ h7 i' hi' k hk
    rw [hkc] at this
    exact (npLe_iff_closer _ _).1 this

/-- C13 without the PV constraint (missing: with it the property is false, see `besthist_pv_closeness_ignores_float`). The
result is a random part `R` of at most a third, then casts `L` up to two thirds, then casts `S`; every cast in `L` is at
least as close (large scales) as any cast of the ellipse outside `R` and `L`; every cast in `S` is at least as close (small
scales) as any cast of the ellipse left out. -/
theorem besthist_closest_partial (A : BesthistArgs) (hpv : A.mapPvUse ≠ 1)
    (argsort : List (Option ℝ) → List ℕ) (hsort : IsArgsort argsort)
    (rand : ℕ → ℕ → List ℝ) (hrand : ValidRand rand) (casts : List Cast)
    (hmc : A.maxCasts = 3 ∨ 5 ≤ A.maxCasts) (hm : A.maxCasts < numInside A casts) :
    ∃ R L S : List ℕ, findBesthist A argsort rand casts = .ok (R ++ L ++ S) ∧
      1 ≤ R.length ∧ R.length ≤ (A.maxCasts + 2) / 3 ∧ R.length + L.length = 2 * ((A.maxCasts + 2) / 3) ∧
      R.length + L.length + S.length = A.maxCasts ∧
      (∀ i ∈ L, ∀ j cj, casts[j]? = some cj → InEllipse A cj → j ∉ R → j ∉ L →
        Closer (distance A A.longLarge A.latLarge A.ageLarge casts[i]!)
          (distance A A.longLarge A.latLarge A.ageLarge cj)) ∧
      (∀ i ∈ S, ∀ j cj, casts[j]? = some cj → InEllipse A cj → j ∉ R → j ∉ L → j ∉ S →
        Closer (distance A A.longSmall A.latSmall A.ageSmall casts[i]!)
          (distance A A.longSmall A.latSmall A.ageSmall cj)) := by
  obtain ⟨R, L, S, h⟩ := besthist_closest_aux A argsort hsort rand hrand casts (fun h => absurd h hpv) hmc hm
  simp only [corrLarge_nopv A hpv, corrSmall_nopv A hpv] at h
  exact ⟨R, L, S, h⟩

theorem corrLarge_pv (A : BesthistArgs) (hpv : A.mapPvUse = 1) (hphi : A.phiLarge ≠ 0) (c : Cast) :
    corrLarge A c = distanceUsed A A.longLarge A.latLarge A.ageLarge A.phiLarge c := by
  unfold corrLarge distanceUsed distance pvFloat pvHist pvOf spatialCorrelation
  rw [if_pos hpv, if_pos hpv]
  have hA := potential_vorticity_ne_zero A.lat A.z
  rcases c with ⟨_ | x, _ | y, _ | t, _ | z⟩ <;> simp [div_pow]
  by_cases h1 : A.z = 0 <;> by_cases h2 : z = 0 <;> simp [h1, h2, hA, hphi]
  rw [Real.sq_sqrt (by positivity)]

theorem corrSmall_pv (A : BesthistArgs) (hpv : A.mapPvUse = 1) (hphi : A.phiSmall ≠ 0) (c : Cast) :
    corrSmall A c = distanceUsed A A.longSmall A.latSmall A.ageSmall A.phiSmall c := by
  unfold corrSmall distanceUsed distance pvFloat pvHist pvOf spatialCorrelation
  rw [if_pos hpv, if_pos hpv]
  have hA := potential_vorticity_ne_zero A.lat A.z
  rcases c with ⟨_ | x, _ | y, _ | t, _ | z⟩ <;> simp [div_pow]
  by_cases h1 : A.z = 0 <;> by_cases h2 : z = 0 <;> simp [h1, h2, hA, hphi]
  rw [Real.sq_sqrt (by positivity)]

/-- C13 with the PV constraint: the same with the distance used instead of the one documented. -/
theorem besthist_closest_pv (A : BesthistArgs) (hpv : A.mapPvUse = 1) (hpl : A.phiLarge ≠ 0) (hps : A.phiSmall ≠ 0)
    (argsort : List (Option ℝ) → List ℕ) (hsort : IsArgsort argsort)
    (rand : ℕ → ℕ → List ℝ) (hrand : ValidRand rand) (casts : List Cast) (hz : ∀ c ∈ casts, c.z ≠ some 0)
    (hmc : A.maxCasts = 3 ∨ 5 ≤ A.maxCasts) (hm : A.maxCasts < numInside A casts) :
    ∃ R L S : List ℕ, findBesthist A argsort rand casts = .ok (R ++ L ++ S) ∧
      1 ≤ R.length ∧ R.length ≤ (A.maxCasts + 2) / 3 ∧ R.length + L.length = 2 * ((A.maxCasts + 2) / 3) ∧
      R.length + L.length + S.length = A.maxCasts ∧
      (∀ i ∈ L, ∀ j cj, casts[j]? = some cj → InEllipse A cj → j ∉ R → j ∉ L →
        Closer (distanceUsed A A.longLarge A.latLarge A.ageLarge A.phiLarge casts[i]!)
          (distanceUsed A A.longLarge A.latLarge A.ageLarge A.phiLarge cj)) ∧
      (∀ i ∈ S, ∀ j cj, casts[j]? = some cj → InEllipse A cj → j ∉ R → j ∉ L → j ∉ S →
        Closer (distanceUsed A A.longSmall A.latSmall A.ageSmall A.phiSmall casts[i]!)
          (distanceUsed A A.longSmall A.latSmall A.ageSmall A.phiSmall cj)) := by
  obtain ⟨R, L, S, h⟩ := besthist_closest_aux A argsort hsort rand hrand casts (fun _ => hz) hmc hm
  simp only [corrLarge_pv A hpv hpl, corrSmall_pv A hpv hps] at h
  exact ⟨R, L, S, h⟩

/-- Of two casts at the float's longitude, latitude and date, the code considers the one
over the shallower water (larger PV) strictly closer, even if the other has exactly the float's depth, hence its PV. The
arguments of the correlation are passed in the wrong order. -/
theorem pv_closeness_ignores_float (A : BesthistArgs) (hpv : A.mapPvUse = 1) (hz : 0 < A.z)
    (hphi : 0 < A.phiLarge) (hne : A.phiLarge ≠ potentialVorticity A.lat A.z) (hsin : Real.sin (A.lat * Real.pi / 180) ≠ 0)
    (z : ℝ) (hz0 : 0 < z) (hzlt : z < A.z) :
    let same : Cast := ⟨some A.long, some A.lat, some A.date, some A.z⟩
    let other : Cast := ⟨some A.long, some A.lat, some A.date, some z⟩
    distancePv A A.longLarge A.latLarge A.ageLarge A.phiLarge same = some 0 ∧
      ¬ Closer (corrLarge A same) (corrLarge A other) := by
  intro same other
  constructor
  · simp [distancePv, distance, same, hz.ne']
  · have hpvA : potentialVorticity A.lat A.z = 2 * 7.292 * 10 ^ (-5 : ℤ) * Real.sin (A.lat * Real.pi / 180) / A.z := by
      unfold potentialVorticity
      simp only
      rw [if_neg (by have := hz.ne'; positivity)]
    have hpvz : potentialVorticity A.lat z = 2 * 7.292 * 10 ^ (-5 : ℤ) * Real.sin (A.lat * Real.pi / 180) / z := by
      unfold potentialVorticity
      simp only
      rw [if_neg (by have := hz0.ne'; positivity)]
    have hpA := potential_vorticity_ne_zero A.lat A.z
    have hpz := potential_vorticity_ne_zero A.lat z
    set p := potentialVorticity A.lat A.z with hp
    set q := potentialVorticity A.lat z with hq
    have hq2 : p ^ 2 < q ^ 2 := by
      rw [hpvA, hpvz, div_pow, div_pow]
      have hs : 0 < (2 * 7.292 * 10 ^ (-5 : ℤ) * Real.sin (A.lat * Real.pi / 180)) ^ 2 := by positivity
      exact div_lt_div_of_pos_left hs (by positivity) (by nlinarith)
    intro h
    have e1 : corrLarge A same = some (0 + ((A.phiLarge - p) / Real.sqrt (A.phiLarge ^ 2 + p ^ 2) / p) ^ 2) := by
      simp [corrLarge, same, pvFloat, pvHist, pvOf, hpv, hz.ne', spatialCorrelation, ← hp, hpA, hphi.ne']
    have e2 : corrLarge A other = some (0 + ((A.phiLarge - p) / Real.sqrt (A.phiLarge ^ 2 + p ^ 2) / q) ^ 2) := by
      simp [corrLarge, other, pvFloat, pvHist, pvOf, hpv, hz.ne', hz0.ne', spatialCorrelation, ← hp, ← hq, hpA,
        hphi.ne']
    rw [e1, e2] at h
    obtain ⟨x, hx, hxy⟩ := h _ rfl
    have hx' := Option.some.inj hx
    rw [← hx'] at hxy
    rw [div_pow _ p, div_pow _ q, zero_add, zero_add] at hxy
    have hnum : 0 < ((A.phiLarge - p) / Real.sqrt (A.phiLarge ^ 2 + p ^ 2)) ^ 2 := by
      have h1 : A.phiLarge - p ≠ 0 := sub_ne_zero.2 hne
      have h2 : 0 < Real.sqrt (A.phiLarge ^ 2 + p ^ 2) := Real.sqrt_pos.2 (by positivity)
      positivity
    have := div_lt_div_of_pos_left hnum (by positivity) hq2
    linarith

/-- C13 is false with the PV constraint. Four casts at the float's longitude, latitude and date, two of them with exactly the float's depth, hence at the documented distance 0,
two over shallower water, hence farther: if three are asked for, the second one returned, the only one chosen by closeness at large scales, is one of the two over shallower
water, while one of those at distance 0 is not chosen by then. -/
theorem besthist_pv_closeness_ignores_float (A : BesthistArgs) (hpv : A.mapPvUse = 1) (hz : 0 < A.z)
    (hphi : 0 < A.phiLarge) (hne : A.phiLarge ≠ potentialVorticity A.lat A.z) (hsin : Real.sin (A.lat * Real.pi / 180) ≠ 0)
    (z : ℝ) (hz0 : 0 < z) (hzlt : z < A.z) (hmc : A.maxCasts = 3) (hin : InEllipse A ⟨some A.long, some A.lat, some A.date, some z⟩)
    (argsort : List (Option ℝ) → List ℕ) (hsort : IsArgsort argsort) (rand : ℕ → ℕ → List ℝ) (hrand : ValidRand rand) :
    let same : Cast := ⟨some A.long, some A.lat, some A.date, some A.z⟩
    let other : Cast := ⟨some A.long, some A.lat, some A.date, some z⟩
    distancePv A A.longLarge A.latLarge A.ageLarge A.phiLarge same = some 0 ∧
      (∃ d, distancePv A A.longLarge A.latLarge A.ageLarge A.phiLarge other = some d ∧ 0 < d) ∧
      ∃ r l s, findBesthist A argsort rand [same, same, other, other] = .ok [r, l, s] ∧ (l = 2 ∨ l = 3) ∧ ∃ j, (j = 0 ∨ j = 1) ∧ j ≠ r ∧ j ≠ l := by
  intro same other
  obtain ⟨h0, hnc⟩ := pv_closeness_ignores_float A hpv hz hphi hne hsin z hz0 hzlt
  have hne2 : potentialVorticity A.lat A.z ≠ potentialVorticity A.lat z := by
    have e1 : potentialVorticity A.lat A.z = 2 * 7.292 * 10 ^ (-5 : ℤ) * Real.sin (A.lat * Real.pi / 180) / A.z := by
      unfold potentialVorticity
      simp only
      rw [if_neg (by have := hz.ne'; positivity)]
    have e2 : potentialVorticity A.lat z = 2 * 7.292 * 10 ^ (-5 : ℤ) * Real.sin (A.lat * Real.pi / 180) / z := by
      unfold potentialVorticity
      simp only
      rw [if_neg (by have := hz0.ne'; positivity)]
    rw [e1, e2]
    intro h
    have hk : 2 * 7.292 * 10 ^ (-5 : ℤ) * Real.sin (A.lat * Real.pi / 180) ≠ 0 := by positivity
    rw [div_eq_div_iff hz.ne' hz0.ne'] at h
    exact hzlt.ne (mul_left_cancel₀ hk h)
  refine ⟨h0, ?_, ?_⟩
  · refine ⟨_, by simp [distancePv, distance, other, hz.ne', hz0.ne']; rfl, ?_⟩
    have h1 := potential_vorticity_ne_zero A.lat A.z
    have h2 := sub_ne_zero.2 hne2
    positivity
  · have hins : InEllipse A same := by
      refine ⟨A.long, A.lat, rfl, rfl, ?_⟩
      rw [if_pos hpv]
      exact ⟨A.z, rfl, hz.ne', hz.ne', by simp⟩
    have hnum : numInside A [same, same, other, other] = 4 := by
      unfold numInside
      have hin' : InEllipse A other := hin
      simp [hins, hin']
    obtain ⟨R, L, S, he, h1, h2, h3, h4, hL, -⟩ := besthist_closest_aux A argsort hsort rand hrand [same, same, other, other]
      (fun _ c hc => by
        simp only [List.mem_cons, List.not_mem_nil, or_false] at hc
        rcases hc with rfl | rfl | rfl | rfl <;> simp [same, other, hz.ne', hz0.ne']) (Or.inl hmc) (by omega)
    obtain ⟨out, ho, -, hnd⟩ := besthist_many_exact_size A argsort hsort rand hrand [same, same, other, other]
      (fun _ c hc => by
        simp only [List.mem_cons, List.not_mem_nil, or_false] at hc
        rcases hc with rfl | rfl | rfl | rfl <;> simp [same, other, hz.ne', hz0.ne']) (Or.inl hmc) (by omega)
    have hout := besthist_only_inside A argsort hsort rand hrand [same, same, other, other] (by omega) out ho
    rw [hmc] at h2 h3 h4
    obtain ⟨r, rfl⟩ : ∃ r, R = [r] := List.length_eq_one_iff.1 (by simp at *; omega)
    obtain ⟨l, rfl⟩ : ∃ l, L = [l] := List.length_eq_one_iff.1 (by simp at *; omega)
    obtain ⟨s, rfl⟩ : ∃ s, S = [s] := List.length_eq_one_iff.1 (by simp at *; omega)
    rw [he] at ho
    obtain rfl := Except.ok.inj ho
    have hl4 : l < 4 := by
      obtain ⟨c, hc, -⟩ := hout l (by simp)
      have := (List.getElem?_eq_some_iff.1 hc).1
      simpa using this
    have hl : l = 2 ∨ l = 3 := by
      by_contra hc
      have hls : [same, same, other, other][l]! = same := by
        have : l = 0 ∨ l = 1 := by omega
        rcases this with rfl | rfl <;> rfl
      obtain ⟨j, hj, hjr⟩ : ∃ j, (j = 2 ∨ j = 3) ∧ j ≠ r := by
        by_cases h : r = 2
        · exact ⟨3, Or.inr rfl, by omega⟩
        · exact ⟨2, Or.inl rfl, fun h' => h h'.symm⟩
      have := hL l (by simp) j other (by rcases hj with rfl | rfl <;> rfl) hin (by simpa using hjr) (by simp; omega)
      rw [hls] at this
      exact hnc this
    refine ⟨r, l, s, he, hl, ?_⟩
    by_cases h : r = 0
    · exact ⟨1, Or.inr rfl, by omega, by omega⟩
    · exact ⟨0, Or.inl rfl, fun h' => h h'.symm, by omega⟩

/-! ## C14 small `max_casts` -/

/-- C14 is false: with `max_casts = 1` and `n ≥ 4` casts in the ellipse the code returns `n - 1` casts. -/
theorem besthist_one_returns_all_but_one (A : BesthistArgs) (argsort : List (Option ℝ) → List ℕ) (hsort : IsArgsort argsort)
    (rand : ℕ → ℕ → List ℝ) (hrand : ValidRand rand) (casts : List Cast) (hz : A.mapPvUse = 1 → ∀ c ∈ casts, c.z ≠ some 0)
    (hmc : A.maxCasts = 1)
    (hn : 4 ≤ numInside A casts) :
    ∃ out, findBesthist A argsort rand casts = .ok out ∧ out.length = numInside A casts - 1 := by
  rw [findBesthist_many A argsort rand casts hz (by omega)]
  rw [numInside_eq] at hn ⊢
  set idx := indexEllipse A casts
  obtain ⟨hr1, hr2⟩ := hrand idx.length ((A.maxCasts + 2) / 3)
  obtain ⟨R, Z, T, he, h1, h2, h3, h4, h5, h6, h7⟩ := selectBest_core A argsort hsort
    (idx.map (fun i => casts[i]!)) idx _ (by simp) (by omega) (by omega) hr1 hr2 (by omega)
  have hlen4 := h4.length_eq
  have hlen5 := h5.length_eq
  simp only [List.length_append, List.length_range, List.length_drop] at hlen4 hlen5
  have hT : T.length = idx.length - 2 := by omega
  have hlo : pyTake T ((A.maxCasts : ℤ) - 2 * ((A.maxCasts + 2) / 3 : ℕ)) = T.take (idx.length - 3) := by
    unfold pyTake
    rw [if_pos (by omega), hT, hmc]
    congr 1
    simp only [Nat.reduceAdd, Nat.reduceDiv]
    omega
  rw [hlo] at he
  have hne : T.take (idx.length - 3) ≠ [] := by
    intro h
    have := congrArg List.length h
    rw [List.length_take, List.length_nil] at this
    omega
  rw [if_neg hne] at he
  refine ⟨_, he, ?_⟩
  simp only [List.length_map, List.length_append, List.length_take]
  omega

/-- C14, other side: with `max_casts` 2 or 4 and more casts than that in the ellipse, `find_besthist` raises `ValueError`. -/
theorem besthist_two_four_fail (A : BesthistArgs) (argsort : List (Option ℝ) → List ℕ) (hsort : IsArgsort argsort)
    (rand : ℕ → ℕ → List ℝ) (hrand : ValidRand rand) (casts : List Cast) (hz : A.mapPvUse = 1 → ∀ c ∈ casts, c.z ≠ some 0)
    (hmc : A.maxCasts = 2 ∨ A.maxCasts = 4)
    (hn : A.maxCasts < numInside A casts) :
    findBesthist A argsort rand casts = .error .valueError := by
  rw [findBesthist_many A argsort rand casts hz (by omega)]
  rw [numInside_eq] at hn
  set idx := indexEllipse A casts
  obtain ⟨hr1, hr2⟩ := hrand idx.length ((A.maxCasts + 2) / 3)
  by_cases hrem : 2 * ((A.maxCasts + 2) / 3) < idx.length
  · obtain ⟨R, Z, T, he, -⟩ := selectBest_core A argsort hsort
      (idx.map (fun i => casts[i]!)) idx _ (by simp) (by omega) (by omega) hr1 hr2 hrem
    rw [he, if_pos]
    rcases hmc with h | h <;> simp [h, pyTake]
  · exact selectBest_none_left A argsort hsort _ idx _ (by simp) (by omega) hr1 hr2 (by omega)

/-- C14, the remaining case: with `max_casts` 1 and two or three casts in the ellipse, `find_besthist` raises `ValueError`. -/
theorem besthist_one_fails (A : BesthistArgs) (argsort : List (Option ℝ) → List ℕ) (hsort : IsArgsort argsort)
    (rand : ℕ → ℕ → List ℝ) (hrand : ValidRand rand) (casts : List Cast) (hz : A.mapPvUse = 1 → ∀ c ∈ casts, c.z ≠ some 0)
    (hmc : A.maxCasts = 1) (hn : numInside A casts = 2 ∨ numInside A casts = 3) :
    findBesthist A argsort rand casts = .error .valueError := by
  rw [findBesthist_many A argsort rand casts hz (by omega)]
  rw [numInside_eq] at hn
  set idx := indexEllipse A casts
  obtain ⟨hr1, hr2⟩ := hrand idx.length ((A.maxCasts + 2) / 3)
  by_cases hrem : 2 * ((A.maxCasts + 2) / 3) < idx.length
  · obtain ⟨R, Z, T, he, h1, h2, h3, h4, h5, h6, h7⟩ := selectBest_core A argsort hsort
      (idx.map (fun i => casts[i]!)) idx _ (by simp) (by omega) (by omega) hr1 hr2 hrem
    have hlen4 := h4.length_eq
    have hlen5 := h5.length_eq
    simp only [List.length_append, List.length_range, List.length_drop] at hlen4 hlen5
    have hT : T.length = 1 := by omega
    rw [he, if_pos]
    unfold pyTake
    rw [if_pos (by omega), hT, hmc]
    rfl
  · exact selectBest_none_left A argsort hsort _ idx _ (by simp) (by omega) hr1 hr2 (by omega)

/-- C14, what holds: for `max_casts` other than 1, at most `max_casts` casts are ever returned. -/
theorem besthist_at_most_partial (A : BesthistArgs) (argsort : List (Option ℝ) → List ℕ) (hsort : IsArgsort argsort)
    (rand : ℕ → ℕ → List ℝ) (hrand : ValidRand rand) (casts : List Cast) (hmc : 2 ≤ A.maxCasts) (out : List ℕ)
    (h : findBesthist A argsort rand casts = .ok out) : out.length ≤ A.maxCasts := by
  by_cases hz : A.mapPvUse = 1 → ∀ c ∈ casts, c.z ≠ some 0
  swap
  · push Not at hz
    obtain ⟨hpv, c, hc, h0⟩ := hz
    rw [besthist_zero_depth_fails A argsort rand casts hpv c hc h0] at h
    simp at h
  by_cases hm : A.maxCasts < numInside A casts
  · by_cases h24 : A.maxCasts = 2 ∨ A.maxCasts = 4
    · rw [besthist_two_four_fail A argsort hsort rand hrand casts hz h24 hm] at h
      exact absurd h (by simp)
    · obtain ⟨out', h1, h2, -⟩ := besthist_many_exact_size A argsort hsort rand hrand casts hz (by omega) hm
      rw [h1] at h
      have := Except.ok.inj h
      rw [← this, h2]
  · by_cases hne : casts = []
    · subst hne; simp [findBesthist] at h
    · unfold findBesthist at h
      rw [if_neg hne, if_neg (not_zeroDepth hz)] at h
      simp only at h
      rw [gather_ok casts (indexEllipse A casts) (fun i hi => argwhere_lt _ _ _ hi)] at h
      simp only [bind, Except.bind] at h
      rw [numInside_eq] at hm
      rw [if_neg (by omega)] at h
      have := Except.ok.inj h
      rw [← this]; omega

/-! ## Non-vacuity -/

/-- A float at (0, 10) with the default scales of `configuration.load`. -/
def exArgs (mc : ℕ) (pv : ℤ) : BesthistArgs :=
  { lat := 10, long := 20, date := 2000, z := 3000, latLarge := 4, latSmall := 2, longLarge := 8, longSmall := 4,
    phiLarge := 0.1, phiSmall := 0.02, ageLarge := 20, ageSmall := 10, mapPvUse := pv, maxCasts := mc }

/-- Casts at longitudes 20, 21, .., with one far away and one missing. -/
def exCasts : List Cast :=
  [⟨some 20, some 10, some 1999, some 3000⟩, ⟨some 120, some 10, some 1999, some 3000⟩,
   ⟨some 21, some 10, some 1998, some 2000⟩, ⟨none, some 10, some 1999, some 3000⟩,
   ⟨some 22, some 9, some 1990, some 1000⟩, ⟨some 23, some 9, none, some 1000⟩, ⟨some 24, some 9, some 1995, some 1000⟩,
   ⟨some 19, some 9, some 1994, some 1000⟩, ⟨some 25, some 10, some 2003, some 1000⟩]

theorem exCasts_numInside (mc : ℕ) : numInside (exArgs mc 0) exCasts = 7 := by
  unfold numInside exCasts
  have h : ∀ x y : ℝ, ∀ t z, InEllipse (exArgs mc 0) ⟨some x, some y, t, z⟩ ↔ ((x - 20) / 24) ^ 2 + ((y - 10) / 12) ^ 2 < 1 := by
    intro x y t z
    unfold InEllipse exArgs
    norm_num
  have h' : ∀ y t z, ¬ InEllipse (exArgs mc 0) ⟨none, y, t, z⟩ := by
    intro y t z
    unfold InEllipse
    simp
  simp only [List.countP_cons, List.countP_nil, h, h']
  norm_num

/-- All draws one half. -/
noncomputable def exRand : ℕ → ℕ → List ℝ := fun _ k => List.replicate k (1 / 2)

theorem exRand_valid : ValidRand exRand := by
  intro seed k
  refine ⟨by simp [exRand], fun u hu => ?_⟩
  have : u = 1 / 2 := List.eq_of_mem_replicate hu
  rw [this]; norm_num

/-- The hypotheses of C10, C12, C13 are met: seven casts in the ellipse, five asked for. -/
example : IsArgsort (fun l : List (Option ℝ) => stableArgsort (K := WithTop ℝ) l) ∧ ValidRand exRand ∧
    ((exArgs 5 0).maxCasts = 3 ∨ 5 ≤ (exArgs 5 0).maxCasts) ∧ (exArgs 5 0).maxCasts < numInside (exArgs 5 0) exCasts :=
  ⟨isArgsort_stable, exRand_valid, by simp [exArgs], by rw [exCasts_numInside]; simp [exArgs]⟩

/-- C11's hypotheses are met. -/
example : exCasts ≠ [] ∧ numInside (exArgs 300 0) exCasts ≤ (exArgs 300 0).maxCasts :=
  ⟨by simp [exCasts], by rw [exCasts_numInside]; simp [exArgs]⟩

/-- C14's hypotheses are met, and its negation is concrete: one cast asked for, six returned. -/
theorem besthist_one_returns_six : ∃ out,
    findBesthist (exArgs 1 0) (fun l => stableArgsort (K := WithTop ℝ) l) exRand exCasts = .ok out ∧ out.length = 6 := by
  obtain ⟨out, h1, h2⟩ := besthist_one_returns_all_but_one (exArgs 1 0) _ isArgsort_stable exRand exRand_valid exCasts (fun h => absurd h (by simp [exArgs])) rfl
    (by rw [exCasts_numInside]; norm_num)
  rw [exCasts_numInside] at h2
  exact ⟨out, h1, h2⟩

/-- The remaining case of C14 is met: one cast asked for, three in the ellipse. -/
example : findBesthist (exArgs 1 0) (fun l => stableArgsort (K := WithTop ℝ) l) exRand
    [⟨some 20, some 10, some 1999, some 3000⟩, ⟨some 21, some 10, some 1998, some 2000⟩, ⟨some 22, some 9, some 1990, some 1000⟩] = .error .valueError := by
  refine besthist_one_fails (exArgs 1 0) _ isArgsort_stable exRand exRand_valid _ (fun h => absurd h (by simp [exArgs])) rfl (.inr ?_)
  have h : ∀ x y : ℝ, ∀ t z, InEllipse (exArgs 1 0) ⟨some x, some y, t, z⟩ ↔ ((x - 20) / 24) ^ 2 + ((y - 10) / 12) ^ 2 < 1 := by
    intro x y t z
    unfold InEllipse exArgs
    norm_num
  unfold numInside
  simp only [List.countP_cons, List.countP_nil, h]
  norm_num

/-- The hypotheses of the PV finding are met at 30 degrees of latitude. -/
example : ∃ A : BesthistArgs, A.mapPvUse = 1 ∧ 0 < A.z ∧ 0 < A.phiLarge ∧ A.phiLarge ≠ potentialVorticity A.lat A.z ∧
    Real.sin (A.lat * Real.pi / 180) ≠ 0 ∧ A.maxCasts = 3 ∧ InEllipse A ⟨some A.long, some A.lat, some A.date, some 2900⟩ ∧ 2900 < A.z := by
  have hs : Real.sin (30 * Real.pi / 180) = 1 / 2 := by
    rw [← Real.sin_pi_div_six]; congr 1; ring
  refine ⟨{ exArgs 3 1 with lat := 30 }, rfl, by norm_num [exArgs], by norm_num [exArgs], ?_, ?_, rfl, ?_, by norm_num [exArgs]⟩
  · simp only [exArgs, potentialVorticity, hs]
    norm_num
  · change Real.sin (30 * Real.pi / 180) ≠ 0
    rw [hs]; norm_num
  · refine ⟨20, 30, rfl, rfl, ?_⟩
    rw [if_pos (by rfl)]
    refine ⟨2900, rfl, by norm_num, by norm_num [exArgs], ?_⟩
    simp only [exArgs, potentialVorticity, hs]
    norm_num

end Verif.Props
