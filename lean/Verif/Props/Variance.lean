import Verif.Lemmas.Stats
import Mathlib.Data.Rat.Floor

/-!
# C21 `signal_variance`, C22 `noise_variance`
-/

set_option linter.unusedSectionVars false

namespace Verif.Props

open Verif.Np Verif.Stats Verif.Spec

variable {K : Type} [Field K] [LinearOrder K] [IsStrictOrderedRing K]

/-! ## C21 -/

/-- C21. The result is the population variance of the known values; the only failure is `RuntimeError`, exactly when there is no
known value. -/
theorem signal_variance_value (sal : List (Option K)) :
    (known sal = [] ∧ signalVariance sal = .error .runtimeError) ∨
    (known sal ≠ [] ∧ signalVariance sal = .ok (populationVariance (known sal))) := by
  unfold signalVariance
  split_ifs with h
  · left
    refine ⟨?_, rfl⟩
    unfold known
    rw [List.filterMap_eq_nil_iff]
    intro a ha
    have := List.all_eq_true.1 h a ha
    simpa using this
  · right
    refine ⟨?_, rfl⟩
    unfold known
    rw [ne_eq, List.filterMap_eq_nil_iff]
    intro h'
    apply h
    rw [List.all_eq_true]
    intro a ha
    have := h' a ha
    simpa using this

theorem populationVariance_nonneg (vs : List K) : 0 ≤ populationVariance vs :=
  div_nonneg (sum_sq_nonneg _ _) (Nat.cast_nonneg _)

/-- C21. Never negative. -/
theorem signal_variance_nonneg (sal : List (Option K)) (v : K) (h : signalVariance sal = .ok v) : 0 ≤ v := by
  rcases signal_variance_value sal with ⟨_, h'⟩ | ⟨_, h'⟩
  · rw [h'] at h; simp at h
  · rw [h'] at h; rw [← Except.ok.inj h]; exact populationVariance_nonneg _

/-- C21. Zero exactly when all known values agree. -/
theorem signal_variance_eq_zero_iff (sal : List (Option K)) (v : K) (h : signalVariance sal = .ok v) :
    v = 0 ↔ ∀ x y, some x ∈ sal → some y ∈ sal → x = y := by
  rcases signal_variance_value sal with ⟨_, h'⟩ | ⟨hne, h'⟩
  · rw [h'] at h; simp at h
  rw [h'] at h
  rw [← Except.ok.inj h]
  have hmem : ∀ x, some x ∈ sal ↔ x ∈ known sal := by intro x; simp [known, List.mem_filterMap]
  simp only [hmem]
  have hlen : ((known sal).length : K) ≠ 0 := by
    have : 0 < (known sal).length := List.length_pos_of_ne_nil hne
    exact_mod_cast this.ne'
  unfold populationVariance
  rw [div_eq_zero_iff, or_iff_left hlen]
  constructor
  · intro h0 x y hx hy
    have := sum_sq_eq_zero _ _ h0
    rw [this x hx, this y hy]
  · intro hall
    obtain ⟨c, hc⟩ := List.exists_mem_of_ne_nil _ hne
    have hsum := sum_eq_of_forall (known sal) c (fun v hv => hall v c hv hc)
    rw [hsum, mul_div_cancel_left₀ _ hlen]
    apply List.sum_eq_zero
    intro z hz
    obtain ⟨w, hw, rfl⟩ := List.mem_map.1 hz
    rw [hall w c hw hc]; ring

theorem populationVariance_shift (vs : List K) (c : K) (hne : vs ≠ []) :
    populationVariance (vs.map (· + c)) = populationVariance vs := by
  unfold populationVariance
  have hlen : (vs.length : K) ≠ 0 := by
    have : 0 < vs.length := List.length_pos_of_ne_nil hne
    exact_mod_cast this.ne'
  rw [sum_map_add_const, List.length_map, List.map_map]
  congr 2
  apply List.map_congr_left
  intro v _
  simp only [Function.comp]
  congr 1
  field_simp
  ring

theorem populationVariance_scale (vs : List K) (c : K) :
    populationVariance (vs.map (c * ·)) = c ^ 2 * populationVariance vs := by
  unfold populationVariance
  rw [List.length_map, List.map_map, ← mul_div_assoc,
    ← sum_map_mul_const (vs.map fun v => (v - vs.sum / (vs.length : K)) ^ 2) (c ^ 2), List.map_map, sum_map_mul_const]
  congr 2
  apply List.map_congr_left
  intro v _
  simp only [Function.comp]
  rw [mul_div_assoc]
  ring

theorem known_map (sal : List (Option K)) (f : K → K) : known (sal.map (Option.map f)) = (known sal).map f := by
  unfold known
  rw [List.filterMap_map, List.map_filterMap]
  congr 1

/-- C21. Adding a constant to all salinities changes nothing (not even whether it fails). -/
theorem signal_variance_shift (sal : List (Option K)) (c : K) :
    signalVariance (sal.map (Option.map (· + c))) = signalVariance sal := by
  rcases signal_variance_value sal with ⟨h1, h2⟩ | ⟨h1, h2⟩ <;>
    rcases signal_variance_value (sal.map (Option.map (· + c))) with ⟨h3, h4⟩ | ⟨h3, h4⟩ <;>
    rw [known_map] at h3
  · rw [h2, h4]
  · rw [h1] at h3; simp at h3
  · rw [List.map_eq_nil_iff] at h3; exact absurd h3 h1
  · rw [h2, h4, known_map, populationVariance_shift _ _ h1]

/-- C21. Scaling all salinities by `c` scales the result by `c²`. -/
theorem signal_variance_scale (sal : List (Option K)) (c v : K) (h : signalVariance sal = .ok v) :
    signalVariance (sal.map (Option.map (c * ·))) = .ok (c ^ 2 * v) := by
  rcases signal_variance_value sal with ⟨_, h2⟩ | ⟨h1, h2⟩
  · rw [h2] at h; simp at h
  rw [h2] at h
  rw [← Except.ok.inj h]
  rcases signal_variance_value (sal.map (Option.map (c * ·))) with ⟨h3, h4⟩ | ⟨h3, h4⟩ <;> rw [known_map] at h3
  · rw [List.map_eq_nil_iff] at h3; exact absurd h3 h1
  · rw [h4, known_map, populationVariance_scale]

/-- C21. Missing values and the order of the values do not matter. -/
theorem signal_variance_perm (s1 s2 : List (Option K)) (h : (known s1).Perm (known s2)) :
    signalVariance s1 = signalVariance s2 := by
  have key : populationVariance (known s1) = populationVariance (known s2) := by
    unfold populationVariance
    rw [h.sum_eq, h.length_eq, (h.map _).sum_eq]
  rcases signal_variance_value s1 with ⟨h1, h2⟩ | ⟨h1, h2⟩ <;>
    rcases signal_variance_value s2 with ⟨h3, h4⟩ | ⟨h3, h4⟩
  · rw [h2, h4]
  · rw [h1] at h; exact absurd h.symm.eq_nil h3
  · rw [h3] at h; exact absurd h.eq_nil h1
  · rw [h2, h4, key]

/-- C21 on numbers: mean 2, squares 1 + 0 + 1, over 3. -/
example : signalVariance ([none, some 1, some 2, none, some 3] : List (Option ℚ)) = .ok (2 / 3) := by
  decide +kernel

/-! ## C22 -/

theorem zipWith_noise (obs l1 : List (Obs K)) (idx : List ℕ) (other : List (Obs K)) (h : gather obs idx = .ok other) :
    (List.zipWith noiseSq l1 other).filterMap id = (l1.zip idx).filterMap fun p =>
      match p.1.sal, (obs[p.2]?).bind Obs.sal with
      | some x, some y => some ((x - y) ^ 2)
      | _, _ => none := by
  induction l1 generalizing idx other with
  | nil => simp
  | cons a l1 ih =>
    cases idx with
    | nil =>
      have h' : Except.ok ([] : List (Obs K)) = Except.ok other := h
      rw [← Except.ok.inj h']; simp
    | cons j idx =>
      obtain ⟨b, other', rfl, hb, hm⟩ := mapM_cons_ok h
      have hj : obs[j]? = some b := by
        cases hj : obs[j]? with
        | none => rw [hj] at hb; simp at hb
        | some c => rw [hj] at hb; rw [Except.ok.inj hb]
      rw [List.zipWith_cons_cons, List.zip_cons_cons, List.filterMap_cons, List.filterMap_cons, ih idx other' hm]
      simp only [hj, id, Option.bind_some, noiseSq]
      cases a.sal <;> cases b.sal <;> rfl

/-- C22, value. If the casts do not all coincide and the call succeeds, every cast has a nearest cast at another position and the
result is half the mean squared salinity difference to it (missing if no pair of salinities is known). -/
theorem noise_variance_value (obs : List (Obs K)) (hnc : ¬ Coincide obs) (r : Option K) (h : noiseVariance obs = .ok r) :
    ∃ partner : List ℕ, partner.length = obs.length ∧
      (∀ i j, partner[i]? = some j → IsNearest obs i j) ∧
      r = if noiseSquares obs partner = [] then none
        else some ((noiseSquares obs partner).sum / (2 * ((noiseSquares obs partner).length : K))) := by
  unfold noiseVariance at h
  rw [if_neg (fun hc => hnc ((all_dist_iff obs).1 hc))] at h
  cases hi : obs.mapM (nearest obs) with
  | error e => rw [hi] at h; simp [bind, Except.bind] at h
  | ok idx =>
    cases ho : gather obs idx with
    | error e => rw [hi] at h; simp only [bind, Except.bind, ho] at h; simp at h
    | ok other =>
      rw [hi] at h
      simp only [bind, Except.bind, ho, pure, Except.pure, Except.ok.injEq] at h
      obtain ⟨hlen, hget⟩ := mapM_getElem hi
      refine ⟨idx, hlen, ?_, ?_⟩
      · intro i j hij
        have hilt : i < obs.length := by
          rw [← hlen]; exact (List.getElem?_eq_some_iff.1 hij).1
        obtain ⟨j', hj', hn⟩ := hget i obs[i] (List.getElem?_eq_getElem hilt)
        rw [hij] at hj'
        rw [← Option.some.inj hj'] at hn
        exact nearest_ok (List.getElem?_eq_getElem hilt) hn
      · rw [← h]
        unfold nanmean
        simp only
        have e := zipWith_noise obs obs idx other ho
        change _ = noiseSquares obs idx at e
        rw [e]
        split_ifs
        · rfl
        · simp only [Option.map_some, Option.some.injEq]
          rw [div_div, mul_comm]

/-- C22. A number that is returned is the noise variance of the casts. -/
theorem noise_variance_is (obs : List (Obs K)) (v : K) (h : noiseVariance obs = .ok (some v)) : IsNoiseVariance obs v := by
  by_cases hc : Coincide obs
  · left
    refine ⟨hc, ?_⟩
    unfold noiseVariance at h
    rw [if_pos ((all_dist_iff obs).2 hc)] at h
    exact (Option.some.inj (Except.ok.inj h)).symm
  · obtain ⟨partner, h1, h2, h3⟩ := noise_variance_value obs hc (some v) h
    right
    split_ifs at h3 with h0
    exact ⟨hc, partner, h1, h2, h0, Option.some.inj h3⟩

/-- C22. Zero if all the casts coincide. -/
theorem noise_variance_coincide (obs : List (Obs K)) (h : Coincide obs) : noiseVariance obs = .ok (some 0) := by
  unfold noiseVariance
  rw [if_pos ((all_dist_iff obs).2 h)]

/-- C22. It never fails, and gives a number, when positions and salinities are known. -/
theorem noise_variance_total (obs : List (Obs K))
    (hpos : ∀ a ∈ obs, a.lat ≠ none ∧ a.long ≠ none ∧ a.sal ≠ none) : ∃ v, noiseVariance obs = .ok (some v) := by
  by_cases hc : Coincide obs
  · exact ⟨0, noise_variance_coincide obs hc⟩
  have hd : ∀ a ∈ obs, ∀ b ∈ obs, ∃ d, SqDist a b d := by
    intro a ha b hb
    obtain ⟨h1, h2, -⟩ := hpos a ha
    obtain ⟨h3, h4, -⟩ := hpos b hb
    obtain ⟨la, hla⟩ := Option.ne_none_iff_exists'.1 h1
    obtain ⟨xa, hxa⟩ := Option.ne_none_iff_exists'.1 h2
    obtain ⟨lb', hlb⟩ := Option.ne_none_iff_exists'.1 h3
    obtain ⟨xb, hxb⟩ := Option.ne_none_iff_exists'.1 h4
    exact ⟨_, la, lb', xa, xb, hla, hlb, hxa, hxb, rfl⟩
  have hmap : ∃ idx, obs.mapM (nearest obs) = .ok idx := by
    refine mapM_isOk fun a ha => ?_
    cases hn : nearest obs a with
    | ok j => exact ⟨j, rfl⟩
    | error e =>
      exfalso
      obtain ⟨-, hz⟩ := nearest_error hn
      apply hc
      intro b hb c hcm
      -- `a` coincides with all casts, so all casts coincide
      obtain ⟨d1, hd1⟩ := hd a ha b hb
      obtain ⟨d2, hd2⟩ := hd a ha c hcm
      have e1 := hz b hb d1 hd1
      have e2 := hz c hcm d2 hd2
      subst e1 e2
      obtain ⟨la, lb', xa, xb, h1, h2, h3, h4, h5⟩ := hd1
      obtain ⟨la', lc, xa', xc, g1, g2, g3, g4, g5⟩ := hd2
      rw [h1] at g1; rw [h3] at g3
      have q1 := Option.some.inj g1; have q2 := Option.some.inj g3
      subst q1 q2
      have s1 : la = lb' := by nlinarith [sq_nonneg (la - lb'), sq_nonneg (xa - xb), pow_eq_zero_iff (n := 2) (M₀ := K) (a := la - lb') (by norm_num) |>.1 (by nlinarith [sq_nonneg (la - lb'), sq_nonneg (xa - xb)])]
      have s2 : xa = xb := by nlinarith [pow_eq_zero_iff (n := 2) (M₀ := K) (a := xa - xb) (by norm_num) |>.1 (by nlinarith [sq_nonneg (la - lb'), sq_nonneg (xa - xb)])]
      have s3 : la = lc := by nlinarith [pow_eq_zero_iff (n := 2) (M₀ := K) (a := la - lc) (by norm_num) |>.1 (by nlinarith [sq_nonneg (la - lc), sq_nonneg (xa - xc)])]
      have s4 : xa = xc := by nlinarith [pow_eq_zero_iff (n := 2) (M₀ := K) (a := xa - xc) (by norm_num) |>.1 (by nlinarith [sq_nonneg (la - lc), sq_nonneg (xa - xc)])]
      exact ⟨lb', lc, xb, xc, h2, g2, h4, g4, by rw [← s1, ← s2, ← s3, ← s4]; ring⟩
  obtain ⟨idx, hidx⟩ := hmap
  obtain ⟨hlen, hget⟩ := mapM_getElem hidx
  have hnear : ∀ i j, idx[i]? = some j → IsNearest obs i j := by
    intro i j hij
    have hilt : i < obs.length := by rw [← hlen]; exact (List.getElem?_eq_some_iff.1 hij).1
    obtain ⟨j', hj', hn⟩ := hget i obs[i] (List.getElem?_eq_getElem hilt)
    rw [hij] at hj'
    rw [← Option.some.inj hj'] at hn
    exact nearest_ok (List.getElem?_eq_getElem hilt) hn
  have hga : ∃ other, gather obs idx = .ok other := by
    refine mapM_isOk fun j hj => ?_
    obtain ⟨i, hi⟩ := List.getElem?_of_mem hj
    obtain ⟨a, b, d, _, hb, _⟩ := hnear i j hi
    exact ⟨b, by rw [hb]⟩
  obtain ⟨other, hother⟩ := hga
  have hok : noiseVariance obs = .ok ((nanmean (List.zipWith noiseSq obs other)).map (· / 2)) := by
    unfold noiseVariance
    rw [if_neg (fun h => hc ((all_dist_iff obs).1 h)), hidx]
    simp only [bind, Except.bind, hother, pure, Except.pure]
  obtain ⟨partner, p1, p2, p3⟩ := noise_variance_value obs hc _ hok
  have hne : noiseSquares obs partner ≠ [] := by
    have hobs : obs ≠ [] := by
      rintro rfl; exact hc (by intro a ha; simp at ha)
    have hlt : 0 < obs.length := List.length_pos_of_ne_nil hobs
    have hlt' : 0 < partner.length := by omega
    obtain ⟨a, b, d, ha, hb, _⟩ := p2 0 partner[0] (List.getElem?_eq_getElem hlt')
    have hza : (a, partner[0]) ∈ obs.zip partner := by
      refine List.mem_of_getElem? (i := 0) ?_
      rw [List.getElem?_zip_eq_some]
      exact ⟨ha, List.getElem?_eq_getElem hlt'⟩
    obtain ⟨x, hx⟩ := Option.ne_none_iff_exists'.1 (hpos a (List.mem_of_getElem? ha)).2.2
    obtain ⟨y, hy⟩ := Option.ne_none_iff_exists'.1 (hpos b (List.mem_of_getElem? hb)).2.2
    refine List.ne_nil_of_mem (a := (x - y) ^ 2) ?_
    unfold noiseSquares
    rw [List.mem_filterMap]
    exact ⟨_, hza, by simp [hx, hb, hy]⟩
  rw [if_neg hne] at p3
  exact ⟨_, by rw [hok, p3]⟩

theorem noiseSquares_mem (obs : List (Obs K)) (partner : List ℕ) (z : K) (h : z ∈ noiseSquares obs partner) :
    ∃ x y, (∃ a ∈ obs, a.sal = some x) ∧ (∃ b ∈ obs, b.sal = some y) ∧ z = (x - y) ^ 2 := by
  unfold noiseSquares at h
  rw [List.mem_filterMap] at h
  obtain ⟨⟨a, j⟩, hp, hz⟩ := h
  have ha := (List.of_mem_zip hp).1
  simp only at hz
  cases hs : a.sal with
  | none => rw [hs] at hz; simp at hz
  | some x =>
    cases hj : obs[j]? with
    | none => rw [hs, hj] at hz; simp at hz
    | some b =>
      cases hb : b.sal with
      | none => rw [hs, hj] at hz; simp [hb] at hz
      | some y =>
        rw [hs, hj] at hz
        simp only [Option.bind_some, hb, Option.some.injEq] at hz
        exact ⟨x, y, ⟨a, ha, hs⟩, ⟨b, List.mem_of_getElem? hj, hb⟩, hz.symm⟩

/-- C22, bounds. Between 0 and half the square of the range of the salinities. In particular 0 if they all agree. -/
theorem noise_variance_bounds (obs : List (Obs K)) (v lo hi : K) (hle : lo ≤ hi) (h : noiseVariance obs = .ok (some v))
    (hb : ∀ a ∈ obs, ∀ s, a.sal = some s → lo ≤ s ∧ s ≤ hi) : 0 ≤ v ∧ v ≤ (hi - lo) ^ 2 / 2 := by
  by_cases hc : Coincide obs
  · rw [noise_variance_coincide obs hc] at h
    have h' := Option.some.inj (Except.ok.inj h)
    subst h'
    exact ⟨le_rfl, by positivity⟩
  obtain ⟨partner, -, -, p3⟩ := noise_variance_value obs hc _ h
  split_ifs at p3 with hne
  have h' := Option.some.inj p3
  rw [h']
  have hpos : (0 : K) < ((noiseSquares obs partner).length : K) := by
    exact_mod_cast List.length_pos_of_ne_nil hne
  have hlow : ∀ z ∈ noiseSquares obs partner, 0 ≤ z := by
    intro z hz
    obtain ⟨x, y, _, _, rfl⟩ := noiseSquares_mem obs partner z hz
    exact sq_nonneg _
  have hup : ∀ z ∈ noiseSquares obs partner, z ≤ (hi - lo) ^ 2 := by
    intro z hz
    obtain ⟨x, y, ⟨a, ha, hx⟩, ⟨b, hbm, hy⟩, rfl⟩ := noiseSquares_mem obs partner z hz
    have h1 := hb a ha x hx
    have h2 := hb b hbm y hy
    exact sq_le_sq' (by linarith) (by linarith)
  constructor
  · exact div_nonneg (List.sum_nonneg hlow) (by linarith)
  · rw [div_le_div_iff₀ (by linarith) (by norm_num)]
    have := sum_le_card_mul _ _ hup
    nlinarith

/-- C22. Zero if the salinities all agree. -/
theorem noise_variance_constant (obs : List (Obs K)) (v c : K) (h : noiseVariance obs = .ok (some v))
    (hc : ∀ a ∈ obs, ∀ s, a.sal = some s → s = c) : v = 0 := by
  have := noise_variance_bounds obs v c c le_rfl h (fun a ha s hs => by rw [hc a ha s hs]; exact ⟨le_rfl, le_rfl⟩)
  have h2 : (c - c) ^ 2 / 2 = 0 := by ring
  rw [h2] at this
  exact le_antisymm this.2 this.1

/-- C22. Adding a constant to all salinities changes nothing. -/
theorem noise_variance_shift (obs : List (Obs K)) (c : K) :
    noiseVariance (obs.map fun a => { a with sal := a.sal.map (· + c) }) = noiseVariance obs := by
  set sh : Obs K → Obs K := fun a => { a with sal := a.sal.map (· + c) } with hsh
  have hdist : ∀ a b, dist (sh a) (sh b) = dist a b := fun a b => rfl
  have hdist' : ∀ a b, dist a (sh b) = dist a b := fun a b => rfl
  have hsq : ∀ a b, noiseSq (sh a) (sh b) = noiseSq a b := by
    intro a b
    unfold noiseSq
    simp only [hsh]
    cases a.sal <;> cases b.sal <;> simp
  have hnear : ∀ a, nearest (obs.map sh) (sh a) = nearest obs a := by
    intro a
    unfold nearest
    rw [List.map_map]
    rfl
  have hall : ((obs.map sh).all fun a => (obs.map sh).all fun b => decide (dist a b = some 0)) =
      (obs.all fun a => obs.all fun b => decide (dist a b = some 0)) := by
    rw [List.all_map]
    congr 1
    funext a
    simp only [Function.comp]
    rw [List.all_map]
    rfl
  have hmap : (obs.map sh).mapM (nearest (obs.map sh)) = obs.mapM (nearest obs) := by
    rw [List.mapM_map]
    congr 1
    funext a
    exact hnear a
  have hgather : ∀ idx : List ℕ, gather (obs.map sh) idx = (gather obs idx).map (List.map sh) := by
    intro idx
    induction idx with
    | nil => rfl
    | cons j idx ih =>
      unfold gather at ih ⊢
      rw [List.mapM_cons, List.mapM_cons, ih, List.getElem?_map]
      cases hj : obs[j]? with
      | none => rfl
      | some b =>
        simp only [Option.map_some, bind, Except.bind]
        generalize (List.mapM _ idx : Except PyErr (List (Obs K))) = x
        cases x <;> rfl
  unfold noiseVariance
  rw [hall, hmap]
  split_ifs with h
  · rfl
  · cases hi : obs.mapM (nearest obs) with
    | error e => rfl
    | ok idx =>
      simp only [bind, Except.bind]
      rw [hgather idx]
      cases ho : gather obs idx with
      | error e => rfl
      | ok other =>
        simp only [Except.map, pure, Except.pure]
        rw [List.zipWith_map]
        congr 3
        congr 1
        funext a b
        exact hsq a b

/-- C22's hypotheses are met, and the value is as claimed: nearest pairs (0,1), (1,0), (2,1). -/
example : noiseVariance ([⟨some 35, some 0, some 0⟩, ⟨some 34, some 0, some 1⟩, ⟨some 36, some 0, some 3⟩] : List (Obs ℚ)) =
    .ok (some 1) := by decide +kernel

/-- Casts at the same position are skipped as partners. -/
example : noiseVariance ([⟨some 35, some 0, some 0⟩, ⟨some 30, some 0, some 0⟩, ⟨some 36, some 0, some 3⟩] : List (Obs ℚ)) =
    .ok (some (19 / 3)) := by decide +kernel

end Verif.Props
