import Verif.Props.Level

/-!
# C80, C82: when a level is skipped and when it fails
-/

set_option linter.unusedSectionVars false

namespace Verif.Props

open Verif.Np Verif.Spec Verif.Stats Verif.Mapping Verif.Helper Verif.Level

section Field

variable {K : Type} [Field K] [LinearOrder K] [IsStrictOrderedRing K]

theorem isNearest_unique {obs : List (Obs K)} {i j k : ℕ} (hj : IsNearest obs i j) (hk : IsNearest obs i k) : j = k := by
  obtain ⟨a, b, d, h1, h2, h3, h4, h5⟩ := hj
  obtain ⟨a', b', d', i1, i2, i3, i4, i5⟩ := hk
  rw [h1] at i1
  have haa := Option.some.inj i1
  subst haa
  have e1 := h5 k b' d' i2 i3 i4
  have e2 := i5 j b d h2 h3 h4
  rcases lt_trichotomy j k with h | h | h
  · have := e2.2 h; linarith [e1.1]
  · exact h
  · have := e1.2 h; linarith [e2.1]

/-- C22. The noise variance is zero exactly if the casts all coincide or each cast has the salinity of its nearest cast. -/
theorem noise_variance_eq_zero_iff (obs : List (Obs K)) (v : K) (h : noiseVariance obs = .ok (some v)) :
    v = 0 ↔ Coincide obs ∨ ∀ (i j : ℕ) (a b : Obs K) (x y : K), IsNearest obs i j → obs[i]? = some a → obs[j]? = some b →
      a.sal = some x → b.sal = some y → x = y := by
  by_cases hc : Coincide obs
  · rw [noise_variance_coincide obs hc] at h
    have h' := Option.some.inj (Except.ok.inj h)
    exact ⟨fun _ => Or.inl hc, fun _ => h'.symm⟩
  · obtain ⟨partner, p1, p2, p3⟩ := noise_variance_value obs hc _ h
    split_ifs at p3 with hne
    rw [Option.some.injEq] at p3
    have hlen : (0 : K) < 2 * ((noiseSquares obs partner).length : K) := by
      have := List.length_pos_of_ne_nil hne
      have h2 : (0 : K) < ((noiseSquares obs partner).length : K) := by exact_mod_cast this
      linarith
    have hnn : ∀ z ∈ noiseSquares obs partner, 0 ≤ z := by
      intro z hz
      obtain ⟨x, y, -, -, rfl⟩ := noiseSquares_mem obs partner z hz
      exact sq_nonneg _
    have hv : v = 0 ↔ ∀ z ∈ noiseSquares obs partner, z = 0 := by
      rw [p3, div_eq_zero_iff, or_iff_left hlen.ne']
      constructor
      · intro hs z hz
        have := List.single_le_sum hnn z hz
        exact le_antisymm (by rw [← hs]; exact this) (hnn z hz)
      · intro hz
        rw [sum_eq_of_forall _ 0 hz, mul_zero]
    rw [hv, or_iff_right hc]
    constructor
    · intro hz i j a b x y hn ha hb hx hy
      have hi : i < partner.length := by rw [p1]; exact (List.getElem?_eq_some_iff.1 ha).1
      have hpj := isNearest_unique hn (p2 i _ (List.getElem?_eq_getElem hi))
      have hpi : partner[i]? = some j := by rw [hpj]; exact List.getElem?_eq_getElem hi
      have hmem : (x - y) ^ 2 ∈ noiseSquares obs partner := by
        unfold noiseSquares
        rw [List.mem_filterMap]
        refine ⟨(a, j), List.mem_of_getElem? (i := i) (List.getElem?_zip_eq_some.2 ⟨ha, hpi⟩), ?_⟩
        simp [hx, hb, hy]
      have := hz _ hmem
      have h2 : x - y = 0 := by simpa using this
      linarith
    · intro hall z hz
      unfold noiseSquares at hz
      rw [List.mem_filterMap] at hz
      obtain ⟨⟨a, j⟩, hp, hz⟩ := hz
      obtain ⟨i, hi⟩ := List.mem_iff_getElem?.1 hp
      rw [List.getElem?_zip_eq_some] at hi
      simp only at hz hi
      cases hs : a.sal with
      | none => rw [hs] at hz; simp at hz
      | some x =>
        cases hj : obs[j]? with
        | none => rw [hs, hj] at hz; simp at hz
        | some b =>
          cases hb : b.sal with
          | none => rw [hs, hj] at hz; simp [hb] at hz
          | some y =>
            rw [hs, hj] at hz
            simp only [Option.bind_some, hb, Option.some.injEq] at hz
            rw [← hz, hall i j a b x y (p2 i j hi.2) hi.1 hj hs hb]
            ring

end Field

/-- C80. A level with comparable casts fails exactly if, among the casts without the outliers, all are at one position or each has the
salinity of its nearest cast; the error is `LinAlgError`. -/
theorem level_fails_iff (c : MapConfig) (hc : ProperConfig c) (f : FloatPos) (n : ℕ) (h h' : HistData ℝ) (ha : HistAligned n h)
    (hn : 0 < n) (hz : ProperDepths c f h) (hw : WithoutOutliers h h') :
    ((∃ e, mapCasts c f h = .error e) ↔ Coincide (histObs h') ∨
      ∀ (i j : ℕ) (a b : Obs ℝ) (x y : ℝ), IsNearest (histObs h') i j → (histObs h')[i]? = some a → (histObs h')[j]? = some b →
        a.sal = some x → b.sal = some y → x = y) ∧
    ∀ e, mapCasts c f h = .error e → e = .linAlgError := by
  obtain ⟨h2, m, sal, data, nv, hw2, -, -, -, -, -, -, hnv, hnv0, h0, hp⟩ := level_mapping_all c hc f n h ha hn hz
  have hh := withoutOutliers_unique hw2 hw
  subst hh
  rw [← noise_variance_eq_zero_iff _ nv hnv]
  rcases hnv0.eq_or_lt with h1 | h1
  · rw [h0 h1.symm]
    exact ⟨⟨fun _ => h1.symm, fun _ => ⟨_, rfl⟩⟩, fun e he => (Except.error.inj he).symm⟩
  · obtain ⟨w1, W, res, w2, e1, e2, -, -, -, -, -, -, -, -, e⟩ := hp h1
    rw [e]
    exact ⟨⟨fun ⟨_, h⟩ => by simp at h, fun h => absurd h h1.ne'⟩, fun e he => by simp at he⟩

/-- C82. A level is skipped exactly if the float has no salinity or no pressure there, or is above the exclusion pressure, or has at most five
comparable casts. -/
theorem level_skipped_iff (c : MapConfig) (f : FloatPos) (g : GridData ℝ) (floatSal floatPres : List (Option ℝ))
    (interpSal interpPres : List (List (Option ℝ))) (n m : ℕ) (s p : Option ℝ) (salRow presRow : List (Option ℝ))
    (hsal : floatSal[n]? = some s) (hpres : floatPres[n]? = some p) (hs : interpSal[n]? = some salRow)
    (hp : interpPres[n]? = some presRow) (h1 : salRow.length = m) (h2 : presRow.length = m) (h3 : g.long.length = m)
    (h4 : g.lat.length = m) (h5 : g.dates.length = m) (h6 : m ≤ g.z.length) :
    mapLevel c f g floatSal floatPres interpSal interpPres n = .ok none ↔
      s = none ∨ p = none ∨ (∃ q, p = some q ∧ q < c.pExclude) ∨
      ∃ q js, p = some q ∧ List.Nodup js ∧ (∀ j, j ∈ js ↔ ComparableCast salRow presRow q c.pDelta j) ∧ js.length ≤ 5 := by
  unfold mapLevel item
  rw [hsal, hpres]
  simp only [bind, Except.bind]
  cases s with
  | none => simp [pure, Except.pure]
  | some sv =>
    cases p with
    | none => simp [pure, Except.pure]
    | some q =>
      simp only [reduceCtorEq, Option.some.injEq, exists_eq_left', false_or]
      obtain ⟨h, js, e, j1, j2, j3, -⟩ := hist_casts_are_comparable g floatPres interpSal interpPres n m c.pDelta q salRow presRow hs hp
        hpres h1 h2 h3 h4 h5 h6
      have hnd : js.Nodup := j1.imp fun h => ne_of_lt h
      have hlen : h.sal.length = js.length := by simpa using congrArg List.length j3
      have hex : (∃ q' js', q = q' ∧ List.Nodup js' ∧ (∀ j, j ∈ js' ↔ ComparableCast salRow presRow q' c.pDelta j) ∧ js'.length ≤ 5) ↔
          h.sal.length ≤ 5 := by
        rw [hlen]
        constructor
        · rintro ⟨q', js', rfl, n', m', l'⟩
          have : js.Perm js' := by
            rw [List.perm_ext_iff_of_nodup hnd n']
            intro a; rw [j2, m']
          rw [this.length_eq]; exact l'
        · intro hl; exact ⟨q, js, rfl, hnd, j2, hl⟩
      by_cases hex2 : c.pExclude ≤ q
      · rw [if_pos hex2, e]
        simp only
        rw [hex]
        by_cases h5' : h.sal.length > 5
        · rw [if_pos h5']
          constructor
          · intro hh
            cases hm : mapCasts c f h with
            | error e' => rw [hm] at hh; simp at hh
            | ok r => rw [hm] at hh; simp [pure, Except.pure] at hh
          · rintro (hh | hh)
            · linarith
            · omega
        · rw [if_neg h5']
          simp only [pure, Except.pure, true_iff]
          right; omega
      · rw [if_neg hex2]
        simp only [pure, Except.pure, true_iff]
        left; linarith

/-- C82. Otherwise the level is mapped from its comparable casts. -/
theorem level_mapped (c : MapConfig) (f : FloatPos) (g : GridData ℝ) (floatSal floatPres : List (Option ℝ))
    (interpSal interpPres : List (List (Option ℝ))) (n m : ℕ) (s q : ℝ) (salRow presRow : List (Option ℝ))
    (hsal : floatSal[n]? = some (some s)) (hpres : floatPres[n]? = some (some q)) (hs : interpSal[n]? = some salRow)
    (hp : interpPres[n]? = some presRow) (h1 : salRow.length = m) (h2 : presRow.length = m) (h3 : g.long.length = m)
    (h4 : g.lat.length = m) (h5 : g.dates.length = m) (h6 : m ≤ g.z.length) (hq : c.pExclude ≤ q) :
    ∃ (h : HistData ℝ) (js : List ℕ), js.Pairwise (· < ·) ∧ (∀ j, j ∈ js ↔ ComparableCast salRow presRow q c.pDelta j) ∧
      HistAligned js.length h ∧ h.sal.map some = js.map (fun j => (salRow[j]?).join) ∧
      h.pres.map some = js.map (fun j => (presRow[j]?).join) ∧ h.long.map some = js.map (fun j => g.long[j]?) ∧
      h.lat.map some = js.map (fun j => g.lat[j]?) ∧ h.dates.map some = js.map (fun j => g.dates[j]?) ∧
      h.z.map some = js.map (fun j => g.z[j]?) ∧
      (5 < js.length → mapLevel c f g floatSal floatPres interpSal interpPres n = (mapCasts c f h).map some) := by
  obtain ⟨h, js, e, j1, j2, j3, j4, j5, j6, j7, j8⟩ := hist_casts_are_comparable g floatPres interpSal interpPres n m c.pDelta q salRow
    presRow hs hp hpres h1 h2 h3 h4 h5 h6
  have hlen : ∀ {l : List ℝ} {k : ℕ → Option ℝ}, l.map some = js.map k → l.length = js.length := by
    intro l k hl; simpa using congrArg List.length hl
  refine ⟨h, js, j1, j2, ⟨hlen j3, hlen j4, hlen j5, hlen j6, hlen j7, hlen j8⟩, j3, j4, j5, j6, j7, j8, fun h5' => ?_⟩
  unfold mapLevel item
  rw [hsal, hpres]
  simp only [bind, Except.bind]
  rw [if_pos hq, e]
  simp only
  rw [if_pos (by rw [hlen j3]; exact h5')]
  cases mapCasts c f h <;> rfl

/-! ## The hypotheses are met -/

/-- A configuration. -/
noncomputable def levelConfig : MapConfig := ⟨8, 4, 4, 2, 0.1, 0.02, 20, 5, 1, 200, 100⟩

/-- Two casts half a degree apart, with different salinities. -/
noncomputable def levelCasts : HistData ℝ := ⟨[35, 36], [1000, 1010], [20, 20], [10, 10.5], [2000, 2001], [4000, 4100]⟩

theorem levelConfig_proper : ProperConfig levelConfig := by
  constructor <;> norm_num [levelConfig]

theorem levelCasts_without : WithoutOutliers levelCasts levelCasts := by
  refine ⟨[0, 1], by simp, ?_, ?_⟩
  · intro j
    have : ¬ IsOutlier levelCasts.sal j := no_outlier_among_ten _ (by simp [levelCasts]) j
    simp only [this, not_false_eq_true, and_true]
    simp only [levelCasts, List.length_cons, List.length_nil, List.mem_cons, List.not_mem_nil, or_false]
    omega
  · constructor <;> rfl

/-- C79-C81's hypotheses are met by two casts, and the level is mapped. -/
example : ∃ v, mapCasts levelConfig ⟨10, 21, 2010, 4000⟩ levelCasts = .ok v := by
  have hz : ProperDepths levelConfig ⟨10, 21, 2010, 4000⟩ levelCasts := by
    intro _
    refine ⟨by norm_num, ?_⟩
    intro z hz
    simp only [levelCasts, List.mem_cons, List.not_mem_nil, or_false] at hz
    rcases hz with rfl | rfl <;> norm_num
  have key := (level_fails_iff levelConfig levelConfig_proper ⟨10, 21, 2010, 4000⟩ 2 levelCasts levelCasts
    ⟨rfl, rfl, rfl, rfl, rfl, rfl⟩ (by norm_num) hz levelCasts_without).1
  have hobs : histObs levelCasts = [⟨some 35, some 10, some 20⟩, ⟨some 36, some 10.5, some 20⟩] := rfl
  have hsd : SqDist (⟨some 35, some 10, some 20⟩ : Obs ℝ) ⟨some 36, some 10.5, some 20⟩ (1 / 4) :=
    ⟨10, 10.5, 20, 20, rfl, rfl, rfl, rfl, by norm_num⟩
  cases hm : mapCasts levelConfig ⟨10, 21, 2010, 4000⟩ levelCasts with
  | ok v => exact ⟨v, rfl⟩
  | error e =>
    exfalso
    rcases key.1 ⟨e, hm⟩ with h | h
    · rw [hobs] at h
      obtain ⟨la, lb, xa, xb, e1, e2, e3, e4, e5⟩ := h _ (List.mem_cons_self) _ (List.mem_cons_of_mem _ List.mem_cons_self)
      simp only [Option.some.injEq] at e1 e2 e3 e4
      subst e1 e2 e3 e4
      norm_num at e5
    · have := h 0 1 _ _ 35 36 ⟨_, _, 1 / 4, rfl, rfl, hsd, by norm_num, ?_⟩ rfl rfl rfl rfl
      · norm_num at this
      · intro k cc d hk hd hd0
        rw [hobs] at hk
        obtain ⟨la, lb, xa, xb, e1, e2, e3, e4, e5⟩ := hd
        rcases k with _ | _ | k
        · simp only [List.getElem?_cons_zero, Option.some.injEq] at hk
          subst hk
          simp only [Option.some.injEq] at e1 e2 e3 e4
          subst e1 e2 e3 e4
          norm_num at e5
          exact absurd e5 hd0
        · simp only [zero_add, List.getElem?_cons_succ, List.getElem?_cons_zero, Option.some.injEq] at hk
          subst hk
          simp only [Option.some.injEq] at e1 e2 e3 e4
          subst e1 e2 e3 e4
          refine ⟨by rw [e5]; norm_num, fun hlt => by omega⟩
        · simp at hk

end Verif.Props
