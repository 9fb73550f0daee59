import Verif.Lemmas.Covar

/-!
# Properties of `covar_xyt_pv` and `build_cov`
-/

set_option linter.unusedSectionVars false

namespace Verif.Props

open Verif.Np Verif.Spec Verif.Stats

/-! ## C23: `covar_xyt_pv` -/

/-- C23, value. The entry depends only on the two points: the exponential of minus the squared scaled distance, with the squared scaled
difference of the potential vorticities if asked for. Column 0 is scaled by the argument called `long`, column 1 by the one
called `lat`; the vorticity takes column 0 as the latitude. -/
theorem covar_value {m n : ℕ} (p1 : Fin m → Pos) (p2 : Fin n → Pos) (S : Scales) (M : Matrix (Fin m) (Fin n) ℝ)
    (hS : ProperScales S) (h : covarXytPv p1 p2 S = .ok M) (i : Fin m) (j : Fin n) :
    M i j = Real.exp (-(scaledSq S.long S.lat S.age (p1 i) (p2 j) +
      if S.pvUse = 1 then pvSq S.phi (vorticity (p1 i).c0 (p1 i).c3) (vorticity (p2 j).c0 (p2 j).c3) else 0)) := by
  have _ := hS
  rw [covarXytPv_ok h, Matrix.of_apply, covarEntry_eq]

/-- C23. Of points with themselves it is a correlation matrix: symmetric, unit diagonal, entries in `(0, 1]`, positive semi-definite. -/
theorem covar_is_correlation {n : ℕ} (p : Fin n → Pos) (S : Scales) (M : Matrix (Fin n) (Fin n) ℝ)
    (hS : ProperScales S) (h : covarXytPv p p S = .ok M) : IsCorrelation M := by
  refine ⟨?_, ?_, ?_, ?_, ?_⟩
  · intro i j
    rw [covar_value p p S M hS h, covar_value p p S M hS h, scaledSq_symm, pvSq_symm]
  · intro i
    rw [covar_value p p S M hS h, scaledSq_self, pvSq_self]
    simp
  · intro i j
    rw [covar_value p p S M hS h]; exact Real.exp_pos _
  · intro i j
    rw [covar_value p p S M hS h]
    apply Real.exp_le_one_iff.2
    have := scaledSq_nonneg S.long S.lat S.age (p i) (p j)
    have := pvSq_nonneg S.phi (vorticity (p i).c0 (p i).c3) (vorticity (p j).c0 (p j).c3)
    split_ifs <;> linarith
  · intro c
    have := (Kernels.posSemidef_iff _).1 (covarEntry_psd S p)
    rw [covarXytPv_ok h]
    exact this.2 c

/-- C23. Entries between different point sets are in `(0, 1]` too. -/
theorem covar_range {m n : ℕ} (p1 : Fin m → Pos) (p2 : Fin n → Pos) (S : Scales) (M : Matrix (Fin m) (Fin n) ℝ)
    (hS : ProperScales S) (h : covarXytPv p1 p2 S = .ok M) (i : Fin m) (j : Fin n) : 0 < M i j ∧ M i j ≤ 1 := by
  rw [covar_value p1 p2 S M hS h]
  refine ⟨Real.exp_pos _, Real.exp_le_one_iff.2 ?_⟩
  have := scaledSq_nonneg S.long S.lat S.age (p1 i) (p2 j)
  have := pvSq_nonneg S.phi (vorticity (p1 i).c0 (p1 i).c3) (vorticity (p2 j).c0 (p2 j).c3)
  split_ifs <;> linarith

/-- C23. Exchanging the two point sets transposes the matrix. -/
theorem covar_transpose {m n : ℕ} (p1 : Fin m → Pos) (p2 : Fin n → Pos) (S : Scales) (M : Matrix (Fin m) (Fin n) ℝ)
    (N : Matrix (Fin n) (Fin m) ℝ) (hS : ProperScales S) (h : covarXytPv p1 p2 S = .ok M) (h' : covarXytPv p2 p1 S = .ok N) (i : Fin m) (j : Fin n) :
    M i j = N j i := by
  rw [covar_value p1 p2 S M hS h, covar_value p2 p1 S N hS h', scaledSq_symm, pvSq_symm]

/-- C23. When the call succeeds: always without the vorticity; with it, if there are points and none has depth zero. -/
theorem covar_succeeds_iff {m n : ℕ} (p1 : Fin m → Pos) (p2 : Fin n → Pos) (S : Scales) :
    (∃ M, covarXytPv p1 p2 S = .ok M) ↔
      (S.pvUse = 1 → 0 < m ∧ 0 < n ∧ (∀ i, (p1 i).c3 ≠ 0) ∧ ∀ j, (p2 j).c3 ≠ 0) := by
  unfold covarXytPv
  by_cases hp : S.pvUse = 1
  · simp only [hp, true_and, true_implies]
    split_ifs with h1 h2 h3 h4
    · simp [h1]
    · simp only [reduceCtorEq, exists_false, false_iff]
      rintro ⟨_, _, h, _⟩
      obtain ⟨i, hi⟩ := h2; exact h i hi
    · simp [h3]
    · simp only [reduceCtorEq, exists_false, false_iff]
      rintro ⟨_, _, _, h⟩
      obtain ⟨i, hi⟩ := h4; exact h i hi
    · simp only [Except.ok.injEq, exists_eq', true_iff]
      push Not at h2 h4
      exact ⟨by omega, by omega, h2, h4⟩
  · simp [hp]

/-- The hypotheses are met: three casts, vorticity used. -/
example : ∃ M, covarXytPv (fun i : Fin 3 => (⟨10 + i, 20, 2000, 1000⟩ : Pos)) (fun i : Fin 3 => ⟨10 + i, 20, 2000, 1000⟩) ⟨4, 8, 20, 0.5, 1⟩ = .ok M :=
  (covar_succeeds_iff _ _ _).2 fun _ => ⟨by norm_num, by norm_num, fun _ => by norm_num, fun _ => by norm_num⟩

/-! ## C24: `build_cov` -/

/-- What C24 says about the vertical correlation of levels `i`, `j` of a profile. -/
def VerticalCorrelation {m : ℕ} (pt : Fin m → Option ℝ) (i j : Fin m) (v : ℝ) : Prop :=
  (i = j → v = 1) ∧ ((pt i = none ∨ pt j = none) → v = 1) ∧
  ∀ a b, i ≠ j → pt i = some a → pt j = some b →
    ∃ s, OnBrokenLine (if i < j then downScales else upScales) a s ∧ 1 ≤ s ∧ s ≤ 6 ∧ v = Real.exp (-((b - a) ^ 2 / s ^ 2))

theorem verticalEntry_spec {m : ℕ} (pt : Fin m → Option ℝ) (i j : Fin m) (v : ℝ) (h : verticalEntry pt i j = .ok v) :
    VerticalCorrelation pt i j v ∧ 0 < v ∧ v ≤ 1 := by
  unfold verticalEntry at h
  by_cases hij : i = j
  · rw [if_pos hij] at h
    have := Except.ok.inj h
    subst this
    exact ⟨⟨fun _ => rfl, fun _ => rfl, fun a b hn => absurd hij hn⟩, by norm_num, le_rfl⟩
  · rw [if_neg hij] at h
    cases hi : pt i with
    | none =>
      rw [hi] at h
      simp only [verticalScale, bind, Except.bind] at h
      have := Except.ok.inj h
      subst this
      exact ⟨⟨fun _ => rfl, fun _ => rfl, fun a b _ ha => by rw [hi] at ha; simp at ha⟩, by norm_num, le_rfl⟩
    | some a =>
      rw [hi] at h
      simp only [verticalScale, bind, Except.bind] at h
      by_cases hr : a < -2 ∨ 30 < a
      · rw [if_pos hr] at h; simp at h
      · rw [if_neg hr] at h
        push Not at hr
        have hs : ∃ s, tableInterp (if i < j then scaleDown else scaleUp) a = some s ∧
            OnBrokenLine (if i < j then downScales else upScales) a s ∧ 1 ≤ s ∧ s ≤ 6 := by
          split_ifs
          · exact interp_down a hr.1 hr.2
          · exact interp_up a hr.1 hr.2
        obtain ⟨s, hs1, hs2, hs3, hs4⟩ := hs
        rw [hs1] at h
        cases hj : pt j with
        | none =>
          rw [hj] at h
          have := Except.ok.inj h
          subst this
          exact ⟨⟨fun _ => rfl, fun _ => rfl, fun a b _ _ hb => by rw [hj] at hb; simp at hb⟩, by norm_num, le_rfl⟩
        | some b =>
          rw [hj] at h
          have h' := Except.ok.inj h
          have e : v = Real.exp (-((b - a) ^ 2 / s ^ 2)) := by rw [← h']; congr 1; ring
          refine ⟨⟨fun h => absurd h hij, ?_, ?_⟩, ?_, ?_⟩
          · rintro (hn | hn)
            · rw [hi] at hn; simp at hn
            · rw [hj] at hn; simp at hn
          · intro a' b' _ ha hb
            rw [hi] at ha; rw [hj] at hb
            rw [← Option.some.inj ha, ← Option.some.inj hb]
            exact ⟨s, hs2, hs3, hs4, e⟩
          · rw [e]; exact Real.exp_pos _
          · rw [e]; apply Real.exp_le_one_iff.2
            have : 0 ≤ (b - a) ^ 2 / s ^ 2 := by positivity
            linarith

/-- Squared scaled horizontal distance of two profiles: column 0 scaled by `lat`, column 1 by `long`. -/
noncomputable def horizontalSq (long lat : ℝ) (c d : Coord) : ℝ :=
  (c.c0 - d.c0) ^ 2 / lat ^ 2 + (c.c1 - d.c1) ^ 2 / long ^ 2

/-- Planetary vorticity over depth. -/
noncomputable def rawVorticity (c : Coord) : ℝ := 2 * 7.292 * 10 ^ (-5 : ℤ) * Real.sin (c.c0 * Real.pi / 180) / c.c2

open Classical in
/-- The horizontal correlation of C24; the vorticity counts only if it does not vanish at the first profile. -/
noncomputable def horizontalCorrelation {n : ℕ} (coord : Fin n → Coord) (long lat phi : ℝ) (usePv : Bool) (p q : Fin n) : ℝ :=
  Real.exp (-(horizontalSq long lat (coord p) (coord q) +
    if usePv = true ∧ rawVorticity (coord p) ≠ 0 then pvSq phi (rawVorticity (coord p)) (rawVorticity (coord q)) else 0))

theorem covarxyPv_eq {n : ℕ} (coord : Fin n → Coord) (long lat phi : ℝ) (usePv : Bool) (p q : Fin n) :
    covarxyPv (coord p) coord long lat phi usePv q = horizontalCorrelation coord long lat phi usePv p q := by
  unfold covarxyPv horizontalCorrelation
  have e : ∀ c, pvXy c = rawVorticity c := fun c => rfl
  simp only [pvSq_eq, e]
  by_cases h : usePv = true ∧ rawVorticity (coord p) ≠ 0
  · rw [if_pos ⟨h.1, h.2, p, h.2⟩, if_pos h]
    simp only [horizontalSq, div_pow]
  · rw [if_neg (fun hc => h ⟨hc.1, hc.2.1⟩), if_neg h]
    simp only [horizontalSq, div_pow, add_zero]

/-- C24. Each entry is the product of the horizontal correlation of the profiles and a vertical correlation of the levels, with a vertical scale
between 1 and 6 read from the tables at the temperature of the first level. It is in `(0, 1]`, and 1 on the diagonal. -/
theorem build_cov_entry {n m : ℕ} (ptmp : Fin n → Fin m → Option ℝ) (coord : Fin n → Coord) (long lat phi : ℝ) (usePv : Bool)
    (M : Fin n × Fin m → Fin n × Fin m → ℝ) (hg : ProperGrid coord long lat phi usePv)
    (h : buildCov ptmp coord long lat phi usePv = .ok M) (p q : Fin n) (i j : Fin m) :
    (∃ v, VerticalCorrelation (ptmp p) i j v ∧ M (p, i) (q, j) = horizontalCorrelation coord long lat phi usePv p q * v) ∧
      0 < M (p, i) (q, j) ∧ M (p, i) (q, j) ≤ 1 := by
  have _ := hg
  unfold buildCov at h
  split_ifs at h with he
  have h' := Except.ok.inj h
  have hv : ∃ v, verticalEntry (ptmp p) i j = .ok v := by
    cases hv : verticalEntry (ptmp p) i j with
    | ok v => exact ⟨v, rfl⟩
    | error e => exact absurd ⟨p, i, j, e, hv⟩ he
  obtain ⟨v, hv⟩ := hv
  obtain ⟨h1, h2, h3⟩ := verticalEntry_spec (ptmp p) i j v hv
  have e : M (p, i) (q, j) = horizontalCorrelation coord long lat phi usePv p q * v := by
    rw [← h']
    simp only [hv, covarxyPv_eq]
  have hpos : 0 < horizontalCorrelation coord long lat phi usePv p q := Real.exp_pos _
  have hle : horizontalCorrelation coord long lat phi usePv p q ≤ 1 := by
    apply Real.exp_le_one_iff.2
    have h5 := pvSq_nonneg phi (rawVorticity (coord p)) (rawVorticity (coord q))
    have h6 : 0 ≤ horizontalSq long lat (coord p) (coord q) := by unfold horizontalSq; positivity
    split_ifs <;> linarith
  exact ⟨⟨v, h1, e⟩, by rw [e]; positivity, by rw [e]; nlinarith⟩

/-- C24, diagonal. -/
theorem build_cov_diagonal {n m : ℕ} (ptmp : Fin n → Fin m → Option ℝ) (coord : Fin n → Coord) (long lat phi : ℝ) (usePv : Bool)
    (M : Fin n × Fin m → Fin n × Fin m → ℝ) (hg : ProperGrid coord long lat phi usePv)
    (h : buildCov ptmp coord long lat phi usePv = .ok M) (a : Fin n × Fin m) :
    M a a = 1 := by
  obtain ⟨⟨v, ⟨hv, -⟩, e⟩, -⟩ := build_cov_entry ptmp coord long lat phi usePv M hg h a.1 a.1 a.2 a.2
  rw [hv rfl] at e
  rw [show M a a = M (a.1, a.2) (a.1, a.2) from rfl, e]
  unfold horizontalCorrelation horizontalSq
  rw [pvSq_self]; simp

/-- C24. The call fails exactly if a profile of two or more levels has a temperature outside [-2, 30]. -/
theorem build_cov_fails_iff {n m : ℕ} (ptmp : Fin n → Fin m → Option ℝ) (coord : Fin n → Coord) (long lat phi : ℝ) (usePv : Bool) :
    buildCov ptmp coord long lat phi usePv = .error .valueError ↔
      2 ≤ m ∧ ∃ p i t, ptmp p i = some t ∧ (t < -2 ∨ 30 < t) := by
  have key : (∃ p i j e, verticalEntry (ptmp p) i j = .error e) ↔
      2 ≤ m ∧ ∃ p i t, ptmp p i = some t ∧ (t < -2 ∨ 30 < t) := by
    constructor
    · rintro ⟨p, i, j, e, h⟩
      unfold verticalEntry at h
      by_cases hij : i = j
      · rw [if_pos hij] at h; simp at h
      rw [if_neg hij] at h
      refine ⟨?_, p, i, ?_⟩
      · have h1 := i.isLt; have h2 := j.isLt
        have : i.val ≠ j.val := fun hc => hij (Fin.ext hc)
        omega
      · cases hi : ptmp p i with
        | none => rw [hi] at h; simp [verticalScale, bind, Except.bind] at h
        | some t =>
          refine ⟨t, rfl, ?_⟩
          by_contra hc
          rw [hi] at h
          simp only [verticalScale, if_neg hc, bind, Except.bind] at h
          cases h1 : tableInterp (if i < j then scaleDown else scaleUp) t <;> rw [h1] at h <;>
            cases h2 : ptmp p j <;> rw [h2] at h <;> simp at h
    · rintro ⟨hm, p, i, t, hi, hr⟩
      have hj : ∃ j : Fin m, i ≠ j := by
        by_cases h0 : i.val = 0
        · exact ⟨⟨1, by omega⟩, fun hc => by rw [hc] at h0; simp at h0⟩
        · exact ⟨⟨0, by omega⟩, fun hc => by rw [hc] at h0; simp at h0⟩
      obtain ⟨j, hj⟩ := hj
      refine ⟨p, i, j, .valueError, ?_⟩
      unfold verticalEntry
      rw [if_neg hj, hi]
      simp only [verticalScale, if_pos hr, bind, Except.bind]
  unfold buildCov
  rw [← key]
  split_ifs with h
  · simp [h]
  · simp [h]

theorem build_cov_ok {n m : ℕ} (ptmp : Fin n → Fin m → Option ℝ) (coord : Fin n → Coord) (long lat phi : ℝ) (usePv : Bool)
    (hr : ∀ p i t, ptmp p i = some t → -2 ≤ t ∧ t ≤ 30) : ∃ M, buildCov ptmp coord long lat phi usePv = .ok M := by
  cases h : buildCov ptmp coord long lat phi usePv with
  | ok M => exact ⟨M, rfl⟩
  | error e =>
    exfalso
    have he : e = .valueError := by
      unfold buildCov at h
      split_ifs at h
      exact (Except.error.inj h).symm
    rw [he] at h
    obtain ⟨-, p, i, t, hi, hc⟩ := (build_cov_fails_iff ptmp coord long lat phi usePv).1 h
    have := hr p i t hi
    rcases hc with hc | hc <;> linarith

/-! ## C25: symmetry -/

theorem onLine_down_flat (t s : ℝ) (h : 18 ≤ t) (hs : OnBrokenLine downScales t s) : s = 6 := by
  obtain ⟨k, x0, y0, x1, y1, h0, h1, hx0, hx1, he⟩ := hs
  unfold downScales at h0 h1
  have hk : k < 8 := by
    by_contra hc
    rw [List.getElem?_eq_none (by simp; omega)] at h1; simp at h1
  interval_cases k <;> simp at h0 h1 <;> obtain ⟨rfl, rfl⟩ := h0 <;> obtain ⟨rfl, rfl⟩ := h1 <;> first
    | (exfalso; norm_num at hx1; linarith)
    | (norm_num at hx0 hx1 he; linarith)
    | (have : t = 18 := by linarith
       subst this; norm_num at he; linarith)

theorem onLine_up_flat (t s : ℝ) (h : 18 ≤ t) (hs : OnBrokenLine upScales t s) : s = 6 := by
  obtain ⟨k, x0, y0, x1, y1, h0, h1, hx0, hx1, he⟩ := hs
  unfold upScales at h0 h1
  have hk : k < 8 := by
    by_contra hc
    rw [List.getElem?_eq_none (by simp; omega)] at h1; simp at h1
  interval_cases k <;> simp at h0 h1 <;> obtain ⟨rfl, rfl⟩ := h0 <;> obtain ⟨rfl, rfl⟩ := h1 <;> first
    | (exfalso; norm_num at hx1; linarith)
    | (norm_num at hx0 hx1 he; linarith)
    | (have : t = 18 := by linarith
       subst this; norm_num at he; linarith)

/-- C25 holds in part: where both tables are flat (18 to 30 degrees), for profiles with the same temperatures at each level and without the
potential vorticity. Missing: other temperatures, where it is false. -/
theorem build_cov_symmetric_partial {n m : ℕ} (ptmp : Fin n → Fin m → Option ℝ) (coord : Fin n → Coord) (long lat phi : ℝ)
    (M : Fin n × Fin m → Fin n × Fin m → ℝ) (hg : ProperGrid coord long lat phi false)
    (h : buildCov ptmp coord long lat phi false = .ok M)
    (hr : ∀ p i t, ptmp p i = some t → 18 ≤ t) (hsame : ∀ p q i, ptmp p i = ptmp q i) (a b : Fin n × Fin m) :
    M a b = M b a := by
  obtain ⟨p, i⟩ := a
  obtain ⟨q, j⟩ := b
  obtain ⟨⟨v, ⟨v1, v2, v3⟩, e1⟩, -⟩ := build_cov_entry ptmp coord long lat phi false M hg h p q i j
  obtain ⟨⟨w, ⟨w1, w2, w3⟩, e2⟩, -⟩ := build_cov_entry ptmp coord long lat phi false M hg h q p j i
  have hh : horizontalCorrelation coord long lat phi false p q = horizontalCorrelation coord long lat phi false q p := by
    unfold horizontalCorrelation horizontalSq
    simp only [Bool.false_eq_true, false_and, if_false]
    rw [show ((coord p).c0 - (coord q).c0) ^ 2 = ((coord q).c0 - (coord p).c0) ^ 2 by ring,
      show ((coord p).c1 - (coord q).c1) ^ 2 = ((coord q).c1 - (coord p).c1) ^ 2 by ring]
  rw [e1, e2, hh]
  congr 1
  by_cases hij : i = j
  · rw [v1 hij, w1 hij.symm]
  · cases hi : ptmp p i with
    | none => rw [v2 (Or.inl hi), w2 (Or.inr (by rw [hsame q p]; exact hi))]
    | some x =>
      cases hj : ptmp p j with
      | none => rw [v2 (Or.inr hj), w2 (Or.inl (by rw [hsame q p]; exact hj))]
      | some y =>
        obtain ⟨s, hs, -, -, rfl⟩ := v3 x y hij hi hj
        obtain ⟨s', hs', -, -, rfl⟩ := w3 y x (Ne.symm hij) (by rw [hsame q p]; exact hj) (by rw [hsame q p]; exact hi)
        have f1 : s = 6 := by
          split_ifs at hs
          · exact onLine_down_flat x s (hr p i x hi) hs
          · exact onLine_up_flat x s (hr p i x hi) hs
        have f2 : s' = 6 := by
          split_ifs at hs'
          · exact onLine_down_flat y s' (hr p j y hj) hs'
          · exact onLine_up_flat y s' (hr p j y hj) hs'
        rw [f1, f2]; congr 3; ring

theorem onLine_up_three (s : ℝ) (hs : OnBrokenLine upScales 3 s) : s = 7 / 3 := by
  obtain ⟨k, x0, y0, x1, y1, h0, h1, hx0, hx1, he⟩ := hs
  unfold upScales at h0 h1
  have hk : k < 8 := by
    by_contra hc
    rw [List.getElem?_eq_none (by simp; omega)] at h1; simp at h1
  interval_cases k <;> simp at h0 h1 <;> obtain ⟨rfl, rfl⟩ := h0 <;> obtain ⟨rfl, rfl⟩ := h1 <;> first
    | (exfalso; norm_num at hx1; done)
    | (exfalso; norm_num at hx0; done)
    | (norm_num at he; linarith)

/-- C25 is false: one profile with two levels at 20 and 3 degrees. -/
theorem build_cov_not_symmetric :
    ∃ (M : Fin 1 × Fin 2 → Fin 1 × Fin 2 → ℝ),
      buildCov (fun (_ : Fin 1) (i : Fin 2) => some (if i = 0 then (20 : ℝ) else 3)) (fun _ => ⟨0, 0, 1000⟩) 4 4 1 false = .ok M ∧
      M (0, 0) (0, 1) ≠ M (0, 1) (0, 0) := by
  obtain ⟨M, hM⟩ := build_cov_ok (fun (_ : Fin 1) (i : Fin 2) => some (if i = 0 then (20 : ℝ) else 3)) (fun _ => ⟨0, 0, 1000⟩) 4 4 1 false
    (by intro p i t ht
        have := Option.some.inj ht
        split_ifs at this <;> subst this <;> norm_num)
  refine ⟨M, hM, ?_⟩
  have hg : ProperGrid (fun _ : Fin 1 => (⟨0, 0, 1000⟩ : Coord)) 4 4 1 false := ⟨by norm_num, by norm_num, by simp⟩
  obtain ⟨⟨v, ⟨-, -, v3⟩, e1⟩, -⟩ := build_cov_entry _ _ _ _ _ _ M hg hM 0 0 0 1
  obtain ⟨⟨w, ⟨-, -, w3⟩, e2⟩, -⟩ := build_cov_entry _ _ _ _ _ _ M hg hM 0 0 1 0
  obtain ⟨s, hs, -, -, rfl⟩ := v3 20 3 (by decide) (by simp) (by simp)
  obtain ⟨s', hs', -, -, rfl⟩ := w3 3 20 (by decide) (by simp) (by simp)
  rw [if_pos (by decide)] at hs
  rw [if_neg (by decide)] at hs'
  have f1 := onLine_down_flat 20 s (by norm_num) hs
  have f2 := onLine_up_three s' hs'
  subst f1 f2
  rw [e1, e2]
  intro hc
  have hne : horizontalCorrelation (fun _ : Fin 1 => (⟨0, 0, 1000⟩ : Coord)) 4 4 1 false 0 0 ≠ 0 := (Real.exp_pos _).ne'
  have := Real.exp_injective (mul_left_cancel₀ hne hc)
  norm_num at this

/-- With the potential vorticity even the horizontal part is not symmetric: a profile on the equator and one north of it. -/
theorem build_cov_not_symmetric_equator :
    ∃ (M : Fin 2 × Fin 1 → Fin 2 × Fin 1 → ℝ),
      buildCov (fun (_ : Fin 2) (_ : Fin 1) => some (20 : ℝ)) (fun p => ⟨if p = 0 then 0 else 90, 0, 1000⟩) 4 4 1 true = .ok M ∧
      M (0, 0) (1, 0) ≠ M (1, 0) (0, 0) := by
  obtain ⟨M, hM⟩ := build_cov_ok (fun (_ : Fin 2) (_ : Fin 1) => some (20 : ℝ)) (fun p => ⟨if p = 0 then 0 else 90, 0, 1000⟩) 4 4 1 true
    (by intro p i t ht
        have := Option.some.inj ht
        subst this; norm_num)
  refine ⟨M, hM, ?_⟩
  have hg : ProperGrid (fun p : Fin 2 => (⟨if p = 0 then 0 else 90, 0, 1000⟩ : Coord)) 4 4 1 true :=
    ⟨by norm_num, by norm_num, fun _ => ⟨by norm_num, fun _ => by norm_num⟩⟩
  obtain ⟨⟨v, ⟨v1, -, -⟩, e1⟩, -⟩ := build_cov_entry _ _ _ _ _ _ M hg hM 0 1 0 0
  obtain ⟨⟨w, ⟨w1, -, -⟩, e2⟩, -⟩ := build_cov_entry _ _ _ _ _ _ M hg hM 1 0 0 0
  rw [e1, e2, v1 rfl, w1 rfl, mul_one, mul_one]
  intro hc
  have hc' := Real.exp_injective hc
  have r0 : rawVorticity ⟨0, 0, 1000⟩ = 0 := by unfold rawVorticity; simp
  have r1 : rawVorticity ⟨90, 0, 1000⟩ ≠ 0 := by
    unfold rawVorticity
    rw [show (90 : ℝ) * Real.pi / 180 = Real.pi / 2 by ring, Real.sin_pi_div_two]
    norm_num
  simp only [show ((1 : Fin 2) = 0) = False by simp, if_true, if_false, r0] at hc'
  rw [if_neg (by simp), if_pos ⟨trivial, r1⟩] at hc'
  unfold pvSq horizontalSq at hc'
  have : rawVorticity ⟨90, 0, 1000⟩ ^ 2 ≠ 0 := pow_ne_zero 2 r1
  simp [this] at hc'

end Verif.Props
