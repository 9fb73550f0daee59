import Verif.Spec.Symmetry
import Verif.Props.Covar

/-!
# C170: when the covariance of the observations is symmetric
-/

set_option linter.unusedSectionVars false

namespace Verif.Props

open Verif.Stats Verif.Spec

/-- A table with ascending first entries has one value at each place. -/
theorem onLine_unique (table : List (ℝ × ℝ)) (hs : (table.map Prod.fst).Pairwise (· < ·)) (x y y' : ℝ)
    (h : OnBrokenLine table x y) (h' : OnBrokenLine table x y') : y = y' := by
  have asc : ∀ (k l : ℕ) (a b : ℝ × ℝ), k < l → table[k]? = some a → table[l]? = some b → a.1 < b.1 := by
    intro k l a b hkl ha hb
    rw [List.pairwise_iff_getElem] at hs
    obtain ⟨hk, ha⟩ := List.getElem?_eq_some_iff.1 ha
    obtain ⟨hl, hb⟩ := List.getElem?_eq_some_iff.1 hb
    have := hs k l (by simpa using hk) (by simpa using hl) hkl
    simpa [ha, hb] using this
  have key : ∀ (k l : ℕ) (y y' x0 y0 x1 y1 u0 v0 u1 v1 : ℝ), k ≤ l → table[k]? = some (x0, y0) → table[k + 1]? = some (x1, y1) →
      table[l]? = some (u0, v0) → table[l + 1]? = some (u1, v1) → x ≤ x1 → u0 ≤ x → (x1 - x0) * (y - y0) = (y1 - y0) * (x - x0) →
      (u1 - u0) * (y' - v0) = (v1 - v0) * (x - u0) → y = y' := by
    intro k l y y' x0 y0 x1 y1 u0 v0 u1 v1 hkl h0 h1 g0 g1 hx hu e e'
    have p1 := asc k (k + 1) _ _ (by omega) h0 h1
    have p2 := asc l (l + 1) _ _ (by omega) g0 g1
    simp only at p1 p2
    rcases Nat.lt_trichotomy (k + 1) l with hl | hl | hl
    · have := asc (k + 1) l _ _ hl h1 g0
      simp only at this
      linarith
    · subst hl
      rw [h1] at g0
      simp only [Option.some.injEq, Prod.mk.injEq] at g0
      obtain ⟨rfl, rfl⟩ := g0
      have hxe : x = x1 := le_antisymm hx hu
      subst hxe
      have e1 : y = y1 := by
        have : (x - x0) * (y - y1) = 0 := by linarith
        rcases mul_eq_zero.1 this with hz | hz <;> linarith
      have e2 : y' = y1 := by
        have : (u1 - x) * (y' - y1) = 0 := by rw [e']; ring
        rcases mul_eq_zero.1 this with hz | hz <;> linarith
      rw [e1, e2]
    · have : l = k := by omega
      subst this
      rw [h0] at g0; rw [h1] at g1
      simp only [Option.some.injEq, Prod.mk.injEq] at g0 g1
      obtain ⟨rfl, rfl⟩ := g0
      obtain ⟨rfl, rfl⟩ := g1
      have : (x1 - x0) * (y - y') = 0 := by linarith
      rcases mul_eq_zero.1 this with hz | hz <;> linarith
  obtain ⟨k, x0, y0, x1, y1, h0, h1, hx0, hx1, e⟩ := h
  obtain ⟨l, u0, v0, u1, v1, g0, g1, hu0, hu1, e'⟩ := h'
  rcases Nat.le_total k l with hkl | hkl
  · exact key k l y y' x0 y0 x1 y1 u0 v0 u1 v1 hkl h0 h1 g0 g1 hx1 hu0 e e'
  · exact (key l k y' y u0 v0 u1 v1 x0 y0 x1 y1 hkl g0 g1 h0 h1 hu1 hx0 e' e).symm

theorem rawVorticity_zero (c : Coord) (hc : c.c2 ≠ 0) : rawVorticity c = 0 ↔ OnEquator c := by
  unfold rawVorticity OnEquator
  have h1 : (2 * 7.292 * (10 : ℝ) ^ (-5 : ℤ)) ≠ 0 := by positivity
  rw [div_eq_zero_iff, mul_eq_zero]
  constructor
  · rintro ((h | h) | h)
    · exact absurd h h1
    · obtain ⟨k, hk⟩ := Real.sin_eq_zero_iff.1 h
      refine ⟨k, ?_⟩
      have hp := Real.pi_ne_zero
      have : (c.c0 - 180 * k) * Real.pi = 0 := by linarith
      rcases mul_eq_zero.1 this with hz | hz
      · linarith
      · exact absurd hz hp
    · exact absurd h hc
  · rintro ⟨k, hk⟩
    refine Or.inl (Or.inr (Real.sin_eq_zero_iff.2 ⟨k, ?_⟩))
    rw [hk]; ring

/-- The horizontal part is symmetric exactly if the vorticity is not used, or all profiles or none are on the equator. -/
theorem horizontal_symmetric_iff {n : ℕ} (coord : Fin n → Coord) (long lat phi : ℝ) (usePv : Bool) (hg : ProperGrid coord long lat phi usePv) :
    (∀ p q, horizontalCorrelation coord long lat phi usePv p q = horizontalCorrelation coord long lat phi usePv q p) ↔
      (usePv = true → (∀ p, OnEquator (coord p)) ∨ ∀ p, ¬ OnEquator (coord p)) := by
  have hsq : ∀ p q, horizontalSq long lat (coord p) (coord q) = horizontalSq long lat (coord q) (coord p) := by
    intro p q
    unfold horizontalSq
    rw [show ((coord p).c0 - (coord q).c0) ^ 2 = ((coord q).c0 - (coord p).c0) ^ 2 by ring,
      show ((coord p).c1 - (coord q).c1) ^ 2 = ((coord q).c1 - (coord p).c1) ^ 2 by ring]
  by_cases hu : usePv = true
  · obtain ⟨hphi, hz⟩ := hg.2.2 hu
    have hv : ∀ p, rawVorticity (coord p) = 0 ↔ OnEquator (coord p) := fun p => rawVorticity_zero _ (hz p)
    constructor
    · intro hs _
      by_contra hc
      push Not at hc
      obtain ⟨⟨p, hp⟩, q, hq⟩ := hc
      have hp' : rawVorticity (coord p) ≠ 0 := fun h => hp ((hv p).1 h)
      have hq' : rawVorticity (coord q) = 0 := (hv q).2 hq
      have h := hs p q
      unfold horizontalCorrelation at h
      have h := Real.exp_injective h
      rw [if_pos ⟨hu, hp'⟩, if_neg (fun hc => hc.2 hq'), hsq p q, hq'] at h
      have : pvSq phi (rawVorticity (coord p)) 0 = 0 := by linarith
      unfold pvSq at this
      have hpos : 0 < (rawVorticity (coord p)) ^ 2 := by positivity
      simp [hp', hphi] at this
    · intro h p q
      have h := h hu
      unfold horizontalCorrelation
      rw [hsq p q]
      rcases h with h | h
      · rw [if_neg (fun hc => hc.2 ((hv p).2 (h p))), if_neg (fun hc => hc.2 ((hv q).2 (h q)))]
      · rw [if_pos ⟨hu, fun hc => h p ((hv p).1 hc)⟩, if_pos ⟨hu, fun hc => h q ((hv q).1 hc)⟩, pvSq_symm]
  · constructor
    · intro _ h; exact absurd h hu
    · intro _ p q
      unfold horizontalCorrelation
      rw [hsq p q, if_neg (fun hc => hu hc.1), if_neg (fun hc => hu hc.1)]

/-- What the vertical correlation is, by what is seen across. -/
theorem vertical_looks {m : ℕ} (pt : Fin m → Option ℝ) (i j : Fin m) (v : ℝ) (hij : i ≠ j) (h : VerticalCorrelation pt i j v) :
    ∃ d, LooksAcross (if i < j then downScales else upScales) pt i j d ∧ v = Real.exp (-d) := by
  obtain ⟨-, h2, h3⟩ := h
  cases hi : pt i with
  | none => exact ⟨0, Or.inl ⟨Or.inl hi, rfl⟩, by rw [h2 (Or.inl hi)]; simp⟩
  | some a =>
    cases hj : pt j with
    | none => exact ⟨0, Or.inl ⟨Or.inr hj, rfl⟩, by rw [h2 (Or.inr hj)]; simp⟩
    | some b =>
      obtain ⟨s, hs, -, -, e⟩ := h3 a b hij hi hj
      exact ⟨_, Or.inr ⟨a, b, s, hi, hj, hs, rfl⟩, e⟩

theorem looks_unique {m : ℕ} (table : List (ℝ × ℝ)) (hs : (table.map Prod.fst).Pairwise (· < ·)) (pt : Fin m → Option ℝ) (i j : Fin m) (d d' : ℝ)
    (h : LooksAcross table pt i j d) (h' : LooksAcross table pt i j d') : d = d' := by
  rcases h with ⟨h, rfl⟩ | ⟨a, b, s, ha, hb, hl, rfl⟩
  · rcases h' with ⟨-, rfl⟩ | ⟨a, b, s, ha, hb, -, -⟩
    · rfl
    · rcases h with h | h
      · rw [h] at ha; cases ha
      · rw [h] at hb; cases hb
  · rcases h' with ⟨h', rfl⟩ | ⟨a', b', s', ha', hb', hl', rfl⟩
    · rcases h' with h' | h'
      · rw [h'] at ha; cases ha
      · rw [h'] at hb; cases hb
    · rw [ha] at ha'; rw [hb] at hb'
      obtain rfl := Option.some.inj ha'
      obtain rfl := Option.some.inj hb'
      rw [onLine_unique table hs a s s' hl hl']

/-- C170. The covariance of the observations is symmetric exactly if every profile, looking down from a level `i` to a deeper level `j`, sees the same scaled
difference of temperature as every profile, itself included, looking up from `j` to `i`, and, with the potential vorticity, all profiles or none are on the
equator. -/
theorem build_cov_symmetric_iff {n m : ℕ} (ptmp : Fin n → Fin m → Option ℝ) (coord : Fin n → Coord) (long lat phi : ℝ) (usePv : Bool)
    (M : Fin n × Fin m → Fin n × Fin m → ℝ) (hg : ProperGrid coord long lat phi usePv) (hm : 0 < m)
    (h : buildCov ptmp coord long lat phi usePv = .ok M) :
    (∀ a b, M a b = M b a) ↔
      (usePv = true → (∀ p, OnEquator (coord p)) ∨ ∀ p, ¬ OnEquator (coord p)) ∧
      ∀ (p q : Fin n) (i j : Fin m) (d u : ℝ), i < j → LooksAcross downScales (ptmp p) i j d → LooksAcross upScales (ptmp q) j i u → d = u := by
  rw [← horizontal_symmetric_iff coord long lat phi usePv hg]
  have hpos : ∀ p q, horizontalCorrelation coord long lat phi usePv p q ≠ 0 := fun p q => (Real.exp_pos _).ne'
  constructor
  · intro hs
    have hh : ∀ p q, horizontalCorrelation coord long lat phi usePv p q = horizontalCorrelation coord long lat phi usePv q p := by
      intro p q
      obtain ⟨⟨v, ⟨v1, -⟩, e1⟩, -⟩ := build_cov_entry ptmp coord long lat phi usePv M hg h p q ⟨0, hm⟩ ⟨0, hm⟩
      obtain ⟨⟨w, ⟨w1, -⟩, e2⟩, -⟩ := build_cov_entry ptmp coord long lat phi usePv M hg h q p ⟨0, hm⟩ ⟨0, hm⟩
      rw [v1 rfl, mul_one] at e1
      rw [w1 rfl, mul_one] at e2
      rw [← e1, ← e2, hs]
    refine ⟨hh, ?_⟩
    intro p q i j d u hij hd hu
    obtain ⟨⟨v, hv, e1⟩, -⟩ := build_cov_entry ptmp coord long lat phi usePv M hg h p q i j
    obtain ⟨⟨w, hw, e2⟩, -⟩ := build_cov_entry ptmp coord long lat phi usePv M hg h q p j i
    obtain ⟨d', hd', rfl⟩ := vertical_looks _ _ _ _ hij.ne hv
    obtain ⟨u', hu', rfl⟩ := vertical_looks _ _ _ _ hij.ne' hw
    rw [if_pos hij] at hd'
    rw [if_neg (not_lt.2 hij.le)] at hu'
    rw [looks_unique _ sorted_down _ _ _ _ _ hd hd', looks_unique _ sorted_up _ _ _ _ _ hu hu']
    have := hs (p, i) (q, j)
    rw [e1, e2, hh q p] at this
    have := Real.exp_injective (mul_left_cancel₀ (hpos p q) this)
    linarith
  · rintro ⟨hh, hv⟩ ⟨p, i⟩ ⟨q, j⟩
    obtain ⟨⟨v, hv', e1⟩, -⟩ := build_cov_entry ptmp coord long lat phi usePv M hg h p q i j
    obtain ⟨⟨w, hw', e2⟩, -⟩ := build_cov_entry ptmp coord long lat phi usePv M hg h q p j i
    rw [e1, e2, hh q p]
    congr 1
    rcases lt_trichotomy i j with hij | hij | hij
    · obtain ⟨d', hd', rfl⟩ := vertical_looks _ _ _ _ hij.ne hv'
      obtain ⟨u', hu', rfl⟩ := vertical_looks _ _ _ _ hij.ne' hw'
      rw [if_pos hij] at hd'
      rw [if_neg (not_lt.2 hij.le)] at hu'
      rw [hv p q i j d' u' hij hd' hu']
    · rw [hv'.1 hij, hw'.1 hij.symm]
    · obtain ⟨d', hd', rfl⟩ := vertical_looks _ _ _ _ hij.ne' hv'
      obtain ⟨u', hu', rfl⟩ := vertical_looks _ _ _ _ hij.ne hw'
      rw [if_neg (not_lt.2 hij.le)] at hd'
      rw [if_pos hij] at hu'
      rw [hv q p j i u' d' hij hu' hd']

/-- A case on each side: two levels at 10 and 6 degrees give a symmetric matrix (both scales are 4), and with the potential vorticity a second profile
that is on the equator, the first being north of it, spoils it. -/
example : ∃ M, buildCov (fun (_ : Fin 1) (i : Fin 2) => some (if i = 0 then (10 : ℝ) else 6)) (fun _ => ⟨0, 0, 1000⟩) 4 4 1 false = .ok M ∧
    ∀ a b, M a b = M b a := by
  obtain ⟨M, hM⟩ := build_cov_ok (fun (_ : Fin 1) (i : Fin 2) => some (if i = 0 then (10 : ℝ) else 6)) (fun _ => ⟨0, 0, 1000⟩) 4 4 1 false
    (by intro p i t ht
        have := Option.some.inj ht
        split_ifs at this <;> subst this <;> norm_num)
  refine ⟨M, hM, ?_⟩
  refine (build_cov_symmetric_iff _ _ _ _ _ _ M ⟨by norm_num, by norm_num, by simp⟩ (by norm_num) hM).2 ⟨by simp, ?_⟩
  intro p q i j d u hij hd hu
  have hi : i = 0 := by
    have h1 : i.val < j.val := hij
    have h2 := j.isLt
    exact Fin.ext (by simp; omega)
  have hj : j = 1 := by
    have h1 : i.val < j.val := hij
    have h2 := j.isLt
    exact Fin.ext (by simp; omega)
  subst hi hj
  have hd' : LooksAcross downScales (fun i : Fin 2 => some (if i = 0 then (10 : ℝ) else 6)) 0 1 1 :=
    Or.inr ⟨10, 6, 4, by simp, by simp, ⟨4, 8, 4, 12, 4, rfl, rfl, by norm_num, by norm_num, by norm_num⟩, by norm_num⟩
  have hu' : LooksAcross upScales (fun i : Fin 2 => some (if i = 0 then (10 : ℝ) else 6)) 1 0 1 :=
    Or.inr ⟨6, 10, 4, by simp, by simp, ⟨3, 4, 4, 8, 4, rfl, rfl, by norm_num, by norm_num, by norm_num⟩, by norm_num⟩
  rw [looks_unique _ sorted_down _ _ _ _ _ hd hd', looks_unique _ sorted_up _ _ _ _ _ hu hu']

example : ¬ ∃ M, buildCov (fun (_ : Fin 2) (_ : Fin 1) => some (20 : ℝ)) (fun p => ⟨if p = 0 then 45 else 0, 0, 1000⟩) 4 4 1 true = .ok M ∧
    ∀ a b, M a b = M b a := by
  rintro ⟨M, hM, hs⟩
  have h := ((build_cov_symmetric_iff _ _ _ _ _ _ M ⟨by norm_num, by norm_num, by simp⟩ (by norm_num) hM).1 hs).1 rfl
  rcases h with h | h
  · obtain ⟨k, hk⟩ := h 0
    simp only [if_true] at hk
    have : (1 : ℝ) = 4 * k := by linarith
    have : (1 : ℤ) = 4 * k := by exact_mod_cast this
    omega
  · exact h 1 ⟨0, by simp⟩

end Verif.Props
