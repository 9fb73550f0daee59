import Verif.Lemmas.Interp
import Mathlib.Tactic.FinCases

/-!
# Properties of `interp_climatology` (C38-C41, C77, C78)
-/

set_option linter.unusedSectionVars false

namespace Verif.Props

open Verif.Np Verif.Spec Verif.Interp

variable {K : Type} [Field K] [LinearOrder K] [IsStrictOrderedRing K]

/-- The three arrays have the same shape. -/
def SameShape (sal theta pres : Grid K) : Prop :=
  sal.rows = theta.rows ∧ sal.cols = theta.cols ∧ theta.rows = pres.rows ∧ theta.cols = pres.cols

/-- The good levels of station `c`. -/
def station (sal theta pres : Grid K) (c : ℕ) : List (Level K) :=
  levels (fun r => sal.at_ r c) (fun r => theta.at_ r c) (fun r => pres.at_ r c) sal.rows

theorem max_spec (l : List ℕ) (m : ℕ) (h : l.max? = some m) : m ∈ l ∧ ∀ a ∈ l, a ≤ m := by
  rw [List.max?_eq_some_iff] at h
  exact h

/-- `_get_cleaned_grid_data` in terms of the good levels. -/
theorem cleaned_eq (sal theta pres : Grid K) (h : SameShape sal theta pres) :
    (sal.cols = 0 → cleaned sal theta pres = .error .valueError) ∧
    (sal.cols ≠ 0 → ∃ M, (∀ c < sal.cols, (station sal theta pres c).length ≤ M) ∧ (∃ c < sal.cols, (station sal theta pres c).length = M) ∧
      cleaned sal theta pres = .ok (if M = 0 then none else some (gridOf (station sal theta pres) M sal.cols Level.sal,
        gridOf (station sal theta pres) M sal.cols Level.theta, gridOf (station sal theta pres) M sal.cols Level.pres))) := by
  obtain ⟨h1, h2, h3, h4⟩ := h
  have hlen : ∀ c, (station sal theta pres c).length = (goodRows sal theta pres c).length := levels_length sal theta pres
  constructor
  · intro h0
    unfold cleaned columnCounts
    rw [h0]; rfl
  · intro h0
    unfold cleaned
    cases hm : (columnCounts sal theta pres).max? with
    | none =>
      exfalso
      rw [List.max?_eq_none_iff] at hm
      unfold columnCounts at hm
      simp at hm
      exact h0 hm
    | some M =>
      obtain ⟨hmem, hmax⟩ := max_spec _ M hm
      unfold columnCounts at hmem hmax
      simp only [List.mem_map, List.mem_range] at hmem hmax
      obtain ⟨c, hc, hcm⟩ := hmem
      refine ⟨M, fun c hc => ?_, ⟨c, hc, by rw [hlen]; exact hcm⟩, ?_⟩
      · rw [hlen]; exact hmax _ ⟨c, hc, rfl⟩
      · obtain ⟨e1, e2, e3⟩ := compact_eq sal theta pres M
        simp only
        rw [e1, e2, e3, ← h4, ← h2]
        by_cases hM : M = 0
        · rw [if_neg (by omega), if_pos hM]
        · rw [if_pos (by omega), if_neg hM]
          rfl

/-- C38, C39, C40. If `interp_climatology` returns, then for every float level and station: if the float level is not good, both
values are missing; else, if the temperature of the float level is met between two consecutive good levels of the station, the two values are
the salinity and pressure there, at the place nearest to the float level in pressure (the uppermost of those equally near); and if it is
not, both are missing. -/
theorem interp_spec (sal theta pres : Grid K) (h : SameShape sal theta pres) (float : List (FloatLevel K)) (S P : ℕ → ℕ → Option K)
    (hok : interpClimatology sal theta pres float = .ok (S, P)) (i : ℕ) (f : FloatLevel K) (hf : float[i]? = some f) (c : ℕ) (hc : c < sal.cols) :
    (f.sal = none ∨ f.theta = none ∨ f.pres = none → S i c = none ∧ P i c = none) ∧
    ∀ fs v fp, f = ⟨some fs, some v, some fp⟩ →
      (∃ k w s p, Nearest (station sal theta pres c) v fp k w s p ∧ S i c = some s ∧ P i c = some p) ∨
      ((¬ ∃ k w s p, Crossing (station sal theta pres c) v k w s p) ∧ S i c = none ∧ P i c = none) := by
  have main : FloatCell (station sal theta pres c) f (S i c) (P i c) := by
    unfold interpClimatology at hok
    rw [if_neg (by obtain ⟨h1, h2, h3, h4⟩ := h; exact not_not.2 ⟨⟨h1, h2⟩, h3, h4⟩)] at hok
    obtain ⟨M, hM, ⟨c0, hc0, hM0⟩, hcl⟩ := (cleaned_eq sal theta pres h).2 (by omega)
    rw [hcl] at hok
    by_cases hz : M = 0
    · rw [if_pos hz] at hok
      simp only [bind, Except.bind, Except.ok.injEq, Prod.mk.injEq] at hok
      obtain ⟨rfl, rfl⟩ := hok
      have hnil : station sal theta pres c = [] := List.length_eq_zero_iff.1 (by have := hM c hc; omega)
      unfold FloatCell
      split
      · refine Or.inr ⟨?_, rfl, rfl⟩
        rintro ⟨k, w, s, p, a, b, ha, _⟩
        rw [hnil] at ha
        simp at ha
      · exact ⟨rfl, rfl⟩
    · rw [if_neg hz] at hok
      obtain ⟨l1, l2⟩ := loop_spec (station sal theta pres) M sal.cols hM float 0 { hold := blank, sal := blank, pres := blank } rfl
      by_cases hex : ∃ f ∈ float, Fails (station sal theta pres) M sal.cols f
      · simp only [bind, Except.bind, l1 hex] at hok
        simp at hok
      · obtain ⟨s', g1, _, g3⟩ := l2 hex
        simp only [bind, Except.bind, g1, Except.ok.injEq, Prod.mk.injEq] at hok
        obtain ⟨rfl, rfl⟩ := hok
        have := g3 (fun _ _ _ => ⟨rfl, rfl⟩) i f hf c hc
        rwa [Nat.zero_add] at this
  constructor
  · intro hb
    unfold FloatCell at main
    split at main
    · rename_i a b d e1 e2 e3
      rw [e1, e2, e3] at hb
      simp at hb
    · exact main
  · rintro fs v fp rfl
    exact main

/-- Arrays of different shapes: everything is missing. -/
theorem interp_shape (sal theta pres : Grid K) (h : ¬ SameShape sal theta pres) (float : List (FloatLevel K)) :
    interpClimatology sal theta pres float = .ok (fun _ _ => none, fun _ _ => none) := by
  unfold interpClimatology
  rw [if_pos (fun ⟨⟨h1, h2⟩, h3, h4⟩ => h ⟨h1, h2, h3, h4⟩)]
  rfl

/-- C78. When `interp_climatology` raises: there is no station; or there is a good level in the climatology and a good float level, and
either no station has two good levels, or the good levels of some station (at least two) all have exactly the temperature of a good float
level. The error is always a `ValueError`. -/
theorem interp_fails_iff (sal theta pres : Grid K) (h : SameShape sal theta pres) (float : List (FloatLevel K)) (e : PyErr) :
    interpClimatology sal theta pres float = .error e ↔ e = .valueError ∧
      (sal.cols = 0 ∨ ((∃ c < sal.cols, station sal theta pres c ≠ []) ∧ ∃ fs v fp, ⟨some fs, some v, some fp⟩ ∈ float ∧
        ((∀ c < sal.cols, (station sal theta pres c).length ≤ 1) ∨
          ∃ c < sal.cols, 2 ≤ (station sal theta pres c).length ∧ ∀ a ∈ station sal theta pres c, a.theta = v))) := by
  unfold interpClimatology
  rw [if_neg (by obtain ⟨h1, h2, h3, h4⟩ := h; exact not_not.2 ⟨⟨h1, h2⟩, h3, h4⟩)]
  by_cases hc : sal.cols = 0
  · rw [(cleaned_eq sal theta pres h).1 hc]
    simp [bind, Except.bind, hc, eq_comm]
  obtain ⟨M, hM, ⟨c0, hc0, hM0⟩, hcl⟩ := (cleaned_eq sal theta pres h).2 hc
  rw [hcl]
  by_cases hz : M = 0
  · rw [if_pos hz]
    simp only [bind, Except.bind]
    constructor
    · intro h; simp at h
    · rintro ⟨_, h | ⟨⟨c, hc, hne⟩, _⟩⟩
      · exact absurd h hc
      · exact absurd (List.length_eq_zero_iff.1 (by have := hM c hc; omega)) hne
  · rw [if_neg hz]
    obtain ⟨l1, l2⟩ := loop_spec (station sal theta pres) M sal.cols hM float 0 { hold := blank, sal := blank, pres := blank } rfl
    have hF : (∃ f ∈ float, Fails (station sal theta pres) M sal.cols f) ↔ ∃ fs v fp, ⟨some fs, some v, some fp⟩ ∈ float ∧
        ((∀ c < sal.cols, (station sal theta pres c).length ≤ 1) ∨
          ∃ c < sal.cols, 2 ≤ (station sal theta pres c).length ∧ ∀ a ∈ station sal theta pres c, a.theta = v) := by
      have h1 : M - 1 = 0 ↔ ∀ c < sal.cols, (station sal theta pres c).length ≤ 1 := by
        constructor
        · intro h c hc
          have := hM c hc; omega
        · intro h
          have := h c0 hc0; omega
      unfold Fails
      rw [← h1]
      constructor
      · rintro ⟨⟨s, t, p⟩, hf, x, v, fp, rfl, rfl, rfl, hh⟩
        exact ⟨x, v, fp, hf, hh⟩
      · rintro ⟨x, v, fp, hf, hh⟩
        exact ⟨_, hf, x, v, fp, rfl, rfl, rfl, hh⟩
    rw [← hF]
    by_cases hex : ∃ f ∈ float, Fails (station sal theta pres) M sal.cols f
    · simp only [bind, Except.bind, l1 hex, Except.error.injEq]
      constructor
      · rintro rfl
        exact ⟨rfl, Or.inr ⟨⟨c0, hc0, fun h0 => hz (by rw [← hM0, h0]; rfl)⟩, hex⟩⟩
      · rintro ⟨rfl, _⟩; rfl
    · obtain ⟨s', g1, _, _⟩ := l2 hex
      simp only [bind, Except.bind, g1]
      constructor
      · intro h; simp at h
      · rintro ⟨_, h | ⟨_, h⟩⟩
        · exact absurd h hc
        · exact absurd h hex

theorem crossing_unique (l : List (Level K)) (v : K) (k : ℕ) (w s p w' s' p' : K) (h : Crossing l v k w s p) (h' : Crossing l v k w' s' p') :
    s = s' ∧ p = p' := by
  obtain ⟨a, b, ha, hb, hne, _, _, hv, rfl, rfl⟩ := h
  obtain ⟨a', b', ha', hb', _, _, _, hv', rfl, rfl⟩ := h'
  rw [ha] at ha'; rw [hb] at hb'
  obtain rfl := Option.some.inj ha'
  obtain rfl := Option.some.inj hb'
  have : (w - w') * (b.theta - a.theta) = 0 := by linear_combination hv' - hv
  rcases mul_eq_zero.1 this with h | h
  · have : w = w' := by linarith
    rw [this]; exact ⟨rfl, rfl⟩
  · exact absurd (by linarith) hne

theorem nearest_unique (l : List (Level K)) (v fp : K) (k k' : ℕ) (w s p w' s' p' : K) (h : Nearest l v fp k w s p) (h' : Nearest l v fp k' w' s' p') :
    s = s' ∧ p = p' := by
  obtain ⟨h1, h2⟩ := h
  obtain ⟨h1', h2'⟩ := h'
  obtain ⟨e1, e2⟩ := h2 _ _ _ _ h1'
  obtain ⟨e1', e2'⟩ := h2' _ _ _ _ h1
  rcases lt_trichotomy k k' with hk | rfl | hk
  · exact absurd (e2' hk) (not_lt.2 e1)
  · exact crossing_unique l v k _ _ _ _ _ _ h1 h1'
  · exact absurd (e2 hk) (not_lt.2 e1')

/-- The values for a float level and a station are determined by the float level and the good levels of the station. -/
theorem cell_unique (l l' : List (Level K)) (hl : l = l') (f : FloatLevel K) (s p s' p' : Option K)
    (a1 : f.sal = none ∨ f.theta = none ∨ f.pres = none → s = none ∧ p = none)
    (a2 : ∀ fs v fp, f = ⟨some fs, some v, some fp⟩ → (∃ k w x q, Nearest l v fp k w x q ∧ s = some x ∧ p = some q) ∨
      ((¬ ∃ k w x q, Crossing l v k w x q) ∧ s = none ∧ p = none))
    (b1 : f.sal = none ∨ f.theta = none ∨ f.pres = none → s' = none ∧ p' = none)
    (b2 : ∀ fs v fp, f = ⟨some fs, some v, some fp⟩ → (∃ k w x q, Nearest l' v fp k w x q ∧ s' = some x ∧ p' = some q) ∨
      ((¬ ∃ k w x q, Crossing l' v k w x q) ∧ s' = none ∧ p' = none)) : s = s' ∧ p = p' := by
  subst hl
  by_cases hbad : f.sal = none ∨ f.theta = none ∨ f.pres = none
  · obtain ⟨rfl, rfl⟩ := a1 hbad
    obtain ⟨rfl, rfl⟩ := b1 hbad
    exact ⟨rfl, rfl⟩
  push Not at hbad
  obtain ⟨g1, g2, g3⟩ := hbad
  obtain ⟨fs, hs⟩ := Option.ne_none_iff_exists'.1 g1
  obtain ⟨v, hv⟩ := Option.ne_none_iff_exists'.1 g2
  obtain ⟨fp, hp⟩ := Option.ne_none_iff_exists'.1 g3
  have hf : f = ⟨some fs, some v, some fp⟩ := by cases f; simp_all
  rcases a2 fs v fp hf with ⟨k, w, x, q, hn, rfl, rfl⟩ | ⟨hno, rfl, rfl⟩
  · rcases b2 fs v fp hf with ⟨k', w', x', q', hn', rfl, rfl⟩ | ⟨hno, rfl, rfl⟩
    · obtain ⟨rfl, rfl⟩ := nearest_unique l v fp k k' w x q w' x' q' hn hn'
      exact ⟨rfl, rfl⟩
    · exact absurd ⟨k, w, x, q, hn.1⟩ hno
  · rcases b2 fs v fp hf with ⟨k', w', x', q', hn', rfl, rfl⟩ | ⟨_, rfl, rfl⟩
    · exact absurd ⟨k', w', x', q', hn'.1⟩ hno
    · exact ⟨rfl, rfl⟩

/-- C40. The entry of a station depends only on the float level and on the good levels of this station: it is the same for any two
climatologies, float profiles and positions in them. -/
theorem interp_local (sal theta pres sal' theta' pres' : Grid K) (h : SameShape sal theta pres) (h' : SameShape sal' theta' pres')
    (float float' : List (FloatLevel K)) (S P S' P' : ℕ → ℕ → Option K) (hok : interpClimatology sal theta pres float = .ok (S, P))
    (hok' : interpClimatology sal' theta' pres' float' = .ok (S', P')) (i i' c c' : ℕ) (f : FloatLevel K) (hf : float[i]? = some f)
    (hf' : float'[i']? = some f) (hc : c < sal.cols) (hc' : c' < sal'.cols) (hl : station sal theta pres c = station sal' theta' pres' c') :
    S i c = S' i' c' ∧ P i c = P' i' c' := by
  obtain ⟨a1, a2⟩ := interp_spec sal theta pres h float S P hok i _ hf c hc
  obtain ⟨b1, b2⟩ := interp_spec sal' theta' pres' h' float' S' P' hok' i' _ hf' c' hc'
  exact cell_unique _ _ hl _ _ _ _ _ a1 a2 b1 b2

/-- C38. The interpolated salinity lies between the salinities of the two levels, and likewise the pressure. -/
theorem crossing_between (l : List (Level K)) (v : K) (k : ℕ) (w s p : K) (h : Crossing l v k w s p) :
    ∃ a b, l[k]? = some a ∧ l[k + 1]? = some b ∧ min a.sal b.sal ≤ s ∧ s ≤ max a.sal b.sal ∧ min a.pres b.pres ≤ p ∧ p ≤ max a.pres b.pres := by
  have conv : ∀ x y : K, 0 ≤ w → w ≤ 1 → min x y ≤ x + w * (y - x) ∧ x + w * (y - x) ≤ max x y := by
    intro x y h0 h1
    rcases le_total x y with hxy | hxy
    · rw [min_eq_left hxy, max_eq_right hxy]
      constructor <;> nlinarith [mul_nonneg h0 (sub_nonneg.2 hxy), mul_nonneg (sub_nonneg.2 h1) (sub_nonneg.2 hxy)]
    · rw [min_eq_right hxy, max_eq_left hxy]
      constructor <;> nlinarith [mul_nonneg h0 (sub_nonneg.2 hxy), mul_nonneg (sub_nonneg.2 h1) (sub_nonneg.2 hxy)]
  obtain ⟨a, b, ha, hb, _, h0, h1, _, rfl, rfl⟩ := h
  exact ⟨a, b, ha, hb, (conv _ _ h0 h1).1, (conv _ _ h0 h1).2, (conv _ _ h0 h1).1, (conv _ _ h0 h1).2⟩

/-- C77. A float level with the temperature and pressure of a level of the station (pressures increasing, some neighbouring level has
another temperature) gets exactly the salinity and pressure of that level. -/
theorem interp_reproduces (sal theta pres : Grid K) (h : SameShape sal theta pres) (float : List (FloatLevel K)) (S P : ℕ → ℕ → Option K)
    (hok : interpClimatology sal theta pres float = .ok (S, P)) (i c : ℕ) (hc : c < sal.cols) (fs : K) (k : ℕ) (a : Level K)
    (hf : float[i]? = some ⟨some fs, some a.theta, some a.pres⟩)
    (hmono : ((station sal theta pres c).map Level.pres).Pairwise (· < ·)) (hk : (station sal theta pres c)[k]? = some a)
    (hne : (∃ b, (station sal theta pres c)[k + 1]? = some b ∧ b.theta ≠ a.theta) ∨
      ∃ j b, k = j + 1 ∧ (station sal theta pres c)[j]? = some b ∧ b.theta ≠ a.theta) :
    S i c = some a.sal ∧ P i c = some a.pres := by
  have hcr : ∃ k' w, Crossing (station sal theta pres c) a.theta k' w a.sal a.pres := by
    rcases hne with ⟨b, hb, hbt⟩ | ⟨j, b, rfl, hb, hbt⟩
    · exact ⟨k, 0, a, b, hk, hb, Ne.symm hbt, le_rfl, zero_le_one, by ring, by ring, by ring⟩
    · exact ⟨j, 1, b, a, hb, hk, hbt, zero_le_one, le_rfl, by ring, by ring, by ring⟩
  obtain ⟨k', w', hcr⟩ := hcr
  obtain ⟨_, h2⟩ := interp_spec sal theta pres h float S P hok i _ hf c hc
  rcases h2 fs a.theta a.pres rfl with ⟨k1, w, s, p, ⟨hn1, hn2⟩, hs, hp⟩ | ⟨hno, _⟩
  · have h0 := (hn2 _ _ _ _ hcr).1
    rw [sub_self, abs_zero] at h0
    have hpa : p = a.pres := by
      have := abs_eq_zero.1 (le_antisymm h0 (abs_nonneg _)); linarith
    obtain ⟨x, y, hx, hy, hxy, hw0, hw1, hv, hsv, hpv⟩ := hn1
    have hlt : ∀ (m n : ℕ) (u u' : Level K), (station sal theta pres c)[m]? = some u → (station sal theta pres c)[n]? = some u' → m < n → u.pres < u'.pres := by
      intro m n u u' hm hn hmn
      obtain ⟨hm', rfl⟩ := List.getElem?_eq_some_iff.1 hm
      obtain ⟨hn', rfl⟩ := List.getElem?_eq_some_iff.1 hn
      have := List.pairwise_iff_getElem.1 hmono m n (by simpa using hm') (by simpa using hn') hmn
      simpa using this
    have hd : x.pres < y.pres := hlt k1 (k1 + 1) x y hx hy (by omega)
    rcases lt_trichotomy k1 k with hlt1 | rfl | hgt
    · rcases Nat.lt_or_ge (k1 + 1) k with h2 | h2
      · exfalso
        have := hlt (k1 + 1) k y a hy hk h2
        nlinarith [mul_nonneg (sub_nonneg.2 hw1) (sub_nonneg.2 hd.le)]
      · have : k1 + 1 = k := by omega
        rw [this, hk] at hy
        obtain rfl := Option.some.inj hy
        have : (1 - w) * (a.pres - x.pres) = 0 := by linear_combination hpv - hpa
        rcases mul_eq_zero.1 this with h | h
        · have hw : w = 1 := by linarith
          refine ⟨by rw [hs, hsv, hw]; congr 1; ring, by rw [hp, hpa]⟩
        · exfalso; linarith
    · rw [hk] at hx
      obtain rfl := Option.some.inj hx
      have : w * (y.pres - a.pres) = 0 := by linear_combination hpa - hpv
      rcases mul_eq_zero.1 this with h | h
      · refine ⟨by rw [hs, hsv, h]; congr 1; ring, by rw [hp, hpa]⟩
      · exfalso; linarith
    · exfalso
      have := hlt k k1 a x hk hx hgt
      nlinarith [mul_nonneg hw0 (sub_nonneg.2 hd.le)]
  · exact absurd ⟨k', w', _, _, hcr⟩ hno

/-- C41. Only the good levels of the stations matter: two climatologies with the same good levels give the same outcome, so rows
with a value missing can be inserted and removed anywhere. -/
theorem interp_gaps (sal theta pres sal' theta' pres' : Grid K) (h : SameShape sal theta pres) (h' : SameShape sal' theta' pres')
    (hcols : sal.cols = sal'.cols) (hl : ∀ c < sal.cols, station sal theta pres c = station sal' theta' pres' c) (float : List (FloatLevel K)) :
    (∀ e, interpClimatology sal theta pres float = .error e ↔ interpClimatology sal' theta' pres' float = .error e) ∧
    ∀ S P S' P', interpClimatology sal theta pres float = .ok (S, P) → interpClimatology sal' theta' pres' float = .ok (S', P') →
      ∀ i < float.length, ∀ c < sal.cols, S i c = S' i c ∧ P i c = P' i c := by
  constructor
  · intro e
    rw [interp_fails_iff sal theta pres h, interp_fails_iff sal' theta' pres' h', ← hcols]
    have e1 : (∃ c < sal.cols, station sal theta pres c ≠ []) ↔ ∃ c < sal.cols, station sal' theta' pres' c ≠ [] :=
      exists_congr fun c => and_congr_right fun hc => by rw [hl c hc]
    have e2 : (∀ c < sal.cols, (station sal theta pres c).length ≤ 1) ↔ ∀ c < sal.cols, (station sal' theta' pres' c).length ≤ 1 :=
      forall_congr' fun c => forall_congr' fun hc => by rw [hl c hc]
    have e3 : ∀ v, (∃ c < sal.cols, 2 ≤ (station sal theta pres c).length ∧ ∀ a ∈ station sal theta pres c, a.theta = v) ↔
        ∃ c < sal.cols, 2 ≤ (station sal' theta' pres' c).length ∧ ∀ a ∈ station sal' theta' pres' c, a.theta = v := fun v =>
      exists_congr fun c => and_congr_right fun hc => by rw [hl c hc]
    simp only [e1, e2, e3]
  · intro S P S' P' hok hok' i hi c hc
    have hf : float[i]? = some float[i] := List.getElem?_eq_getElem hi
    obtain ⟨a1, a2⟩ := interp_spec sal theta pres h float S P hok i _ hf c hc
    obtain ⟨b1, b2⟩ := interp_spec sal' theta' pres' h' float S' P' hok' i _ hf c (by omega)
    exact cell_unique _ _ (hl c hc) _ _ _ _ _ a1 a2 b1 b2

/-- A climatology of two stations with a gap, an inversion and an exact hit; float levels good and bad. -/
def exSal : Grid ℚ := ⟨4, 2, fun r c => ([[some 34, none, some 35, some 36], [some 33, some 34, some 35, none]].getD c []).getD r none⟩

/-- Its temperatures. -/
def exTheta : Grid ℚ := ⟨4, 2, fun r c => ([[some 10, some 9, some 4, some 6], [some 20, some 5, some 3, some 1]].getD c []).getD r none⟩

/-- Its pressures. -/
def exPres : Grid ℚ := ⟨4, 2, fun r c => ([[some 0, some 100, some 200, some 300], [some 0, some 100, some 200, some 300]].getD c []).getD r none⟩

/-- The float: a good level at temperature 5 and pressure 240, and a bad one. -/
def exFloat : List (FloatLevel ℚ) := [⟨some 34, some 5, some 240⟩, ⟨none, some 5, some 240⟩]

example : SameShape exSal exTheta exPres := ⟨rfl, rfl, rfl, rfl⟩

example : (match interpClimatology exSal exTheta exPres exFloat with
    | .ok (S, P) => [S 0 0, P 0 0, S 0 1, P 0 1, S 1 0]
    | .error _ => []) = [some (71 / 2), some 250, some 34, some 100, none] := by
  decide +kernel

/-- `interp_reproduces` applies to the second level of the second station. -/
example : ((station exSal exTheta exPres 1).map Level.pres).Pairwise (· < ·) := by decide +kernel

/-- A constant array of two rows and one column. -/
def flatGrid (x : ℚ) : Grid ℚ := ⟨2, 1, fun _ _ => some x⟩

/-- Pressures 0 and 1. -/
def flatPres : Grid ℚ := ⟨2, 1, fun r _ => some (r : ℚ)⟩

/-- A station with the same temperature at all its levels makes the call fail for a float level of exactly that temperature. -/
example : interpClimatology (flatGrid 35) (flatGrid 4) flatPres [⟨some 35, some 4, some 1⟩] = .error .valueError := by
  have h : station (flatGrid 35) (flatGrid 4) flatPres 0 = [⟨35, 4, 0⟩, ⟨35, 4, 1⟩] := by
    simp [station, levels, List.range_succ, flatGrid, flatPres]
  have hs : SameShape (flatGrid 35) (flatGrid 4) flatPres := ⟨rfl, rfl, rfl, rfl⟩
  rw [interp_fails_iff _ _ _ hs]
  refine ⟨rfl, Or.inr ⟨⟨0, Nat.one_pos, ?_⟩, 35, 4, 1, List.mem_singleton.2 rfl, Or.inr ⟨0, Nat.one_pos, ?_, ?_⟩⟩⟩
  · rw [h]; simp
  · rw [h]; simp
  · rw [h]; simp

end Verif.Props
