import Verif.Props.Thetas
import Verif.Spec.ThetaLevels

/-!
# C135: the levels from which `find_10thetas` chooses
-/

set_option linter.unusedSectionVars false

namespace Verif.Props

open Verif.Np Verif.Spec Verif.Thetas

variable {K : Type} [Field K] [LinearOrder K] [IsStrictOrderedRing K] [FloorRing K]

section helpers

theorem usable_range (B : Bounds K) (data : List (List (Level K))) (q : Level K → Option K)
    (hq : ∀ l v, q (mask B l) = some v ↔ Usable B l ∧ q l = some v) (lo hi : K) :
    (nanmin ((data.map fun prof => prof.map (mask B)).flatten.map q) = some lo ∧ nanmax ((data.map fun prof => prof.map (mask B)).flatten.map q) = some hi) ↔
      UsableRange B data q lo hi := by
  have hmem : ∀ v, some v ∈ (data.map fun prof => prof.map (mask B)).flatten.map q ↔ ∃ prof ∈ data, ∃ l ∈ prof, Usable B l ∧ q l = some v := by
    intro v
    simp only [List.mem_map, List.mem_flatten]
    constructor
    · rintro ⟨m, ⟨prof', ⟨prof, hp, rfl⟩, hm⟩, hv⟩
      obtain ⟨l, hl, rfl⟩ := List.mem_map.1 hm
      exact ⟨prof, hp, l, hl, (hq l v).1 hv⟩
    · rintro ⟨prof, hp, l, hl, hv⟩
      exact ⟨mask B l, ⟨_, ⟨prof, hp, rfl⟩, List.mem_map_of_mem hl⟩, (hq l v).2 hv⟩
  constructor
  · rintro ⟨h1, h2⟩
    obtain ⟨a1, a2⟩ := nanmin_some h1
    obtain ⟨b1, b2⟩ := nanmax_some h2
    exact ⟨(hmem lo).1 a1, (hmem hi).1 b1, fun prof hp l hl hu v hv => ⟨a2 v ((hmem v).2 ⟨prof, hp, l, hl, hu, hv⟩), b2 v ((hmem v).2 ⟨prof, hp, l, hl, hu, hv⟩)⟩⟩
  · rintro ⟨h1, h2, h3⟩
    have g1 := (hmem lo).2 h1
    have g2 := (hmem hi).2 h2
    have g3 : ∀ v, some v ∈ (data.map fun prof => prof.map (mask B)).flatten.map q → lo ≤ v ∧ v ≤ hi := by
      intro v hv
      obtain ⟨prof, hp, l, hl, hu, hv⟩ := (hmem v).1 hv
      exact h3 prof hp l hl hu v hv
    constructor
    · cases e : nanmin ((data.map fun prof => prof.map (mask B)).flatten.map q) with
      | none => exact absurd (nanmin_none e _ g1) (by simp)
      | some m =>
        obtain ⟨a1, a2⟩ := nanmin_some e
        rw [le_antisymm (a2 lo g1) (g3 m a1).1]
    · cases e : nanmax ((data.map fun prof => prof.map (mask B)).flatten.map q) with
      | none => exact absurd (nanmax_none e _ g2) (by simp)
      | some m =>
        obtain ⟨a1, a2⟩ := nanmax_some e
        rw [le_antisymm (g3 m a1).2 (a2 hi g2)]

theorem two_tenths (lo hi : K) : (⌈lo * 10⌉ : K) / 10 < (⌊hi * 10⌋ : K) / 10 ↔ TwoTenths lo hi := by
  constructor
  · intro h
    refine ⟨⌈lo * 10⌉, ⌊hi * 10⌋, ?_, ?_, ?_⟩
    · rw [div_lt_div_iff_of_pos_right (by norm_num)] at h
      exact_mod_cast h
    · rw [le_div_iff₀ (by norm_num)]; exact Int.le_ceil _
    · rw [div_le_iff₀ (by norm_num)]; exact Int.floor_le _
  · rintro ⟨k, m, hkm, hk, hm⟩
    rw [div_lt_div_iff_of_pos_right (by norm_num)]
    rw [le_div_iff₀ (by norm_num)] at hk
    rw [div_le_iff₀ (by norm_num)] at hm
    have h1 : ⌈lo * 10⌉ ≤ k := Int.ceil_le.2 hk
    have h2 : m ≤ ⌊hi * 10⌋ := Int.le_floor.2 hm
    exact_mod_cast (show ⌈lo * 10⌉ < ⌊hi * 10⌋ by omega)

theorem arange_count {a b s : K} (hs : 0 < s) (n : ℕ) : a + (n : K) * s < b ↔ n < (arange a b s).length := by
  unfold arange
  rw [List.length_map, List.length_range]
  have : n < ⌈(b - a) / s⌉.toNat ↔ (n : ℤ) < ⌈(b - a) / s⌉ := by omega
  rw [this, Int.lt_ceil, lt_div_iff₀ hs]
  push_cast
  constructor <;> intro h <;> linarith

theorem arange_get {a b s : K} (i : ℕ) (h : i < (arange a b s).length) : (arange a b s)[i]? = some (a + (i : K) * s) := by
  unfold arange at h ⊢
  rw [List.length_map, List.length_range] at h
  rw [List.getElem?_map, List.getElem?_range h]
  rfl

/-- What the pressure levels are, and when there are none. -/
theorem presLevels_exact (B : Bounds K) (data : List (List (Level K))) :
    ((¬ ∃ lo hi, UsableRange B data Level.ptmp lo hi ∧ TwoTenths lo hi) → presLevels (data.map fun prof => prof.map (mask B)) = .error .nameError) ∧
    ((∃ lo hi, UsableRange B data Level.ptmp lo hi ∧ TwoTenths lo hi) →
      ((¬ ∃ lo hi, UsableRange B data Level.pres lo hi ∧ 10 ≤ hi - lo) → presLevels (data.map fun prof => prof.map (mask B)) = .error .valueError) ∧
      ∀ lo hi, UsableRange B data Level.pres lo hi → 10 ≤ hi - lo → ∃ step : K, 1 ≤ step ∧ (450 < hi - lo → step = 50) ∧
        (hi - lo ≤ 450 → step = (⌊(hi - lo) / 10⌋ : K)) ∧ presLevels (data.map fun prof => prof.map (mask B)) = .ok (arange lo hi step)) := by
  have ht := fun lo hi => usable_range B data Level.ptmp (fun l v => mask_ptmp B l v) lo hi
  have hp := fun lo hi => usable_range B data Level.pres (fun l v => mask_pres B l v) lo hi
  generalize (data.map fun prof => prof.map (mask B)) = D at ht hp ⊢
  refine ⟨fun h => ?_, ?_⟩
  · unfold presLevels
    cases h1 : nanmin (D.flatten.map Level.ptmp) with
    | none => rfl
    | some lo =>
      cases h2 : nanmax (D.flatten.map Level.ptmp) with
      | none => rfl
      | some hi =>
        simp only
        rw [if_neg fun hc => h ⟨lo, hi, (ht lo hi).1 ⟨h1, h2⟩, (two_tenths lo hi).1 hc⟩]
  · rintro ⟨tlo, thi, hr, htt⟩
    obtain ⟨e1, e2⟩ := (ht tlo thi).2 hr
    have hcount : ∀ lo hi : K, (arange lo hi 50).length < 10 ↔ hi - lo ≤ 450 := by
      intro lo hi
      have := arange_count (a := lo) (b := hi) (s := 50) (by norm_num) 9
      push_cast at this
      constructor
      · intro h
        by_contra hc
        have := this.1 (by linarith)
        omega
      · intro h
        by_contra hc
        have := this.2 (by omega)
        linarith
    have hstep : ∀ lo hi : K, lo ≤ hi → ((⌊(hi - lo) / 10⌋ : K) = 0 ↔ ¬ 10 ≤ hi - lo) := by
      intro lo hi hle
      have h0 : (0 : ℤ) ≤ ⌊(hi - lo) / 10⌋ := Int.floor_nonneg.2 (div_nonneg (by linarith) (by norm_num))
      constructor
      · intro h hc
        have h1 : (1 : ℤ) ≤ ⌊(hi - lo) / 10⌋ := Int.le_floor.2 (by push_cast; rw [le_div_iff₀ (by norm_num)]; linarith)
        have : (⌊(hi - lo) / 10⌋ : ℤ) = 0 := by exact_mod_cast h
        omega
      · intro h
        have h1 : ⌊(hi - lo) / 10⌋ < 1 := Int.floor_lt.2 (by push_cast; rw [div_lt_iff₀ (by norm_num)]; linarith)
        have : ⌊(hi - lo) / 10⌋ = 0 := by omega
        rw [this]; simp
    have hrun : ∀ lo hi, nanmin (D.flatten.map Level.pres) = some lo → nanmax (D.flatten.map Level.pres) = some hi → presLevels D =
        if (arange lo hi 50).length < 10 then (if (⌊(hi - lo) / 10⌋ : K) = 0 then .error .valueError else .ok (arange lo hi (⌊(hi - lo) / 10⌋ : K)))
        else .ok (arange lo hi 50) := by
      intro lo hi h3 h4
      unfold presLevels
      rw [e1, e2]
      simp only
      rw [if_pos ((two_tenths tlo thi).2 htt), h3, h4]
    refine ⟨fun hno => ?_, fun lo hi hpr h10 => ?_⟩
    · cases h3 : nanmin (D.flatten.map Level.pres) with
      | none =>
        unfold presLevels
        rw [e1, e2, h3]
        simp only
        rw [if_pos ((two_tenths tlo thi).2 htt)]
      | some lo =>
        cases h4 : nanmax (D.flatten.map Level.pres) with
        | none =>
          unfold presLevels
          rw [e1, e2, h3, h4]
          simp only
          rw [if_pos ((two_tenths tlo thi).2 htt)]
        | some hi =>
          have hR := (hp lo hi).1 ⟨h3, h4⟩
          have h10 : ¬ 10 ≤ hi - lo := fun hc => hno ⟨lo, hi, hR, hc⟩
          have hle : lo ≤ hi := by
            obtain ⟨prof, hp1, l, hl, hu, hv⟩ := hR.1
            exact (hR.2.2 prof hp1 l hl hu lo hv).2
          rw [hrun lo hi h3 h4, if_pos ((hcount lo hi).2 (by linarith)), if_pos ((hstep lo hi hle).2 h10)]
    · obtain ⟨h3, h4⟩ := (hp lo hi).2 hpr
      rw [hrun lo hi h3 h4]
      by_cases hs : hi - lo ≤ 450
      · rw [if_pos ((hcount lo hi).2 hs), if_neg fun hc => (hstep lo hi (by linarith)).1 hc h10]
        refine ⟨_, ?_, fun h => absurd hs (not_le.2 h), fun _ => rfl, rfl⟩
        have h1 : (1 : ℤ) ≤ ⌊(hi - lo) / 10⌋ := Int.le_floor.2 (by push_cast; rw [le_div_iff₀ (by norm_num)]; linarith)
        exact_mod_cast h1
      · rw [if_neg fun hc => hs ((hcount lo hi).1 hc)]
        exact ⟨50, by norm_num, fun _ => rfl, fun h => absurd h hs, rfl⟩

theorem thetaLevel_mean (B : Bounds K) (data : List (List (Level K))) (p : K) :
    MeanTemperature B data p (thetaLevel (data.map fun prof => prof.map (mask B)) p) := by
  refine ⟨(data.map fun prof => prof.map (mask B)).map (interpT p), by simp, ?_, ?_⟩
  · intro d prof v hd hv
    rw [List.getElem?_map, List.getElem?_map, hd] at hv
    simp only [Option.map_some, Option.some.injEq] at hv
    subst hv
    by_cases hin : StrictlyInside B prof p
    · obtain ⟨t, ht, hlin⟩ := interpT_inside B prof p hin
      exact Or.inr ⟨hin, t, ht, hlin⟩
    · exact Or.inl ⟨hin, interpT_outside B prof p hin⟩
  · unfold thetaLevel nanmean
    simp only
    split_ifs with he
    · exact Or.inl ⟨he, rfl⟩
    · exact Or.inr ⟨he, rfl⟩

end helpers

/-- C135. `find_10thetas` chooses among the mean temperatures at pressures in equal steps from the least usable pressure, as many as are below the greatest, at least ten: in steps of
50 dbar, or, if the usable pressures span no more than 450 dbar, in steps of a tenth of this range rounded down to whole decibars. -/
theorem thetas_candidates (B : Bounds K) (percent : K) (data : List (List (Level K))) (r : Thetas K) (h : find10thetas B percent data = .ok r) :
    ∃ lo hi step : K, UsableRange B data Level.pres lo hi ∧ 10 ≤ hi - lo ∧ 1 ≤ step ∧ (450 < hi - lo → step = 50) ∧
      (hi - lo ≤ 450 → step = (⌊(hi - lo) / 10⌋ : K)) ∧ 10 ≤ r.thetaLevels.length ∧
      (∀ n : ℕ, n < r.thetaLevels.length ↔ lo + (n : K) * step < hi) ∧
      (∀ (i : ℕ) (th : Option K), r.thetaLevels[i]? = some th → MeanTemperature B data (lo + (i : K) * step) th) ∧
      ∀ (k : ℕ) (p : Option K), r.pLevels[k]? = some p → ∃ i < r.thetaLevels.length, p = some (lo + (i : K) * step) ∧ r.tLevels[k]? = r.thetaLevels[i]? := by
  obtain ⟨pl, rows, h1, h2, h3, h4, h5, h6, h7⟩ := find10thetas_ok h
  obtain ⟨g1, g2⟩ := presLevels_exact B data
  have ht : ∃ lo hi, UsableRange B data Level.ptmp lo hi ∧ TwoTenths lo hi := by
    by_contra hc
    rw [g1 hc] at h1
    cases h1
  obtain ⟨g3, g4⟩ := g2 ht
  have hp : ∃ lo hi, UsableRange B data Level.pres lo hi ∧ 10 ≤ hi - lo := by
    by_contra hc
    rw [g3 hc] at h1
    cases h1
  obtain ⟨lo, hi, hR, h10⟩ := hp
  obtain ⟨step, hs1, hs2, hs3, hpl⟩ := g4 lo hi hR h10
  obtain rfl : arange lo hi step = pl := Except.ok.inj (hpl.symm.trans h1)
  have hlen : r.thetaLevels.length = (arange lo hi step).length := by rw [h3, List.length_map]
  have hcnt : ∀ n : ℕ, n < r.thetaLevels.length ↔ lo + (n : K) * step < hi := by
    intro n
    rw [hlen]
    exact (arange_count (by linarith) n).symm
  refine ⟨lo, hi, step, hR, h10, hs1, hs2, hs3, ?_, hcnt, ?_, ?_⟩
  · have : 9 < r.thetaLevels.length := by
      rw [hcnt]
      push_cast
      by_cases hs : hi - lo ≤ 450
      · rw [hs3 hs]
        have := Int.floor_le ((hi - lo) / 10)
        rw [le_div_iff₀ (by norm_num)] at this
        linarith
      · rw [hs2 (not_le.1 hs)]
        rw [not_le] at hs
        linarith
    omega
  · intro i th hi'
    have hil := (List.getElem?_eq_some_iff.1 hi').1
    rw [h3, List.getElem?_map, arange_get i (by rw [← hlen]; exact hil), Option.map_some, Option.some.injEq] at hi'
    rw [← hi']
    exact thetaLevel_mean B data _
  · intro k p hk
    rw [h6, List.getElem?_map, Option.map_eq_some_iff] at hk
    obtain ⟨i, hi1, hi2⟩ := hk
    have hil : i < r.thetaLevels.length := by
      obtain ⟨-, -, hex, -⟩ := select_spec 10 (filteredVar percent rows)
      obtain ⟨x, hx⟩ := hex i (List.mem_of_getElem? hi1)
      have hv := (List.getElem?_eq_some_iff.1 hx).1
      obtain ⟨hrl, -⟩ := mapM_getElem h2
      have : (filteredVar percent rows).length = rows.length := by
        unfold filteredVar
        simp
      rw [this, hrl, ← h3] at hv
      exact hv
    refine ⟨i, hil, ?_, ?_⟩
    · rw [← hi2, arange_get i (by rw [← hlen]; exact hil)]
    · rw [h5, List.getElem?_map, hi1, Option.map_some, List.getElem?_eq_getElem hil]
      rfl

/-- C135, exceptions: without two different tenths of a degree within the range of the usable temperatures the call ends with a `NameError`; with them, but usable pressures
that span less than 10 dbar, with a `ValueError`. -/
theorem thetas_need_range (B : Bounds K) (percent : K) (data : List (List (Level K))) :
    ((¬ ∃ lo hi, UsableRange B data Level.ptmp lo hi ∧ TwoTenths lo hi) → find10thetas B percent data = .error .nameError) ∧
    ((∃ lo hi, UsableRange B data Level.ptmp lo hi ∧ TwoTenths lo hi) → (¬ ∃ lo hi, UsableRange B data Level.pres lo hi ∧ 10 ≤ hi - lo) →
      find10thetas B percent data = .error .valueError) := by
  obtain ⟨g1, g2⟩ := presLevels_exact B data
  refine ⟨fun h => ?_, fun h h' => ?_⟩
  · unfold find10thetas
    simp only
    rw [g1 h]
    rfl
  · unfold find10thetas
    simp only
    rw [(g2 h).1 h']
    rfl

/-- C135 on two profiles over 1000 dbar: twenty levels. -/
example : ∃ r, find10thetas (⟨some 10, some 0, none, none⟩ : Bounds ℚ) (1 / 2) [exProfile, exProfile] = .ok r ∧ r.thetaLevels.length = 20 ∧
    UsableRange (⟨some 10, some 0, none, none⟩ : Bounds ℚ) [exProfile, exProfile] Level.pres 0 1000 ∧ TwoTenths (0 : ℚ) 10 := by
  have h : (match find10thetas (⟨some 10, some 0, none, none⟩ : Bounds ℚ) (1 / 2) [exProfile, exProfile] with
      | .ok r => decide (r.thetaLevels.length = 20)
      | .error _ => false) = true := by decide +kernel
  cases hr : find10thetas (⟨some 10, some 0, none, none⟩ : Bounds ℚ) (1 / 2) [exProfile, exProfile] with
  | error e => rw [hr] at h; simp at h
  | ok r =>
    rw [hr] at h
    refine ⟨r, rfl, by simpa using h, ?_, 0, 1, by norm_num, by norm_num, by norm_num⟩
    refine ⟨⟨exProfile, by simp, _, List.mem_cons_self, ?_, rfl⟩, ⟨exProfile, by simp, _, List.mem_cons_of_mem _ List.mem_cons_self, ?_, rfl⟩, ?_⟩
    · simp [Usable, Allowed]
    · simp [Usable, Allowed]
    · intro prof hp l hl hu v hv
      simp only [List.mem_cons, List.not_mem_nil, or_false, or_self] at hp
      subst hp
      simp only [exProfile, List.mem_cons, List.not_mem_nil, or_false] at hl
      rcases hl with rfl | rfl <;> obtain rfl := Option.some.inj hv <;> norm_num

end Verif.Props
