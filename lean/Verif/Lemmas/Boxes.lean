import Verif.Model.Finders
import Verif.Spec.Boxes
import Mathlib.Tactic.IntervalCases
import Mathlib.Tactic.Linarith
import Mathlib.Tactic.NormNum
import Mathlib.Algebra.Order.Floor.Ring

set_option linter.unusedSectionVars false

namespace Verif.Finders

open Verif.Np Verif.Spec

variable {K : Type} [Field K] [LinearOrder K] [IsStrictOrderedRing K]

theorem argminAux_spec (best : K) (bi i : ℕ) (l : List K) (pre : List K) (hi : pre.length = i)
    (hbi : pre[bi]? = some best) (hmin : ∀ (j : ℕ) (b : K), pre[j]? = some b → best ≤ b)
    (hfirst : ∀ (j : ℕ) (b : K), j < bi → pre[j]? = some b → best < b) :
    ∃ v, (pre ++ l)[argminAux best bi i l]? = some v ∧ (∀ (j : ℕ) (b : K), (pre ++ l)[j]? = some b → v ≤ b) ∧
      (∀ (j : ℕ) (b : K), j < argminAux best bi i l → (pre ++ l)[j]? = some b → v < b) := by
  induction l generalizing best bi i pre with
  | nil => exact ⟨best, by simpa [argminAux] using hbi, by simpa using hmin, by simpa [argminAux] using hfirst⟩
  | cons a l ih =>
    have happ : pre ++ a :: l = (pre ++ [a]) ++ l := by simp
    have hlast : ∀ (j : ℕ) (b : K), (pre ++ [a])[j]? = some b → pre[j]? = some b ∨ (j = pre.length ∧ b = a) := by
      intro j b hb
      rw [List.getElem?_append] at hb
      split_ifs at hb with hj
      · exact Or.inl hb
      · rw [List.getElem?_singleton] at hb
        split_ifs at hb with h0
        exact Or.inr ⟨by omega, (Option.some.inj hb).symm⟩
    rw [happ]
    unfold argminAux
    split_ifs with h
    · refine ih a i (i + 1) (pre ++ [a]) (by simp [hi]) (by rw [← hi]; simp) ?_ ?_
      · intro j b hb
        rcases hlast j b hb with hb | ⟨_, rfl⟩
        · exact h.le.trans (hmin j b hb)
        · exact le_rfl
      · intro j b hj hb
        rcases hlast j b hb with hb | ⟨h', _⟩
        · exact h.trans_le (hmin j b hb)
        · omega
    · have hbilt : bi < pre.length := (List.getElem?_eq_some_iff.1 hbi).1
      refine ih best bi (i + 1) (pre ++ [a]) (by simp [hi]) (by rw [List.getElem?_append_left hbilt]; exact hbi) ?_ ?_
      · intro j b hb
        rcases hlast j b hb with hb | ⟨_, rfl⟩
        · exact hmin j b hb
        · exact not_lt.1 h
      · intro j b hj hb
        rcases hlast j b hb with hb | ⟨h', _⟩
        · exact hfirst j b hj hb
        · omega

/-- `argmin` finds the first least element: any index with that property is the one found. -/
theorem argmin_eq (l : List K) (k : ℕ) (v : K) (hk : l[k]? = some v) (hmin : ∀ (j : ℕ) (b : K), l[j]? = some b → v ≤ b)
    (hfirst : ∀ (j : ℕ) (b : K), j < k → l[j]? = some b → v < b) : argmin l = some k := by
  cases l with
  | nil => simp at hk
  | cons a l =>
    obtain ⟨w, hw, hwmin, hwfirst⟩ := argminAux_spec a 0 1 l [a] rfl rfl
      (fun j b hb => by
        rw [List.getElem?_singleton] at hb
        split_ifs at hb
        exact (Option.some.inj hb).le)
      (fun j b hj _ => by omega)
    rw [List.singleton_append] at hw hwmin hwfirst
    unfold argmin
    set m := argminAux a 0 1 l
    rcases lt_trichotomy m k with h | h | h
    · exact absurd (hfirst m w h hw) (not_lt.2 (hwmin k v hk))
    · exact congrArg some h
    · exact absurd (hwfirst k v h hk) (not_lt.2 (hmin m w hw))

theorem lookupX_get (j : ℕ) (v b : K) : ((lookupX (K := K)).map fun a => |a - v|)[j]? = some b ↔
    j < 38 ∧ b = |(-5 + 10 * (j : K)) - v| := by
  simp only [lookupX, List.getElem?_map, List.getElem?_range, List.map_map, Option.map_eq_some_iff]
  constructor
  · rintro ⟨a, ha, rfl⟩
    rw [List.getElem?_eq_some_iff] at ha
    obtain ⟨h, rfl⟩ := ha
    simpa using h
  · rintro ⟨h, rfl⟩
    exact ⟨j, by simp [h], rfl⟩

theorem lookupY_get (j : ℕ) (v b : K) : ((lookupY (K := K)).map fun a => |a - v|)[j]? = some b ↔
    j < 18 ∧ b = |(85 - 10 * (j : K)) - v| := by
  simp only [lookupY, List.getElem?_map, List.getElem?_range, List.map_map, Option.map_eq_some_iff]
  constructor
  · rintro ⟨a, ha, rfl⟩
    rw [List.getElem?_eq_some_iff] at ha
    obtain ⟨h, rfl⟩ := ha
    simpa using h
  · rintro ⟨h, rfl⟩
    exact ⟨j, by simp [h], rfl⟩

theorem argminX (v : K) (k : ℕ) (hk : k < 38) (h1 : 10 * (k : K) - 10 < v) (h2 : v ≤ 10 * (k : K)) :
    argmin ((lookupX (K := K)).map fun a => |a - v|) = some k := by
  have hv : |(-5 + 10 * (k : K)) - v| ≤ 5 := by rw [abs_le]; constructor <;> linarith
  apply argmin_eq _ k |(-5 + 10 * (k : K)) - v|
  · rw [lookupX_get]; exact ⟨hk, rfl⟩
  · intro j b hb
    rw [lookupX_get] at hb
    obtain ⟨_, rfl⟩ := hb
    rcases lt_trichotomy j k with hj | hj | hj
    · have : (j : K) + 1 ≤ k := by exact_mod_cast hj
      exact hv.trans (le_trans (by linarith) (neg_le_abs _))
    · rw [hj]
    · have : (k : K) + 1 ≤ j := by exact_mod_cast hj
      exact hv.trans (le_trans (by linarith) (le_abs_self _))
  · intro j b hj hb
    rw [lookupX_get] at hb
    obtain ⟨_, rfl⟩ := hb
    have : (j : K) + 1 ≤ k := by exact_mod_cast hj
    exact hv.trans_lt (lt_of_lt_of_le (by linarith) (neg_le_abs _))

/-- Latitude: row `k` for a value at or above the lower edge (unless it is the last row) and below the upper edge (unless it is the
first). -/
theorem argminY (v : K) (k : ℕ) (hk : k < 18) (h1 : 80 - 10 * (k : K) ≤ v ∨ k = 17)
    (h2 : v < 90 - 10 * (k : K) ∨ k = 0) :
    argmin ((lookupY (K := K)).map fun a => |a - v|) = some k := by
  have hlt : ∀ j : ℕ, j < k → |(85 - 10 * (k : K)) - v| < |(85 - 10 * (j : K)) - v| := by
    intro j hj
    have hjk : (j : K) + 1 ≤ k := by exact_mod_cast hj
    have h2' : v < 90 - 10 * (k : K) := by
      rcases h2 with h | h
      · exact h
      · omega
    rw [abs_of_pos (show 0 < (85 - 10 * (j : K)) - v by linarith), abs_lt]
    constructor <;> linarith
  have hle : ∀ j : ℕ, j < 18 → k < j → |(85 - 10 * (k : K)) - v| ≤ |(85 - 10 * (j : K)) - v| := by
    intro j hj18 hj
    have hjk : (k : K) + 1 ≤ j := by exact_mod_cast hj
    have h1' : 80 - 10 * (k : K) ≤ v := by
      rcases h1 with h | h
      · exact h
      · omega
    rw [abs_of_neg (show (85 - 10 * (j : K)) - v < 0 by linarith), abs_le]
    constructor <;> linarith
  apply argmin_eq _ k |(85 - 10 * (k : K)) - v|
  · rw [lookupY_get]; exact ⟨hk, rfl⟩
  · intro j b hb
    rw [lookupY_get] at hb
    obtain ⟨hj18, rfl⟩ := hb
    rcases lt_trichotomy j k with hj | hj | hj
    · exact (hlt j hj).le
    · rw [hj]
    · exact hle j hj18 hj
  · intro j b hj hb
    rw [lookupY_get] at hb
    obtain ⟨_, rfl⟩ := hb
    exact hlt j hj

/-- The lookup table: column `i` is the cell column `i - 1` modulo 36, entries numbered from 1. -/
theorem lookupColumns_get (i j : ℕ) (hi : i < 38) (hj : j < 18) :
    ∃ col, lookupColumns[i]? = some col ∧ col[j]? = some (18 * ((i + 35) % 36) + j + 1) := by
  have h : ∀ i < 38, ∀ j < 18, (lookupColumns[i]?.bind fun col => col[j]?) = some (18 * ((i + 35) % 36) + j + 1) := by
    decide +kernel
  have := h i hi j hj
  rw [Option.bind_eq_some_iff] at this
  obtain ⟨col, h1, h2⟩ := this
  exact ⟨col, h1, h2⟩

/-- The number found for a (wrapped) point `(v, w)`. -/
theorem nearestNeighbour_eq (v w : K) (cx cy : ℤ) (hcx : -1 ≤ cx ∧ cx ≤ 36) (h1 : 10 * (cx : K) < v)
    (h2 : v ≤ 10 * (cx : K) + 10) (h3 : 10 * (cy : K) ≤ w) (h4 : w < 10 * (cy : K) + 10) :
    nearestNeighbour lookupX lookupY lookupColumns v w = .ok (wmoRow cx cy + 1) := by
  obtain ⟨k, hk⟩ : ∃ k : ℕ, (k : ℤ) = cx + 1 := ⟨(cx + 1).toNat, by omega⟩
  obtain ⟨r, hr⟩ : ∃ r : ℕ, (r : ℤ) = 8 - max (-9) (min 8 cy) := ⟨(8 - max (-9) (min 8 cy)).toNat, by omega⟩
  have hkK : (k : K) = cx + 1 := by exact_mod_cast congrArg (Int.cast : ℤ → K) hk
  have hx := argminX v k (by omega) (by rw [hkK]; linarith) (by rw [hkK]; linarith)
  have hy := argminY w r (by omega)
    (by
      by_cases hc : cy < -9
      · right; omega
      · left
        have : (8 : ℤ) - r ≤ cy := by omega
        have : (8 : K) - r ≤ cy := by exact_mod_cast this
        linarith)
    (by
      by_cases hc : 8 < cy
      · right; omega
      · left
        have : cy ≤ (8 : ℤ) - r := by omega
        have : (cy : K) ≤ 8 - r := by exact_mod_cast this
        linarith)
  obtain ⟨col, hcol, hval⟩ := lookupColumns_get k r (by omega) (by omega)
  unfold nearestNeighbour
  rw [hx, hy]
  simp only [hcol, hval]
  congr 1
  unfold wmoRow
  have e1 : (k + 35) % 36 = (cx % 36).toNat := by omega
  rw [e1, ← hr]
  simp

theorem wmoRow_mod (cx cy m : ℤ) : wmoRow (cx + 36 * m) cy = wmoRow cx cy := by
  unfold wmoRow
  rw [Int.add_mul_emod_self_left]

theorem wmoRow_lt (cx cy : ℤ) : wmoRow cx cy < 648 := by
  unfold wmoRow
  have := Int.emod_lt_of_pos cx (show (0 : ℤ) < 36 by norm_num)
  have := Int.emod_nonneg cx (show (36 : ℤ) ≠ 0 by norm_num)
  omega

end Verif.Finders
