import Verif.Model.Topo
import Verif.Lemmas.Np
import Mathlib.Tactic.Ring
import Mathlib.Tactic.FieldSimp

set_option linter.unusedSectionVars false

namespace Verif.Topo

open Verif.Np

variable {K : Type} [Field K] [LinearOrder K] [IsStrictOrderedRing K] [FloorRing K]

theorem arangeFrom_get (a : ℤ) (n i : ℕ) :
    (arangeFrom a n)[i]? = if i < n then some (a + i) else none := by
  induction n generalizing a i with
  | zero => simp [arangeFrom]
  | succ n ih =>
    cases i with
    | zero => simp [arangeFrom]
    | succ i =>
      simp only [arangeFrom, List.getElem?_cons_succ, ih]
      by_cases h : i < n
      · simp [h]; ring
      · simp [h]

theorem arangeFrom_len (a : ℤ) (n : ℕ) : (arangeFrom a n).length = n := by
  induction n generalizing a with
  | zero => rfl
  | succ n ih => simp [arangeFrom, ih]

theorem arangeIncl_len (a b : ℤ) : (arangeIncl a b).length = (b + 1 - a).toNat := arangeFrom_len _ _

theorem arangeIncl_get (a b : ℤ) (i : ℕ) :
    (arangeIncl a b)[i]? = if (i : ℤ) < b + 1 - a then some (a + i) else none := by
  unfold arangeIncl
  rw [arangeFrom_get]
  by_cases h : (i : ℤ) < b + 1 - a
  · rw [if_pos h, if_pos (by omega)]
  · rw [if_neg h, if_neg (by omega)]

theorem readRow_ok (file : List ℤ) (pos : ℤ) (n : ℕ) (h0 : 0 ≤ pos) (h : pos.toNat + n ≤ file.length) :
    ∃ row, readRow file pos n = .ok row ∧ row.length = n ∧
      ∀ j : ℕ, j < n → row[j]? = file[pos.toNat + j]? := by
  unfold readRow
  rw [if_neg (by omega)]
  obtain ⟨m, hm⟩ := mapM_isOk (l := List.range n) (f := fun (j : ℕ) =>
    match file[pos.toNat + j]? with
    | some z => (.ok z : Except PyErr ℤ)
    | none => .error .structError) (by
      intro j hj
      rw [List.mem_range] at hj
      have : pos.toNat + j < file.length := by omega
      exact ⟨file[pos.toNat + j], by simp [List.getElem?_eq_getElem this]⟩)
  refine ⟨m, hm, ?_, ?_⟩
  · simpa using (mapM_getElem hm).1
  · intro j hj
    obtain ⟨b, hb, hf⟩ := (mapM_getElem hm).2 j j (by simp [hj])
    rw [hb]
    have hlt : pos.toNat + j < file.length := by omega
    simp only [List.getElem?_eq_getElem hlt] at hf ⊢
    simp at hf
    rw [hf]

theorem readRows_ok (file : List ℤ) (hf : file.length = 2160 * 4320) (nlat top col n : ℤ)
    (h1 : 0 ≤ nlat) (h2 : 0 ≤ top) (h3 : top + nlat ≤ 2160) (h4 : 0 ≤ col) (h5 : 0 ≤ n)
    (h6 : col + n ≤ 4320) :
    ∃ rows, readRows file nlat top col n = .ok rows ∧ (rows.length : ℤ) = nlat ∧
      ∀ i : ℕ, (i : ℤ) < nlat → ∃ row, rows[i]? = some row ∧ (row.length : ℤ) = n ∧
        ∀ j : ℕ, (j : ℤ) < n → row[j]? = file[4320 * (i + top.toNat) + (col.toNat + j)]? := by
  have key : ∀ i : ℕ, (i : ℤ) < nlat → ∃ row,
      readRow file (((i : ℤ) + top) * 4320 + col) n.toNat = .ok row ∧ row.length = n.toNat ∧
      ∀ j : ℕ, j < n.toNat → row[j]? = file[(((i : ℤ) + top) * 4320 + col).toNat + j]? := by
    intro i hi
    apply readRow_ok
    · have : 0 ≤ ((i : ℤ) + top) * 4320 := by positivity
      omega
    · rw [hf]; omega
  obtain ⟨m, hm⟩ := mapM_isOk (l := List.range nlat.toNat)
    (f := fun (i : ℕ) => readRow file (((i : ℤ) + top) * 4320 + col) n.toNat) (by
      intro i hi
      rw [List.mem_range] at hi
      obtain ⟨row, hr, _⟩ := key i (by omega)
      exact ⟨row, hr⟩)
  refine ⟨m, ?_, ?_, ?_⟩
  · unfold readRows zeros
    rw [if_neg (by omega)]
    exact hm
  · have := (mapM_getElem hm).1
    simp at this
    omega
  · intro i hi
    obtain ⟨row, hr, hrf⟩ := (mapM_getElem hm).2 i i (List.getElem?_range (by omega))
    obtain ⟨row', hr', hl, hg⟩ := key i hi
    have : row = row' := by
      rw [hr'] at hrf; exact (Except.ok.inj hrf).symm
    subst this
    refine ⟨row, hr, by omega, ?_⟩
    intro j hj
    rw [hg j (by omega)]
    congr 1
    omega

end Verif.Topo
