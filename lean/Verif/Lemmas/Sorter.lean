import Verif.Model.Utilities

set_option linter.unusedSectionVars false

namespace Verif.Utilities

open Verif.Np

variable {K : Type} [Field K] [LinearOrder K] [IsStrictOrderedRing K]

/-- Positions minus running numbers, as a running count of the non-selected entries. -/
def ptr (q : ℕ → Bool) : ℤ → List (K × ℕ) → List ℤ
  | _, [] => []
  | c, x :: S => if q x.2 then c :: ptr q c S else ptr q (c + 1) S


theorem zipWith_argwhere_eq_ptr (q : ℕ → Bool) (S : List (K × ℕ)) (s : ℕ) (a : ℤ) (n : ℕ)
    (hn : n = S.countP (fun x => q x.2)) :
    List.zipWith (fun (p : ℕ) (a : ℤ) => (p : ℤ) - a) (argwhereFrom q s (S.map Prod.snd))
      (arangeFrom a n) = ptr q (s - a) S := by
  induction S generalizing s a n with
  | nil => simp [argwhereFrom, ptr]
  | cons x S ih =>
    by_cases hx : q x.2 = true
    · have : n = S.countP (fun x => q x.2) + 1 := by simp [hn, hx]
      subst this
      simp only [List.map_cons, argwhereFrom, hx, if_true, arangeFrom, List.zipWith_cons_cons, ptr]
      congr 1
      rw [ih (s + 1) (a + 1) _ rfl]
      congr 1; push_cast; ring
    · have : n = S.countP (fun x => q x.2) := by simp [hn, hx]
      simp only [List.map_cons, argwhereFrom, hx, ptr]
      simp only [Bool.false_eq_true, if_false]
      rw [ih (s + 1) a n this]
      congr 1; push_cast; ring


theorem ptr_eq_of_sorted (m : ℕ) (S : List (K × ℕ)) (c : ℤ) (hS : S.Pairwise lexLe) :
    ptr (fun i => decide (m ≤ i)) c S =
      (S.filter (fun x => decide (m ≤ x.2))).map (fun x =>
        c + (S.countP (fun y => decide (y.2 < m) && decide (y.1 ≤ x.1)) : ℤ)) := by
  induction S generalizing c with
  | nil => simp [ptr]
  | cons x S ih =>
    rw [List.pairwise_cons] at hS
    obtain ⟨hx, hS⟩ := hS
    by_cases hm : m ≤ x.2
    · have hnot : ¬ x.2 < m := by omega
      simp only [ptr, hm, decide_true, if_true]
      rw [List.filter_cons_of_pos (by simpa using hm), List.map_cons]
      congr 1
      · have h0 : (x :: S).countP (fun y => decide (y.2 < m) && decide (y.1 ≤ x.1)) = 0 := by
          rw [List.countP_eq_zero]
          intro y hy
          simp only [List.mem_cons] at hy
          rcases hy with rfl | hy
          · simp [hm]
          · have := hx y hy
            unfold lexLe at this
            rcases this with h | ⟨h1, h2⟩
            · simp [h]
            · have : ¬ y.2 < m := by omega
              simp [this]
        rw [h0]; simp
      · rw [ih c hS]
        apply List.map_congr_left
        intro y _
        rw [List.countP_cons]
        simp [hm]
    · have hlt : x.2 < m := by omega
      simp only [ptr, hm, decide_false, Bool.false_eq_true, if_false]
      rw [List.filter_cons_of_neg (by simpa using hm), ih (c + 1) hS]
      apply List.map_congr_left
      intro y hy
      have hyS := (List.mem_filter.1 hy).1
      have := hx y hyS
      have hle : x.1 ≤ y.1 := by
        unfold lexLe at this
        rcases this with h | ⟨h1, _⟩
        · exact h.le
        · exact h1.le
      rw [List.countP_cons]
      simp [hlt, hle]; ring

theorem insertionSort_eq_of_perm_sorted {l l' : List K} (hp : l.Perm l') (hs : l.Pairwise (· ≤ ·)) :
    l = l'.insertionSort (· ≤ ·) :=
  (hp.trans (List.perm_insertionSort (· ≤ ·) l').symm).eq_of_pairwise'
    hs (List.pairwise_insertionSort (· ≤ ·) l')


theorem filter_zipIdx_left (l : List K) (s m : ℕ) (h : s + l.length ≤ m) :
    (l.zipIdx s).filter (fun x => decide (m ≤ x.2)) = [] := by
  rw [List.filter_eq_nil_iff]
  intro x hx
  have := List.snd_lt_of_mem_zipIdx hx
  simp; omega


theorem filter_zipIdx_right (l : List K) (s m : ℕ) (h : m ≤ s) :
    (l.zipIdx s).filter (fun x => decide (m ≤ x.2)) = l.zipIdx s := by
  rw [List.filter_eq_self]
  intro x hx
  have := List.le_snd_of_mem_zipIdx hx
  simp; omega


theorem countP_zipIdx_left (l : List K) (s m : ℕ) (h : s + l.length ≤ m) (v : K) :
    (l.zipIdx s).countP (fun y => decide (y.2 < m) && decide (y.1 ≤ v)) =
      l.countP (fun y => decide (y ≤ v)) := by
  induction l generalizing s with
  | nil => simp
  | cons a l ih =>
    simp only [List.length_cons] at h
    rw [List.zipIdx_cons, List.countP_cons, List.countP_cons, ih (s + 1) (by omega)]
    have : s < m := by omega
    simp [this]


theorem countP_zipIdx_right (l : List K) (s m : ℕ) (h : m ≤ s) (v : K) :
    (l.zipIdx s).countP (fun y => decide (y.2 < m) && decide (y.1 ≤ v)) = 0 := by
  rw [List.countP_eq_zero]
  intro x hx
  have := List.le_snd_of_mem_zipIdx hx
  have : ¬ x.2 < m := by omega
  simp [this]

theorem sorter_eq (ms xs : List K) :
    sorter ms xs = (xs.insertionSort (· ≤ ·)).map
      (fun x => (ms.countP (fun b => decide (b ≤ x)) : ℤ) - 1) := by
  have hq : (fun i : ℕ => decide ((i : ℤ) > (ms.length : ℤ) - 1)) =
      (fun i : ℕ => decide (ms.length ≤ i)) := by
    funext i; congr 1; apply propext; constructor <;> intro h <;> omega
  have hperm : (stableSortPairs (ms ++ xs)).Perm ((ms ++ xs).zipIdx) :=
    List.perm_insertionSort _ _
  have hsorted : (stableSortPairs (ms ++ xs)).Pairwise lexLe :=
    List.pairwise_insertionSort _ _
  have hzip : (ms ++ xs).zipIdx = ms.zipIdx ++ xs.zipIdx ms.length := by
    rw [List.zipIdx_append]; simp
  have hfil : ((ms ++ xs).zipIdx).filter (fun x => decide (ms.length ≤ x.2)) =
      xs.zipIdx ms.length := by
    rw [hzip, List.filter_append, filter_zipIdx_left _ _ _ (by simp),
      filter_zipIdx_right _ _ _ le_rfl]
    simp
  have hfp := (hperm.filter (fun x => decide (ms.length ≤ x.2)))
  rw [hfil] at hfp
  unfold sorter
  simp only [argwhere, stableArgsort, hq]
  rw [zipWith_argwhere_eq_ptr (fun i => decide (ms.length ≤ i)) _ 0 1 xs.length]
  · rw [ptr_eq_of_sorted _ _ _ hsorted]
    have hfst : ((stableSortPairs (ms ++ xs)).filter (fun x => decide (ms.length ≤ x.2))).map Prod.fst
        = xs.insertionSort (· ≤ ·) := by
      apply insertionSort_eq_of_perm_sorted
      · have := hfp.map Prod.fst
        simpa using this
      · rw [List.pairwise_map]
        refine (List.Pairwise.filter _ hsorted).imp ?_
        intro a b h
        rcases h with h | ⟨h, _⟩
        · exact h.le
        · exact h.le
    rw [← hfst, List.map_map]
    apply List.map_congr_left
    intro x _
    simp only [Function.comp]
    rw [hperm.countP_eq, hzip, List.countP_append, countP_zipIdx_left _ _ _ (by simp),
      countP_zipIdx_right _ _ _ le_rfl]
    push_cast; ring
  · rw [List.countP_eq_length_filter, hfp.length_eq]
    simp

end Verif.Utilities
