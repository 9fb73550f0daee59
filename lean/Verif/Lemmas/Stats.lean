import Verif.Spec.Stats
import Verif.Lemmas.Np

set_option linter.unusedSectionVars false

namespace Verif.Stats

open Verif.Np Verif.Utilities Verif.Spec

variable {K : Type} [Field K] [LinearOrder K] [IsStrictOrderedRing K]

theorem sum_sq_nonneg (vs : List K) (m : K) : 0 ≤ (vs.map fun v => (v - m) ^ 2).sum := by
  induction vs with
  | nil => simp
  | cons a l ih => simp only [List.map_cons, List.sum_cons]; have := sq_nonneg (a - m); linarith

theorem sum_sq_eq_zero (vs : List K) (m : K) (h : (vs.map fun v => (v - m) ^ 2).sum = 0) : ∀ v ∈ vs, v = m := by
  induction vs with
  | nil => simp
  | cons a l ih =>
    simp only [List.map_cons, List.sum_cons] at h
    have h1 := sq_nonneg (a - m)
    have h2 := sum_sq_nonneg l m
    have h3 : (a - m) ^ 2 = 0 := by linarith
    have h4 : (l.map fun v => (v - m) ^ 2).sum = 0 := by linarith
    intro v hv
    rcases List.mem_cons.1 hv with rfl | hv
    · have := pow_eq_zero_iff (n := 2) (by norm_num) |>.1 h3; linarith
    · exact ih h4 v hv

theorem sum_map_add_const (vs : List K) (c : K) : (vs.map (· + c)).sum = vs.sum + vs.length * c := by
  induction vs with
  | nil => simp
  | cons a l ih => simp only [List.map_cons, List.sum_cons, ih, List.length_cons]; push_cast; ring

theorem sum_map_mul_const (vs : List K) (c : K) : (vs.map (c * ·)).sum = c * vs.sum := by
  induction vs with
  | nil => simp
  | cons a l ih => simp only [List.map_cons, List.sum_cons, ih]; ring

theorem sum_eq_of_forall (vs : List K) (c : K) (h : ∀ v ∈ vs, v = c) : vs.sum = vs.length * c := by
  induction vs with
  | nil => simp
  | cons a l ih =>
    simp only [List.sum_cons, List.length_cons]
    rw [ih (fun v hv => h v (List.mem_cons_of_mem _ hv)), h a (by simp)]; push_cast; ring

theorem dist_eq_some (a b : Obs K) (d : K) : dist a b = some d ↔ SqDist a b d := by
  unfold dist SqDist
  rcases a with ⟨sa, la, xa⟩
  rcases b with ⟨sb, lb, xb⟩
  cases la <;> cases lb <;> cases xa <;> cases xb <;> simp [eq_comm]

theorem dropZero_eq_some (d : Option K) (e : K) : dropZero d = some e ↔ d = some e ∧ e ≠ 0 := by
  unfold dropZero
  split_ifs with h
  · subst h
    constructor
    · intro h; simp at h
    · rintro ⟨h1, h2⟩
      exact absurd (Option.some.inj h1).symm h2
  · constructor
    · intro h1
      exact ⟨h1, fun h0 => h (by rw [h1, h0])⟩
    · exact fun h => h.1

theorem nearest_ok {obs : List (Obs K)} {i j : ℕ} {a : Obs K} (ha : obs[i]? = some a) (h : nearest obs a = .ok j) :
    IsNearest obs i j := by
  unfold nearest at h
  cases hn : nanArgmin (obs.map fun b => dropZero (dist a b)) with
  | none => rw [hn] at h; simp at h
  | some j' =>
    rw [hn] at h
    simp only [Except.ok.injEq] at h
    subst h
    obtain ⟨d, hd, hmin, hfirst⟩ := nanArgmin_some hn
    rw [List.getElem?_map, Option.map_eq_some_iff] at hd
    obtain ⟨b, hb, hd⟩ := hd
    obtain ⟨hd, hd0⟩ := (dropZero_eq_some _ _).1 hd
    refine ⟨a, b, d, ha, hb, (dist_eq_some a b d).1 hd, hd0, ?_⟩
    intro k c e hk hc he
    have hke : (obs.map fun b => dropZero (dist a b))[k]? = some (some e) := by
      rw [List.getElem?_map, hk]
      simp only [Option.map_some, Option.some.injEq]
      exact (dropZero_eq_some _ _).2 ⟨(dist_eq_some a c e).2 hc, he⟩
    exact ⟨hmin k e hke, fun hlt => hfirst k e hlt hke⟩

theorem nearest_error {obs : List (Obs K)} {a : Obs K} {e : PyErr} (h : nearest obs a = .error e) :
    e = .valueError ∧ ∀ b ∈ obs, ∀ d, SqDist a b d → d = 0 := by
  unfold nearest at h
  cases hn : nanArgmin (obs.map fun b => dropZero (dist a b)) with
  | some j => rw [hn] at h; simp at h
  | none =>
    rw [hn] at h
    simp only [Except.error.injEq] at h
    refine ⟨h.symm, fun b hb d hd => ?_⟩
    by_contra h0
    have := nanArgmin_none hn (dropZero (dist a b)) (List.mem_map_of_mem hb)
    rw [(dropZero_eq_some _ d).2 ⟨(dist_eq_some a b d).2 hd, h0⟩] at this
    simp at this

theorem all_dist_iff (obs : List (Obs K)) :
    (obs.all fun a => obs.all fun b => decide (dist a b = some 0)) = true ↔ Coincide obs := by
  unfold Coincide
  simp only [List.all_eq_true, decide_eq_true_eq, dist_eq_some]

end Verif.Stats
