import Verif.Spec.Helper
import Verif.Lemmas.Np

/-!
# Lemmas for the helpers
-/

set_option linter.unusedSectionVars false

namespace Verif.Helper

open Verif.Np Verif.Spec

section Gather

variable {ι α β : Type}

theorem gather_argwhereFrom (P : α → Bool) (f : ι → α) (g : ι → β) (casts : List ι) (pre : List β) :
    gather (pre ++ casts.map g) (argwhereFrom P pre.length (casts.map f)) = .ok ((casts.filter fun i => P (f i)).map g) := by
  induction casts generalizing pre with
  | nil => rfl
  | cons a l ih =>
    have h := ih (pre ++ [g a])
    rw [List.append_assoc, List.singleton_append, List.length_append, List.length_singleton] at h
    simp only [List.map_cons, argwhereFrom, List.filter_cons]
    by_cases hp : P (f a) = true
    · simp only [hp, if_true, List.map_cons]
      unfold gather at h ⊢
      rw [List.mapM_cons]
      have e : (pre ++ g a :: l.map g)[pre.length]? = some (g a) := by simp
      rw [e]
      simp only [h, bind, Except.bind, pure, Except.pure]
    · simp only [hp, if_false, Bool.false_eq_true]
      exact h

theorem gather_argwhere (P : α → Bool) (f : ι → α) (g : ι → β) (casts : List ι) :
    gather (casts.map g) (argwhere P (casts.map f)) = .ok ((casts.filter fun i => P (f i)).map g) :=
  gather_argwhereFrom P f g casts []

theorem gatherKnown_argwhereFrom (P : α → Bool) (f : ι → α) (g : ι → Option β) (casts : List ι) (pre : List (Option β)) :
    gatherKnown (pre ++ casts.map g) (argwhereFrom P pre.length (casts.map f)) = (casts.filter fun i => P (f i)).filterMap g := by
  induction casts generalizing pre with
  | nil => rfl
  | cons a l ih =>
    have h := ih (pre ++ [g a])
    rw [List.append_assoc, List.singleton_append, List.length_append, List.length_singleton] at h
    simp only [List.map_cons, argwhereFrom, List.filter_cons]
    by_cases hp : P (f a) = true
    · simp only [hp, if_true]
      unfold gatherKnown at h ⊢
      rw [List.filterMap_cons, List.filterMap_cons]
      have e : (pre ++ g a :: l.map g)[pre.length]? = some (g a) := by simp
      rw [e]
      simp only [Option.join_some, h]
    · simp only [hp, if_false, Bool.false_eq_true]
      exact h

theorem gatherKnown_argwhere (P : α → Bool) (f : ι → α) (g : ι → Option β) (casts : List ι) :
    gatherKnown (casts.map g) (argwhere P (casts.map f)) = (casts.filter fun i => P (f i)).filterMap g :=
  gatherKnown_argwhereFrom P f g casts []

theorem map_range_get [Inhabited α] (l : List α) (n : ℕ) (h : l.length = n) : (List.range n).map (fun i => l[i]!) = l := by
  subst h; exact map_getElem!_range l

theorem filterMap_known {γ : Type} (js : List γ) (g : γ → Option α) (d : α) (h : ∀ j ∈ js, g j ≠ none) :
    js.filterMap g = js.map fun j => (g j).getD d := by
  induction js with
  | nil => rfl
  | cons a l ih =>
    have ha := h a (by simp)
    obtain ⟨v, hv⟩ := Option.ne_none_iff_exists'.1 ha
    rw [List.filterMap_cons, hv, List.map_cons, hv, ih (fun j hj => h j (by simp [hj]))]
    rfl

end Gather

theorem map_some_filterMap {γ α : Type} (js : List γ) (g : γ → Option α) (h : ∀ j ∈ js, g j ≠ none) :
    (js.filterMap g).map some = js.map g := by
  induction js with
  | nil => rfl
  | cons a l ih =>
    obtain ⟨v, hv⟩ := Option.ne_none_iff_exists'.1 (h a (by simp))
    rw [List.filterMap_cons, hv, List.map_cons, List.map_cons, hv, ih (fun j hj => h j (by simp [hj]))]

theorem npDelete_eq {α : Type} (l : List α) (idx : List ℕ) (h : ∀ i ∈ idx, i < l.length) :
    ∃ r, npDelete l idx = .ok r ∧ r.map some = ((List.range l.length).filter fun i => decide (i ∉ idx)).map fun j => l[j]? := by
  unfold npDelete
  rw [if_pos (by simpa using h)]
  refine ⟨_, rfl, map_some_filterMap _ _ ?_⟩
  intro j hj
  have : j < l.length := by simpa using (List.mem_filter.1 hj).1
  simp [this]

theorem restrict_length {α : Type} {l r : List α} {js : List ℕ} (h : r.map some = js.map fun j => l[j]?) : r.length = js.length := by
  simpa using congrArg List.length h

section

variable {K : Type} [Field K] [LinearOrder K] [IsStrictOrderedRing K]

/-- Removing casts: the six arrays are cut at the same places. -/
theorem removeOutliers_at (idx : List ℕ) (n : ℕ) (h : HistData K) (ha : HistAligned n h) (hi : ∀ i ∈ idx, i < n) :
    ∃ h', removeOutliers idx h = .ok h' ∧ HistAt h ((List.range n).filter fun i => decide (i ∉ idx)) h' := by
  unfold removeOutliers
  split_ifs with hl
  · obtain ⟨r1, e1, f1⟩ := npDelete_eq h.sal idx (by rw [ha.sal]; exact hi)
    obtain ⟨r2, e2, f2⟩ := npDelete_eq h.pres idx (by rw [ha.pres]; exact hi)
    obtain ⟨r3, e3, f3⟩ := npDelete_eq h.long idx (by rw [ha.long]; exact hi)
    obtain ⟨r4, e4, f4⟩ := npDelete_eq h.lat idx (by rw [ha.lat]; exact hi)
    obtain ⟨r5, e5, f5⟩ := npDelete_eq h.dates idx (by rw [ha.dates]; exact hi)
    obtain ⟨r6, e6, f6⟩ := npDelete_eq h.z idx (by rw [ha.z]; exact hi)
    refine ⟨⟨r1, r2, r3, r4, r5, r6⟩, ?_, ?_⟩
    · rw [e1, e2, e3, e4, e5, e6]; rfl
    · rw [ha.sal] at f1; rw [ha.pres] at f2; rw [ha.long] at f3; rw [ha.lat] at f4; rw [ha.dates] at f5; rw [ha.z] at f6
      exact ⟨f1, f2, f3, f4, f5, f6⟩
  · refine ⟨h, rfl, ?_⟩
    have hnil : idx = [] := List.length_eq_zero_iff.1 (by omega)
    subst hnil
    have hf : ((List.range n).filter fun i => decide (i ∉ ([] : List ℕ))) = List.range n := by simp
    rw [hf]
    have key : ∀ l : List K, l.length = n → l.map some = (List.range n).map fun j => l[j]? := by
      intro l hl
      subst hl
      apply List.ext_getElem?
      intro i
      by_cases hi : i < l.length <;> simp [hi]
    exact ⟨key _ ha.sal, key _ ha.pres, key _ ha.long, key _ ha.lat, key _ ha.dates, key _ ha.z⟩

theorem histAt_aligned {h h' : HistData K} {js : List ℕ} (hA : HistAt h js h') : HistAligned js.length h' :=
  ⟨restrict_length hA.sal, restrict_length hA.pres, restrict_length hA.long, restrict_length hA.lat, restrict_length hA.dates,
    restrict_length hA.z⟩

end

end Verif.Helper
