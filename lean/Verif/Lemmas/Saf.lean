import Verif.Spec.Saf
import Verif.Lemmas.Helper
import Verif.Lemmas.Region
import Mathlib.Tactic.Linarith

/-!
# Lemmas about the Subantarctic Front constraint
-/

set_option linter.unusedSectionVars false

namespace Verif.Lemmas.Saf

open Verif.Np Verif.Helper Verif.Saf Verif.Spec.Saf Verif.Region

variable {K : Type} [Field K] [LinearOrder K] [IsStrictOrderedRing K]

theorem range_mapM_ok {β : Type} (n : ℕ) (f : ℕ → Except PyErr β) (g : ℕ → β) (h : ∀ i < n, f i = .ok (g i)) :
    (List.range n).mapM f = .ok ((List.range n).map g) := by
  have : ∀ l : List ℕ, (∀ i ∈ l, f i = .ok (g i)) → l.mapM f = .ok (l.map g) := by
    intro l hl
    induction l with
    | nil => rfl
    | cons a l ih =>
      rw [List.mapM_cons, hl a (by simp), ih (fun i hi => hl i (by simp [hi]))]
      rfl
  exact this _ (fun i hi => h i (List.mem_range.1 hi))

theorem ties_ascending (l : List K) (h : l.Pairwise (· < ·)) : ties l = [] := by
  unfold ties
  rw [List.eq_nil_iff_forall_not_mem]
  intro i hi
  rw [argwhere_mem] at hi
  obtain ⟨⟨a, b⟩, hab, hp⟩ := hi
  rw [List.getElem?_zip_eq_some] at hab
  obtain ⟨ha, hb⟩ := hab
  rw [List.getElem?_tail] at hb
  obtain ⟨hi1, ha⟩ := List.getElem?_eq_some_iff.1 ha
  obtain ⟨hi2, hb⟩ := List.getElem?_eq_some_iff.1 hb
  have := List.pairwise_iff_getElem.1 h i (i + 1) hi1 hi2 (by omega)
  simp only [decide_eq_true_eq] at hp
  rw [ha, hb] at this
  linarith

theorem ties_neighbours (l pre post : List K) (a : K) (h : l = pre ++ a :: a :: post) : (ties l).length > 0 := by
  apply List.length_pos_of_mem (a := pre.length)
  unfold ties
  rw [argwhere_mem]
  refine ⟨(a, a), ?_, by simp⟩
  rw [List.getElem?_zip_eq_some, List.getElem?_tail, h]
  constructor <;> simp [List.getElem?_append_right]

theorem classOf_side (T : K) : classOf (some T) = sideOf T := rfl

theorem around_iff (l : List (K × K)) :
    around300 (l.map (·.1)) = true ↔ (∃ q ∈ l, q.1 < 300) ∧ ∃ q ∈ l, 300 < q.1 := by
  unfold around300
  simp only [Bool.and_eq_true, List.any_eq_true, List.mem_map, decide_eq_true_eq]
  constructor
  · rintro ⟨⟨p, ⟨q, hq, rfl⟩, h1⟩, p', ⟨q', hq', rfl⟩, h2⟩
    exact ⟨⟨q, hq, h1⟩, q', hq', h2⟩
  · rintro ⟨⟨q, hq, h1⟩, q', hq', h2⟩
    exact ⟨⟨_, ⟨q, hq, rfl⟩, h1⟩, _, ⟨q', hq', rfl⟩, h2⟩

theorem neighbours_map {α β : Type} (f : α → β) (l : List α) (a b : α) (h : Neighbours l a b) : Neighbours (l.map f) (f a) (f b) := by
  obtain ⟨pre, post, rfl⟩ := h
  exact ⟨pre.map f, post.map f, by simp⟩

/-- An ascending profile that reaches above and below 300 dbar has a temperature at 300 dbar. -/
theorem exists_temperature (l : List (K × K)) (ha : Ascending l) (h1 : ∃ q ∈ l, q.1 < 300) (h2 : ∃ q ∈ l, 300 < q.1) :
    ∃ T, TemperatureAt300 l T := by
  induction l with
  | nil => obtain ⟨q, hq, _⟩ := h1; simp at hq
  | cons a l ih =>
    unfold Ascending at ha
    rw [List.map_cons, List.pairwise_cons] at ha
    by_cases h : ∃ q ∈ l, q.1 < 300
    · have h2' : ∃ q ∈ l, 300 < q.1 := by
        obtain ⟨q, hq, hq'⟩ := h2
        rcases List.mem_cons.1 hq with rfl | hq
        · obtain ⟨r, hr, hr'⟩ := h
          have := ha.1 r.1 (List.mem_map.2 ⟨r, hr, rfl⟩)
          exact ⟨r, hr, by linarith⟩
        · exact ⟨q, hq, hq'⟩
      obtain ⟨T, p, t, p', t', ⟨pre, post, hl⟩, x⟩ := ih ha.2 h h2'
      exact ⟨T, p, t, p', t', ⟨a :: pre, post, by rw [hl]; rfl⟩, x⟩
    · push Not at h
      have ha3 : a.1 < 300 := by
        obtain ⟨q, hq, hq'⟩ := h1
        rcases List.mem_cons.1 hq with rfl | hq
        · exact hq'
        · exact absurd (h q hq) (not_le.2 hq')
      cases l with
      | nil =>
        obtain ⟨q, hq, hq'⟩ := h2
        simp only [List.mem_singleton] at hq
        subst hq
        linarith
      | cons b l =>
        exact ⟨_, a.1, a.2, b.1, b.2, ⟨[], l, rfl⟩, le_of_lt ha3, h b (by simp), rfl⟩

theorem interp_at_300 (interp : Interp K) (hI : IsInterp interp) (l : List (K × K)) (ha : Ascending l) (T : K)
    (hT : TemperatureAt300 l T) : interp 300 (l.map (·.1)) (l.map fun q => some q.2) = some T := by
  obtain ⟨p, t, p', t', hn, hp, hp', rfl⟩ := hT
  have := hI.inside (l.map fun q => (q.1, some q.2)) p t p' t' 300 (by simpa [List.map_map, Ascending, Function.comp_def] using ha)
    (neighbours_map _ _ _ _ hn) hp hp'
  simpa [List.map_map, Function.comp_def] using this

theorem side_exists (l : List (K × K)) (ha : Ascending l) : ∃ k, SideIs l k := by
  by_cases h : Crosses300 l
  · obtain ⟨T, hT⟩ := exists_temperature l ha h.2.1 h.2.2
    exact ⟨sideOf T, .inl ⟨h, T, hT, rfl⟩⟩
  · exact ⟨0, .inr ⟨h, rfl⟩⟩

/-- The known entries of a list, by position. -/
theorem range_known {α : Type} (l : List (Option α)) :
    ((List.range l.length).filter fun (i : ℕ) => ((l[i]?).join).isSome).filterMap (fun (i : ℕ) => (l[i]?).join) = l.filterMap id := by
  induction l using List.reverseRecOn with
  | nil => rfl
  | append_singleton l a ih =>
    rw [List.length_append, List.length_singleton, List.range_succ, List.filter_append, List.filterMap_append, List.filterMap_append,
      ← ih]
    congr 1
    · rw [List.filter_congr (q := fun (i : ℕ) => ((l[i]?).join).isSome)]
      · apply List.filterMap_congr
        intro i hi
        have : i < l.length := List.mem_range.1 (List.mem_filter.1 hi).1
        rw [List.getElem?_append_left this]
      · intro i hi
        rw [List.getElem?_append_left (List.mem_range.1 hi)]
    · cases a <;> simp

theorem dropLast_get {α : Type} (l : List α) (i : ℕ) (h : i < l.length - 1) : l.dropLast[i]? = l[i]? := by
  rw [List.getElem?_dropLast]; simp [h]

/-- The rows of a synchronised ascending cast that are used: all known ones except the last row. -/
theorem castOk_eq (rows : List (Option (Row K))) (ha : Ascending (profile rows)) :
    castOk (rows.map fun r => r.map (·.pres)) (rows.map fun r => r.map (·.sal)) (rows.map fun r => r.map (·.ptmp)) =
      (List.range rows.dropLast.length).filter fun (i : ℕ) => ((rows.dropLast[i]?).join).isSome := by
  unfold castOk
  rw [List.length_map, List.length_dropLast]
  apply List.filter_congr
  intro i hi
  have hi := List.mem_range.1 hi
  rw [dropLast_get _ _ hi]
  simp only [List.getElem?_map]
  have h1 : i < rows.length := by omega
  have h2 : i + 1 < rows.length := by omega
  rw [List.getElem?_eq_getElem h1, List.getElem?_eq_getElem h2]
  cases hr : rows[i] with
  | none => simp
  | some a =>
    cases hb : rows[i + 1] with
    | none => simp
    | some b =>
      have : a.pres < b.pres := by
        have hsplit : rows = rows.take i ++ some a :: some b :: rows.drop (i + 2) := by
          rw [← hr, ← hb]
          conv_lhs => rw [← List.take_append_drop i rows]
          rw [List.drop_eq_getElem_cons h1, List.drop_eq_getElem_cons h2]
        unfold Ascending profile at ha
        rw [hsplit] at ha
        simp only [List.filterMap_append, List.map_append, List.filterMap_cons, Option.map_some, List.map_cons] at ha
        have := (List.pairwise_append.1 ha).2.1
        exact (List.pairwise_cons.1 this).1 _ (by simp)
      simp [sub_eq_zero, this.ne']

theorem known_map {α β : Type} (l : List (Option α)) (g : α → β) (idx : List ℕ) :
    idx.filterMap (fun (i : ℕ) => ((l.map fun r => r.map g)[i]?).join) = (idx.filterMap fun (i : ℕ) => (l[i]?).join).map g := by
  rw [List.map_filterMap]
  congr 1
  funext i
  rw [List.getElem?_map]
  cases l[i]? with
  | none => rfl
  | some o => rfl

/-- The class of a synchronised ascending cast is the side of its profile without the last row. -/
theorem castClass_side (interp : Interp K) (hI : IsInterp interp) (rows : List (Option (Row K))) (ha : Ascending (profile rows)) (k : ℤ)
    (hk : SideIs (profile rows.dropLast) k) :
    castClass interp (rows.map fun r => r.map (·.pres)) (rows.map fun r => r.map (·.sal)) (rows.map fun r => r.map (·.ptmp))
      (rows.map fun r => r.map (·.tmp)) = .ok k := by
  set used := rows.dropLast.filterMap id with hused
  set isok := (List.range rows.dropLast.length).filter fun (i : ℕ) => ((rows.dropLast[i]?).join).isSome with hisok
  have hidx : ∀ i ∈ isok, i < rows.length - 1 := by
    intro i hi
    have := List.mem_range.1 (List.mem_filter.1 hi).1
    rwa [List.length_dropLast] at this
  have hrows : isok.filterMap (fun (i : ℕ) => (rows[i]?).join) = used := by
    rw [hused, ← range_known]
    apply List.filterMap_congr
    intro i hi
    rw [dropLast_get _ _ (hidx i hi)]
  have hprof : profile rows.dropLast = used.map fun r => (r.pres, r.tmp) := by
    rw [hused]
    unfold profile
    rw [List.map_filterMap]
    rfl
  have hp : gatherKnown (rows.map fun r => r.map (·.pres)) isok = (profile rows.dropLast).map (·.1) := by
    unfold gatherKnown
    rw [known_map, hrows, hprof, List.map_map]
    rfl
  have ht : isok.map (fun (i : ℕ) => ((rows.map fun r => r.map (·.tmp))[i]?).join) = (profile rows.dropLast).map fun q => some q.2 := by
    rw [hprof, List.map_map, ← hrows, List.map_filterMap]
    have : ∀ i ∈ isok, ∃ r, (rows[i]?).join = some r := by
      intro i hi
      have h2 := (List.mem_filter.1 hi).2
      rw [dropLast_get _ _ (hidx i hi)] at h2
      exact Option.isSome_iff_exists.1 h2
    clear_value isok
    clear hisok hidx hrows hp hprof
    induction isok with
    | nil => rfl
    | cons i l ih =>
      obtain ⟨r, hr⟩ := this i (by simp)
      rw [List.map_cons, ih (fun j hj => this j (by simp [hj])), List.filterMap_cons, hr]
      simp only [Option.map_some, Function.comp_apply]
      congr 1
      rw [List.getElem?_map]
      cases h : rows[i]? with
      | none => rw [h] at hr; simp at hr
      | some o => rw [h] at hr; simp at hr; subst hr; rfl
  have hasc : Ascending (profile rows.dropLast) := by
    unfold Ascending at ha ⊢
    refine List.Pairwise.sublist ?_ ha
    apply List.Sublist.map
    unfold profile
    exact List.Sublist.filterMap _ (List.dropLast_sublist _)
  have hlen : isok.length = (profile rows.dropLast).length := by
    have := congrArg List.length ht
    simpa using this
  unfold castClass
  rw [castOk_eq _ ha]
  simp only [← hisok, hp, ht, ties_ascending _ hasc]
  have hiff : ((True ∨ ([] : List ℕ) = [0]) ∧ isok.length > 2 ∧ around300 ((profile rows.dropLast).map (·.1)) = true) ↔
      Crosses300 (profile rows.dropLast) := by
    rw [around_iff, hlen]
    unfold Crosses300
    constructor
    · rintro ⟨_, h1, h2⟩; exact ⟨h1, h2⟩
    · rintro ⟨h1, h2⟩; exact ⟨.inl trivial, h1, h2⟩
  rcases hk with ⟨hc, T, hT, rfl⟩ | ⟨hc, rfl⟩
  · rw [if_pos (hiff.2 hc), interp_at_300 interp hI _ hasc T hT, classOf_side]
  · rw [if_neg (fun h => hc (hiff.1 h))]

end Verif.Lemmas.Saf
