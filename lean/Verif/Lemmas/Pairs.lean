import Verif.Lemmas.ShiftRun
import Verif.Lemmas.RegionLoop
import Verif.Lemmas.Piecewise

/-!
# Two sets of reference files, cast by cast
-/

set_option linter.unusedSectionVars false

namespace Verif.Lemmas.Pairs

open Verif.Np Verif.Helper Verif.Region Verif.Profile Verif.Level Verif.Utilities Verif.Lemmas.Shift

theorem reach_bind {α β : Type} {x : Except PyErr α} {f : α → Except PyErr β} {b : β} : (x >>= f) = .ok b ↔ ∃ a, x = .ok a ∧ f a = .ok b := by
  cases x with
  | error => exact ⟨fun h => (by cases h), fun ⟨_, h, _⟩ => (by cases h)⟩
  | ok a => exact ⟨fun h => ⟨a, rfl, h⟩, fun ⟨_, h, h'⟩ => (by cases h; exact h')⟩

/-- Related results of `get_data`. -/
def LoadPair (Q : RefCast ℝ → RefCast ℝ → Prop) (x y : Except PyErr (Option (Loaded ℝ))) : Prop :=
  ExRel (fun a b => (a = none ∧ b = none) ∨ ∃ L L', a = some L ∧ b = some L' ∧ (L.levels ≤ 1 ↔ L'.levels ≤ 1) ∧ L.scalar = L'.scalar ∧ List.Forall₂ Q L.casts L'.casts) x y

theorem forall₂_npDelete {α β : Type} {Q : α → β → Prop} {l : List α} {l' : List β} (h : List.Forall₂ Q l l') (idx : List ℕ) :
    ExRel (List.Forall₂ Q) (npDelete l idx) (npDelete l' idx) := by
  unfold npDelete
  rw [← h.length_eq]
  split
  · change List.Forall₂ Q _ _
    rw [List.forall₂_iff_get] at h
    generalize hr : List.filter _ (List.range l.length) = r
    have hlt : ∀ i ∈ r, i < l.length := fun i hi => by
      rw [← hr] at hi
      exact List.mem_range.1 (List.mem_filter.1 hi).1
    clear hr
    induction r with
    | nil => exact .nil
    | cons i r ih =>
      have hi := hlt i (by simp)
      rw [List.filterMap_cons_some (List.getElem?_eq_getElem hi), List.filterMap_cons_some (List.getElem?_eq_getElem (h.1 ▸ hi))]
      exact .cons (h.2 i hi (h.1 ▸ hi)) (ih fun j hj => hlt j (by simp [hj]))
  · rfl

theorem getData_pair (Q : RefCast ℝ → RefCast ℝ → Prop) (name : List Char) (hQ : ∀ c c', Q c c' → (name <:+: c.source ↔ name <:+: c'.source)) (disk disk' : Disk ℝ) (b : WmoBox)
    (t : ℕ) (h : ∀ n, b.number = some n → (disk t n = none ∧ disk' t n = none) ∨
      ∃ F F', disk t n = some F ∧ disk' t n = some F' ∧ (F.levels = F'.levels ∨ 2 ≤ F.levels ∧ 2 ≤ F'.levels) ∧ List.Forall₂ Q F.casts F'.casts) :
    LoadPair Q (getData disk name b t) (getData disk' name b t) := by
  unfold getData
  cases hn : b.number with
  | none => rfl
  | some n =>
    dsimp only
    by_cases hf : b.flag t = 1
    · rw [if_pos hf, if_pos hf]
      rcases h n hn with ⟨h1, h2⟩ | ⟨F, F', h1, h2, hl, hc⟩
      · rw [h1, h2]; rfl
      · rw [h1, h2]
        dsimp only
        have hlen := hc.length_eq
        have hlv : F.levels ≤ 1 ↔ F'.levels ≤ 1 := by omega
        by_cases t1 : t = 1
        · rw [if_pos t1, if_pos t1]
          unfold readCtd
          rw [← hlen]
          exact Or.inr ⟨_, _, rfl, rfl, hlv, rfl, hc⟩
        rw [if_neg t1, if_neg t1]
        by_cases t2 : t = 2
        · rw [if_pos t2, if_pos t2]
          unfold readBottle
          rw [← hlen]
          by_cases h1 : F.casts.length = 1
          · rw [if_pos h1, if_pos h1]; rfl
          rw [if_neg h1, if_neg h1]
          have h2 : F.casts.length = F.casts.length * F.levels ↔ F.casts.length = F.casts.length * F'.levels := by
            rcases hl with hl | ⟨l1, l2⟩
            · rw [hl]
            · rcases Nat.eq_zero_or_pos F.casts.length with h0 | h0
              · rw [h0]; simp
              · constructor
                · intro h
                  have := Nat.mul_le_mul_left F.casts.length l1
                  omega
                · intro h
                  have := Nat.mul_le_mul_left F.casts.length l2
                  omega
          by_cases h3 : F.casts.length = F.casts.length * F.levels
          · rw [if_pos h3, if_pos (h2.1 h3)]; rfl
          rw [if_neg h3, if_neg (fun h => h3 (h2.2 h))]
          exact Or.inr ⟨_, _, rfl, rfl, hlv, rfl, hc⟩
        rw [if_neg t2, if_neg t2]
        unfold readArgo
        rw [← hlen]
        by_cases h1 : F.casts.length = 1
        · rw [if_pos h1, if_pos h1]; rfl
        rw [if_neg h1, if_neg h1]
        by_cases h3 : F.levels ≤ 1
        · rw [if_pos h3, if_pos (hlv.1 h3)]; rfl
        rw [if_neg h3, if_neg (fun h => h3 (hlv.2 h))]
        have ha : argwhere (hasName name) F'.casts = argwhere (hasName name) F.casts :=
          argwhereFrom_rel hc (fun a b hab => by unfold hasName; exact decide_eq_decide.2 (hQ a b hab).symm) 0
        rw [ha]
        dsimp only
        have hd := forall₂_npDelete hc (argwhere (hasName name) F.casts)
        revert hd
        cases npDelete F.casts (argwhere (hasName name) F.casts) <;> cases npDelete F'.casts (argwhere (hasName name) F.casts)
        · exact fun h => h
        · exact fun h => h.elim
        · exact fun h => h.elim
        · exact fun hd => Or.inr ⟨_, _, rfl, rfl, hlv, rfl, hd⟩
    · rw [if_neg hf, if_neg hf]
      exact Or.inl ⟨rfl, rfl⟩

theorem castsOf_pair {Q : RefCast ℝ → RefCast ℝ → Prop} {x y : Except PyErr (Option (Loaded ℝ))} (h : LoadPair Q x y) :
    List.Forall₂ Q (Region.castsOf x) (Region.castsOf y) := by
  unfold LoadPair at h
  cases x <;> cases y
  · exact .nil
  · exact h.elim
  · exact h.elim
  · rcases h with ⟨rfl, rfl⟩ | ⟨L, L', rfl, rfl, -, hs, hc⟩
    · exact .nil
    · unfold Region.castsOf
      dsimp only
      rw [hs]
      split
      · exact .nil
      · exact hc

theorem flat_pair {Q : RefCast ℝ → RefCast ℝ → Prop} {l l' : List (Except PyErr (Option (Loaded ℝ)))} (h : List.Forall₂ (LoadPair Q) l l') :
    List.Forall₂ Q (l.flatMap Region.castsOf) (l'.flatMap Region.castsOf) := by
  induction h with
  | nil => exact .nil
  | cons hab _ ih =>
    rw [List.flatMap_cons, List.flatMap_cons]
    exact List.rel_append (castsOf_pair hab) ih

theorem loadCast_levels (index : List ℕ) (limit : Option ℝ) (lv lv' : ℕ) (h : lv ≤ 1 ↔ lv' ≤ 1) (st : RegionState ℝ) (c : RefCast ℝ) (k : ℕ) :
    loadCast index limit lv st c k = loadCast index limit lv' st c k := by
  unfold loadCast
  by_cases h1 : lv ≤ 1
  · rw [if_pos h1, if_pos (h.1 h1)]
  · rw [if_neg h1, if_neg (fun h' => h1 (h.2 h'))]

theorem loadCasts_levels (index : List ℕ) (limit : Option ℝ) (lv lv' : ℕ) (h : lv ≤ 1 ↔ lv' ≤ 1) (st : RegionState ℝ) (l : List (RefCast ℝ)) (k : ℕ) :
    loadCasts index limit lv st l k = loadCasts index limit lv' st l k := by
  induction l generalizing st k with
  | nil => rfl
  | cons c l ih =>
    unfold loadCasts
    rw [loadCast_levels index limit lv lv' h]
    cases loadCast index limit lv' st c k with
    | error => rfl
    | ok st' => exact ih st' (k + 1)

theorem loadCast_start {index : List ℕ} {limit : Option ℝ} {levels : ℕ} {st st' : RegionState ℝ} {c : RefCast ℝ} {k : ℕ}
    (h : loadCast index limit levels st c k = .ok st') : st'.start = st.start := by
  unfold loadCast at h
  split_ifs at h
  · obtain ⟨a, -, h⟩ := reach_bind.1 h
    obtain ⟨b, -, h⟩ := reach_bind.1 h
    obtain ⟨d, -, h⟩ := reach_bind.1 h
    obtain ⟨e, -, h⟩ := reach_bind.1 h
    obtain rfl := Except.ok.inj h
    rfl
  · obtain rfl := Except.ok.inj h
    rfl

theorem loadCasts_start (index : List ℕ) (limit : Option ℝ) (levels : ℕ) (l : List (RefCast ℝ)) (k : ℕ) (st : RegionState ℝ) :
    (loadCasts index limit levels st l k).start = st.start := by
  induction l generalizing k st with
  | nil => rfl
  | cons c l ih =>
    unfold loadCasts
    cases h : loadCast index limit levels st c k with
    | error => rfl
    | ok st' =>
      dsimp only
      rw [ih, loadCast_start h]

theorem regionFold_rel {Q : RefCast ℝ → RefCast ℝ → Prop} {S : RegionState ℝ → RegionState ℝ → Prop} (index : List ℕ) (limit : Option ℝ)
    (hstart : ∀ st st' n, S st st' → S { st with start := n } { st' with start := n }) (heq : ∀ st st', S st st' → st.start = st'.start)
    (hc : ∀ lv st st' c c' k, S st st' → Q c c' → ExRel S (loadCast index limit lv st c k) (loadCast index limit lv st' c' k))
    {l l' : List (Except PyErr (Option (Loaded ℝ)))} (h : List.Forall₂ (LoadPair Q) l l') (st st' : RegionState ℝ) (hs : S st st') :
    S (l.foldl (regionStep index limit) st) (l'.foldl (regionStep index limit) st') := by
  have hcasts : ∀ lv (a b : List (RefCast ℝ)), List.Forall₂ Q a b → ∀ st st' k, S st st' → S (loadCasts index limit lv st a k) (loadCasts index limit lv st' b k) := by
    intro lv a b hab
    induction hab with
    | nil => exact fun _ _ _ h => h
    | @cons c c' a b hcc _ ih =>
      intro st st' k hs
      have := hc lv st st' c c' k hs hcc
      unfold loadCasts
      revert this
      cases loadCast index limit lv st c k <;> cases loadCast index limit lv st' c' k
      · exact fun _ => hs
      · exact fun h => h.elim
      · exact fun h => h.elim
      · exact fun h => ih _ _ _ h
  induction h generalizing st st' with
  | nil => exact hs
  | @cons x y l l' hxy _ ih =>
    rw [List.foldl_cons, List.foldl_cons]
    refine ih _ _ ?_
    unfold LoadPair at hxy
    cases x <;> cases y
    · exact hs
    · exact hxy.elim
    · exact hxy.elim
    · rcases hxy with ⟨rfl, rfl⟩ | ⟨L, L', rfl, rfl, hv, hsc, hcs⟩
      · exact hs
      · unfold regionStep
        dsimp only
        rw [← hsc]
        cases L.scalar with
        | true => exact hs
        | false =>
          simp only [Bool.false_eq_true, if_false]
          rw [loadCasts_levels index limit L'.levels L.levels hv.symm, ← heq st st' hs, ← hcs.length_eq]
          exact hcasts _ _ _ hcs _ _ _ (hstart _ _ _ hs)

end Verif.Lemmas.Pairs
