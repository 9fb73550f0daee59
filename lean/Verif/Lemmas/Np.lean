import Verif.Np
import Mathlib.Data.List.Nodup
import Mathlib.Data.List.Perm.Subperm
import Mathlib.Data.List.Dedup
import Mathlib.Order.WithBot
import Mathlib.Tactic.Ring
import Mathlib.Tactic.FieldSimp
import Mathlib.Tactic.Positivity
import Mathlib.Algebra.Order.BigOperators.Group.List

set_option linter.unusedSectionVars false

namespace Verif.Np

theorem gather_ok {α : Type} [Inhabited α] (l : List α) (idx : List ℕ) (h : ∀ i ∈ idx, i < l.length) :
    gather l idx = .ok (idx.map (fun i => l[i]!)) := by
  unfold gather
  induction idx with
  | nil => rfl
  | cons i idx ih =>
    have hi : i < l.length := h i (by simp)
    rw [List.mapM_cons, ih (fun j hj => h j (by simp [hj]))]
    have : l[i]? = some l[i] := List.getElem?_eq_getElem hi
    rw [this]
    simp only [bind, Except.bind, pure, Except.pure, List.map_cons]
    congr 2
    rw [getElem!_pos l i hi]

theorem map_getElem!_range {α : Type} [Inhabited α] (l : List α) :
    (List.range l.length).map (fun i => l[i]!) = l := by
  apply List.ext_getElem
  · simp
  · intro i h1 h2
    simp only [List.getElem_map, List.getElem_range]
    exact getElem!_pos l i h2

theorem map_getElem!_perm {α : Type} [Inhabited α] (l : List α) (σ : List ℕ)
    (h : σ.Perm (List.range l.length)) : (σ.map (fun i => l[i]!)).Perm l := by
  have := h.map (fun i => l[i]!)
  rwa [map_getElem!_range] at this

theorem argwhereFrom_mem {α : Type*} (p : α → Bool) (l : List α) (s i : ℕ) :
    i ∈ argwhereFrom p s l ↔ ∃ j a, i = s + j ∧ l[j]? = some a ∧ p a = true := by
  induction l generalizing s with
  | nil => simp [argwhereFrom]
  | cons b l ih =>
    have key : (∃ j a, i = s + j ∧ (b :: l)[j]? = some a ∧ p a = true) ↔
        ((i = s ∧ p b = true) ∨ ∃ j a, i = s + 1 + j ∧ l[j]? = some a ∧ p a = true) := by
      constructor
      · rintro ⟨j, a, rfl, h, hp⟩
        cases j with
        | zero => left; simp at h; subst h; exact ⟨rfl, hp⟩
        | succ j => right; exact ⟨j, a, by omega, by simpa using h, hp⟩
      · rintro (⟨rfl, hp⟩ | ⟨j, a, rfl, h, hp⟩)
        · exact ⟨0, b, by simp, by simp, hp⟩
        · exact ⟨j + 1, a, by omega, by simpa using h, hp⟩
    rw [key]
    unfold argwhereFrom
    split_ifs with hp
    · simp [ih, hp]
    · simp [ih, hp]

theorem argwhere_mem {α : Type*} (p : α → Bool) (l : List α) (i : ℕ) :
    i ∈ argwhere p l ↔ ∃ a, l[i]? = some a ∧ p a = true := by
  unfold argwhere
  rw [argwhereFrom_mem]
  constructor
  · rintro ⟨j, a, rfl, h, hp⟩; exact ⟨a, by simpa using h, hp⟩
  · rintro ⟨a, h, hp⟩; exact ⟨i, a, by simp, h, hp⟩

theorem argwhereFrom_ge {α : Type*} (p : α → Bool) (l : List α) (s i : ℕ) (h : i ∈ argwhereFrom p s l) :
    s ≤ i := by
  rw [argwhereFrom_mem] at h
  obtain ⟨j, a, rfl, _⟩ := h
  omega

theorem argwhereFrom_sorted {α : Type*} (p : α → Bool) (l : List α) (s : ℕ) :
    (argwhereFrom p s l).Pairwise (· < ·) := by
  induction l generalizing s with
  | nil => simp [argwhereFrom]
  | cons b l ih =>
    unfold argwhereFrom
    split_ifs
    · rw [List.pairwise_cons]
      refine ⟨fun i hi => ?_, ih (s + 1)⟩
      have := argwhereFrom_ge p l (s + 1) i hi
      omega
    · exact ih (s + 1)

theorem argwhere_sorted {α : Type*} (p : α → Bool) (l : List α) : (argwhere p l).Pairwise (· < ·) :=
  argwhereFrom_sorted p l 0

theorem argwhere_nodup {α : Type*} (p : α → Bool) (l : List α) : (argwhere p l).Nodup :=
  (argwhere_sorted p l).imp (fun h => h.ne)

theorem argwhere_lt {α : Type*} (p : α → Bool) (l : List α) (i : ℕ) (h : i ∈ argwhere p l) :
    i < l.length := by
  rw [argwhere_mem] at h
  obtain ⟨a, h, _⟩ := h
  exact (List.getElem?_eq_some_iff.1 h).1

theorem pyTake_map {α β : Type*} (f : α → β) (l : List α) (k : ℤ) :
    (pyTake l k).map f = pyTake (l.map f) k := by
  unfold pyTake; split_ifs <;> simp

theorem pyTake_nonneg {α : Type*} (l : List α) (k : ℤ) (h : 0 ≤ k) : pyTake l k = l.take k.toNat := by
  unfold pyTake; rw [if_neg (by omega)]

theorem uniqueInt_nodup (l : List ℤ) : (uniqueInt l).Nodup :=
  (List.perm_insertionSort _ _).nodup_iff.2 (List.nodup_dedup l)

theorem uniqueInt_mem (l : List ℤ) (x : ℤ) : x ∈ uniqueInt l ↔ x ∈ l := by
  unfold uniqueInt; simp

theorem uniqueInt_length_le (l : List ℤ) : (uniqueInt l).length ≤ l.length := by
  unfold uniqueInt
  rw [List.length_insertionSort]
  exact (List.dedup_sublist l).length_le

/-- Rounding never leaves the integer interval around the value. -/
theorem roundHalfEven_le {K : Type*} [Field K] [LinearOrder K] [IsStrictOrderedRing K] [FloorRing K] (x : K) (n : ℤ)
    (h : x ≤ n) : roundHalfEven x ≤ n := by
  have hf : ⌊x⌋ ≤ n := by
    have := Int.floor_le x
    have h2 : ((⌊x⌋ : ℤ) : K) ≤ n := this.trans h
    exact_mod_cast h2
  have h3 : ∀ (_ : ¬ x - ⌊x⌋ < 1 / 2), ⌊x⌋ + 1 ≤ n := by
    intro hlt
    by_contra hc
    have : ⌊x⌋ = n := by omega
    rw [this] at hlt
    apply hlt
    have : x - (n : K) ≤ 0 := by linarith
    have h2 : (0 : K) < 1 / 2 := by norm_num
    linarith
  unfold roundHalfEven
  simp only
  split_ifs with h1 h2 h4
  · exact hf
  · exact h3 h1
  · exact hf
  · exact h3 h1

theorem le_roundHalfEven {K : Type*} [Field K] [LinearOrder K] [IsStrictOrderedRing K] [FloorRing K] (x : K) (n : ℤ)
    (h : (n : K) ≤ x) : n ≤ roundHalfEven x := by
  have hf : n ≤ ⌊x⌋ := Int.le_floor.2 h
  unfold roundHalfEven
  simp only
  split_ifs <;> omega

theorem npLe_refl_or {K : Type*} [Preorder K] (a : Option K) : NpLe a a := by
  cases a <;> simp [NpLe]

/-- If a function succeeds on every element, `mapM` succeeds with the list of results. -/
theorem mapM_ok_of_map {α β γ : Type} {f : α → Except PyErr β} {l : List α} {m : List γ} {g : γ → β}
    (h : l.map f = m.map fun r => .ok (g r)) : l.mapM f = .ok (m.map g) := by
  induction l generalizing m with
  | nil =>
    cases m with
    | nil => rfl
    | cons _ _ => simp at h
  | cons a l ih =>
    cases m with
    | nil => simp at h
    | cons c m =>
      simp only [List.map_cons, List.cons.injEq] at h
      rw [List.mapM_cons, h.1, ih h.2]
      rfl

theorem argwhereFrom_length {α : Type*} (p : α → Bool) (l : List α) (s : ℕ) :
    (argwhereFrom p s l).length = l.countP p := by
  induction l generalizing s with
  | nil => simp [argwhereFrom]
  | cons a l ih =>
    unfold argwhereFrom
    split_ifs with h
    · rw [List.countP_cons_of_pos h, List.length_cons, ih]
    · rw [List.countP_cons_of_neg h, ih]

theorem argwhere_length {α : Type*} (p : α → Bool) (l : List α) : (argwhere p l).length = l.countP p :=
  argwhereFrom_length p l 0

/-- A stable sort with NaN as the greatest value is one possible `argsort`. -/
theorem isArgsort_stable {K : Type} [LinearOrder K] :
    IsArgsort (fun l : List (Option K) => stableArgsort (K := WithTop K) l) := by
  intro l
  have hperm : (stableSortPairs (K := WithTop K) l).Perm (List.zipIdx (α := WithTop K) l) :=
    List.perm_insertionSort _ _
  have hsorted : (stableSortPairs (K := WithTop K) l).Pairwise lexLe :=
    List.pairwise_insertionSort _ _
  constructor
  · have := hperm.map Prod.snd
    unfold stableArgsort
    refine this.trans (List.Perm.of_eq ?_)
    have h := List.zipIdx_map_snd 0 (l : List (WithTop K))
    exact h.trans (List.range_eq_range' (n := l.length)).symm
  · change ((stableSortPairs (K := WithTop K) l).map Prod.snd).Pairwise _
    rw [List.pairwise_map]
    refine hsorted.imp_of_mem ?_
    intro p q hp hq hpq a b ha hb
    have hp' : l[p.2]? = some p.1 := by
      have := hperm.mem_iff.1 hp
      exact List.mem_zipIdx_iff_getElem?.1 this
    have hq' : l[q.2]? = some q.1 := by
      have := hperm.mem_iff.1 hq
      exact List.mem_zipIdx_iff_getElem?.1 this
    rw [hp'] at ha
    rw [hq'] at hb
    have ha' : p.1 = a := Option.some.inj ha
    have hb' : q.1 = b := Option.some.inj hb
    have hle : p.1 ≤ q.1 := by
      rcases hpq with h | ⟨h, _⟩
      · exact h.le
      · exact h.le
    rw [ha', hb'] at hle
    cases a with
    | none =>
      cases b with
      | none => trivial
      | some y =>
        exfalso
        have : (⊤ : WithTop K) ≤ (y : WithTop K) := hle
        simp at this
    | some x =>
      cases b with
      | none => trivial
      | some y =>
        have : (x : WithTop K) ≤ (y : WithTop K) := hle
        exact WithTop.coe_le_coe.1 this

/-! ### Missing values -/

section nan
variable {K : Type} [LinearOrder K]

theorem nanArgminFrom_spec (s : ℕ) (l : List (Option K)) :
    (nanArgminFrom s l = none → ∀ a ∈ l, a = none) ∧
    (∀ i v, nanArgminFrom s l = some (i, v) → s ≤ i ∧ l[i - s]? = some (some v) ∧
      (∀ (j : ℕ) (w : K), l[j]? = some (some w) → v ≤ w) ∧
      (∀ (j : ℕ) (w : K), s + j < i → l[j]? = some (some w) → v < w)) := by
  induction l generalizing s with
  | nil => simp [nanArgminFrom]
  | cons a l ih =>
    obtain ⟨ih1, ih2⟩ := ih (s + 1)
    unfold nanArgminFrom
    cases a with
    | none =>
      refine ⟨fun h => ?_, fun i v h => ?_⟩
      · intro a ha
        rcases List.mem_cons.1 ha with rfl | ha
        · rfl
        · exact ih1 h a ha
      · obtain ⟨h1, h2, h3, h4⟩ := ih2 i v h
        have e : i - s = (i - (s + 1)) + 1 := by omega
        refine ⟨by omega, by rw [e, List.getElem?_cons_succ]; exact h2, ?_, ?_⟩
        · intro j w hw
          cases j with
          | zero => simp at hw
          | succ j => exact h3 j w (by simpa using hw)
        · intro j w hj hw
          cases j with
          | zero => simp at hw
          | succ j => exact h4 j w (by omega) (by simpa using hw)
    | some x =>
      cases hr : nanArgminFrom (s + 1) l with
      | none =>
        refine ⟨fun h => by simp at h, fun i v h => ?_⟩
        simp only [Option.some.injEq, Prod.mk.injEq] at h
        obtain ⟨rfl, rfl⟩ := h
        refine ⟨le_rfl, by simp, ?_, fun j w hj => by omega⟩
        intro j w hw
        cases j with
        | zero => simp only [List.getElem?_cons_zero, Option.some.injEq] at hw; exact hw.le
        | succ j =>
          have := ih1 hr (some w) (List.mem_of_getElem? (by simpa using hw))
          simp at this
      | some p =>
        obtain ⟨j0, y⟩ := p
        obtain ⟨h1, h2, h3, h4⟩ := ih2 j0 y hr
        refine ⟨fun h => by simp only at h; split_ifs at h, fun i v h => ?_⟩
        simp only at h
        split_ifs at h with hxy
        · simp only [Option.some.injEq, Prod.mk.injEq] at h
          obtain ⟨rfl, rfl⟩ := h
          refine ⟨le_rfl, by simp, ?_, fun j w hj => by omega⟩
          intro j w hw
          cases j with
          | zero => simp only [List.getElem?_cons_zero, Option.some.injEq] at hw; exact hw.le
          | succ j => exact hxy.trans (h3 j w (by simpa using hw))
        · simp only [Option.some.injEq, Prod.mk.injEq] at h
          obtain ⟨rfl, rfl⟩ := h
          have e : j0 - s = (j0 - (s + 1)) + 1 := by omega
          refine ⟨by omega, by rw [e, List.getElem?_cons_succ]; exact h2, ?_, ?_⟩
          · intro j w hw
            cases j with
            | zero =>
              simp only [List.getElem?_cons_zero, Option.some.injEq] at hw
              exact hw ▸ (not_le.1 hxy).le
            | succ j => exact h3 j w (by simpa using hw)
          · intro j w hj hw
            cases j with
            | zero =>
              simp only [List.getElem?_cons_zero, Option.some.injEq] at hw
              exact hw ▸ (not_le.1 hxy)
            | succ j => exact h4 j w (by omega) (by simpa using hw)

theorem nanArgmin_none {l : List (Option K)} (h : nanArgmin l = none) : ∀ a ∈ l, a = none := by
  unfold nanArgmin at h
  rw [Option.map_eq_none_iff] at h
  exact (nanArgminFrom_spec 0 l).1 h

theorem nanArgmin_some {l : List (Option K)} {i : ℕ} (h : nanArgmin l = some i) :
    ∃ v, l[i]? = some (some v) ∧ (∀ (j : ℕ) (w : K), l[j]? = some (some w) → v ≤ w) ∧
      (∀ (j : ℕ) (w : K), j < i → l[j]? = some (some w) → v < w) := by
  unfold nanArgmin at h
  rw [Option.map_eq_some_iff] at h
  obtain ⟨⟨i', v⟩, h, rfl⟩ := h
  obtain ⟨_, h2, h3, h4⟩ := (nanArgminFrom_spec 0 l).2 i' v h
  exact ⟨v, by simpa using h2, h3, fun j w hj => h4 j w (by simpa using hj)⟩

theorem nanArgmin_isSome {l : List (Option K)} {v : K} (h : some v ∈ l) : ∃ i, nanArgmin l = some i := by
  cases hr : nanArgmin l with
  | none => have := nanArgmin_none hr _ h; simp at this
  | some i => exact ⟨i, rfl⟩

theorem nanmin_some {l : List (Option K)} {m : K} (h : nanmin l = some m) : some m ∈ l ∧ ∀ v, some v ∈ l → m ≤ v := by
  unfold nanmin at h
  rw [List.min?_eq_some_iff] at h
  simpa [List.mem_filterMap] using h

theorem nanmax_some {l : List (Option K)} {m : K} (h : nanmax l = some m) : some m ∈ l ∧ ∀ v, some v ∈ l → v ≤ m := by
  unfold nanmax at h
  rw [List.max?_eq_some_iff] at h
  simpa [List.mem_filterMap] using h

theorem nanmin_none {l : List (Option K)} (h : nanmin l = none) : ∀ a ∈ l, a = none := by
  unfold nanmin at h
  rw [List.min?_eq_none_iff] at h
  intro a ha
  cases a with
  | none => rfl
  | some v =>
    have : v ∈ l.filterMap id := by simpa [List.mem_filterMap] using ha
    rw [h] at this; simp at this

theorem nanmax_none {l : List (Option K)} (h : nanmax l = none) : ∀ a ∈ l, a = none := by
  unfold nanmax at h
  rw [List.max?_eq_none_iff] at h
  intro a ha
  cases a with
  | none => rfl
  | some v =>
    have : v ∈ l.filterMap id := by simpa [List.mem_filterMap] using ha
    rw [h] at this; simp at this

end nan

theorem sum_le_card_mul {K : Type} [Field K] [LinearOrder K] [IsStrictOrderedRing K] (l : List K) (b : K)
    (h : ∀ v ∈ l, v ≤ b) : l.sum ≤ l.length * b := by
  have := List.sum_le_card_nsmul l b h
  rwa [nsmul_eq_mul] at this

theorem card_mul_le_sum {K : Type} [Field K] [LinearOrder K] [IsStrictOrderedRing K] (l : List K) (b : K)
    (h : ∀ v ∈ l, b ≤ v) : l.length * b ≤ l.sum := by
  have := List.card_nsmul_le_sum l b h
  rwa [nsmul_eq_mul] at this

/-- The mean of the non-missing values lies between any bounds of them. -/
theorem nanmean_mem {K : Type} [Field K] [LinearOrder K] [IsStrictOrderedRing K] {l : List (Option K)} {m a b : K}
    (h : nanmean l = some m) (ha : ∀ v, some v ∈ l → a ≤ v) (hb : ∀ v, some v ∈ l → v ≤ b) : a ≤ m ∧ m ≤ b := by
  unfold nanmean at h
  simp only at h
  split_ifs at h with hne
  have h' := Option.some.inj h
  have hpos : (0 : K) < ((l.filterMap id).length : K) := by
    exact_mod_cast List.length_pos_iff.2 hne
  rw [← h', le_div_iff₀ hpos, div_le_iff₀ hpos]
  constructor
  · rw [mul_comm]; exact card_mul_le_sum _ _ (fun v hv => ha v (by simpa [List.mem_filterMap] using hv))
  · rw [mul_comm]; exact sum_le_card_mul _ _ (fun v hv => hb v (by simpa [List.mem_filterMap] using hv))

theorem mapM_getElem {α β : Type} {f : α → Except PyErr β} {l : List α} {m : List β} (h : l.mapM f = .ok m) :
    m.length = l.length ∧ ∀ (i : ℕ) (a : α), l[i]? = some a → ∃ b, m[i]? = some b ∧ f a = .ok b := by
  induction l generalizing m with
  | nil =>
    have : m = [] := by
      have h' : Except.ok ([] : List β) = Except.ok m := h
      exact (Except.ok.inj h').symm
    subst this
    simp
  | cons a l ih =>
    rw [List.mapM_cons] at h
    cases hf : f a with
    | error e => rw [hf] at h; exact absurd h (by simp [bind, Except.bind])
    | ok b =>
      cases hm : l.mapM f with
      | error e => rw [hf, hm] at h; exact absurd h (by simp [bind, Except.bind])
      | ok m' =>
        rw [hf, hm] at h
        have h' := Except.ok.inj h
        subst h'
        obtain ⟨h1, h2⟩ := ih hm
        refine ⟨by simp [h1], ?_⟩
        intro i c hc
        cases i with
        | zero =>
          simp only [List.getElem?_cons_zero, Option.some.injEq] at hc
          subst hc
          exact ⟨b, by simp, hf⟩
        | succ i =>
          simp only [List.getElem?_cons_succ] at hc ⊢
          exact h2 i c hc

theorem mapM_error {α β : Type} {f : α → Except PyErr β} {l : List α} {e : PyErr} (h : l.mapM f = .error e) :
    ∃ a ∈ l, f a = .error e := by
  induction l with
  | nil => exact absurd h (by simp [pure, Except.pure])
  | cons a l ih =>
    rw [List.mapM_cons] at h
    cases hf : f a with
    | error e' =>
      rw [hf] at h
      simp only [bind, Except.bind, Except.error.injEq] at h
      exact ⟨a, by simp, by rw [hf, h]⟩
    | ok b =>
      cases hm : l.mapM f with
      | error e' =>
        rw [hf, hm] at h
        simp only [bind, Except.bind, Except.error.injEq] at h
        obtain ⟨c, hc, hfc⟩ := ih (by rw [hm, h])
        exact ⟨c, List.mem_cons_of_mem _ hc, hfc⟩
      | ok m => rw [hf, hm] at h; simp [bind, Except.bind, pure, Except.pure] at h

theorem mapM_isOk {α β : Type} {f : α → Except PyErr β} {l : List α} (h : ∀ a ∈ l, ∃ b, f a = .ok b) :
    ∃ m, l.mapM f = .ok m := by
  cases hm : l.mapM f with
  | ok m => exact ⟨m, rfl⟩
  | error e =>
    obtain ⟨a, ha, hf⟩ := mapM_error hm
    obtain ⟨b, hb⟩ := h a ha
    rw [hb] at hf; simp at hf

theorem mapM_cons_ok {α β : Type} {f : α → Except PyErr β} {a : α} {l : List α} {m : List β}
    (h : (a :: l).mapM f = .ok m) : ∃ b m', m = b :: m' ∧ f a = .ok b ∧ l.mapM f = .ok m' := by
  rw [List.mapM_cons] at h
  cases hf : f a with
  | error e => rw [hf] at h; exact absurd h (by simp [bind, Except.bind])
  | ok b =>
    cases hm : l.mapM f with
    | error e => rw [hf, hm] at h; exact absurd h (by simp [bind, Except.bind])
    | ok m' =>
      rw [hf, hm] at h
      exact ⟨b, m', (Except.ok.inj h).symm, rfl, rfl⟩

end Verif.Np
