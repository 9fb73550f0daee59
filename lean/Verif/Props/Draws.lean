import Verif.Spec.Draws
import Verif.Props.Besthist
import Verif.Lemmas.Piecewise

/-!
# C177: which casts the random numbers choose
-/

set_option linter.unusedSectionVars false

namespace Verif.Props

open Verif.Np Verif.Spec Verif.Finders

theorem roundHalfEven_eq (x : ℝ) (j : ℤ) : roundHalfEven x = j ↔ |x - j| < 1 / 2 ∨ (|x - j| = 1 / 2 ∧ Even j) := by
  have h1 := Int.floor_le x
  have h2 := Int.lt_floor_add_one x
  obtain ⟨f, hf⟩ : ∃ f, f = ⌊x⌋ := ⟨_, rfl⟩
  unfold roundHalfEven
  simp only
  rw [← hf] at h1 h2 ⊢
  have big : j ≠ f → j ≠ f + 1 → ¬ (|x - j| < 1 / 2 ∨ (|x - j| = 1 / 2 ∧ Even j)) := by
    intro n1 n2 h
    have hle : |x - j| ≤ 1 / 2 := by rcases h with h | ⟨h, -⟩ <;> linarith
    obtain ⟨a, b⟩ := abs_le.1 hle
    rcases lt_or_gt_of_ne n1 with h | h
    · have : (j : ℝ) + 1 ≤ f := by exact_mod_cast h
      linarith
    · have : f + 2 ≤ j := by omega
      have : (f : ℝ) + 2 ≤ j := by exact_mod_cast this
      linarith
  have low : j = f → |x - j| = x - f := by rintro rfl; exact abs_of_nonneg (by linarith)
  have up : j = f + 1 → |x - j| = f + 1 - x := by
    rintro rfl
    push_cast
    rw [abs_of_neg (by linarith)]
    ring
  have par : Even (f + 1) ↔ ¬ Even f := Int.even_add_one
  have ev : f % 2 = 0 ↔ Even f := Int.even_iff.symm
  by_cases e1 : j = f
  · rw [low e1]
    subst e1
    split_ifs with a b c
    · simp only [true_iff]
      exact .inl a
    · refine ⟨fun h => by omega, ?_⟩
      rintro (h | ⟨h, -⟩) <;> linarith
    · simp only [true_iff]
      exact .inr ⟨by linarith, ev.1 c⟩
    · refine ⟨fun h => by omega, ?_⟩
      rintro (h | ⟨-, h⟩)
      · exact absurd h a
      · exact absurd (ev.2 h) c
  · by_cases e2 : j = f + 1
    · rw [up e2]
      subst e2
      split_ifs with a b c
      · refine ⟨fun h => by omega, ?_⟩
        rintro (h | ⟨h, -⟩) <;> linarith
      · simp only [true_iff]
        exact .inl (by linarith)
      · refine ⟨fun h => by omega, ?_⟩
        rintro (h | ⟨-, h⟩)
        · exact absurd h (by linarith)
        · exact absurd (ev.1 c) (par.1 h)
      · simp only [true_iff]
        exact .inr ⟨by linarith, par.2 fun h => c (ev.2 h)⟩
    · refine iff_of_false ?_ (big e1 e2)
      split_ifs <;> omega

/-- The position that a draw gives is the one it picks. -/
theorem mem_indexRand (n : ℕ) (us : List ℝ) (hu : ∀ u ∈ us, 0 ≤ u) (j : ℕ) : j ∈ indexRand n us ↔ ∃ u ∈ us, Picks n u j := by
  unfold indexRand
  simp only [List.mem_map, uniqueInt_mem]
  constructor
  · rintro ⟨_, ⟨u, hm, rfl⟩, h⟩
    refine ⟨u, hm, ?_⟩
    obtain ⟨r, hr⟩ : ∃ r, r = roundHalfEven (u * (n : ℝ) - 1) := ⟨_, rfl⟩
    rw [← hr] at h
    have hlow : (-1 : ℤ) ≤ r := by
      rw [hr]
      apply le_roundHalfEven
      push_cast
      have : 0 ≤ u * (n : ℝ) := mul_nonneg (hu u hm) (by positivity)
      linarith
    split_ifs at h with h1
    · rw [h1] at hr
      have := (roundHalfEven_eq _ _).1 hr.symm
      refine .inr (.inr ⟨by simpa using h.symm, ?_⟩)
      rcases this with h | ⟨-, h⟩
      · push_cast at h
        have := (abs_lt.1 h).2
        linarith
      · exact absurd h (by decide)
    · have hj : r = j := by omega
      rw [hj] at hr
      rcases (roundHalfEven_eq _ _).1 hr.symm with h | ⟨h, h'⟩
      · exact .inl (by simpa using h)
      · exact .inr (.inl ⟨by simpa using h, by exact_mod_cast h'⟩)
  · rintro ⟨u, hm, h⟩
    refine ⟨_, ⟨u, hm, rfl⟩, ?_⟩
    rcases h with h | ⟨h, h'⟩ | ⟨rfl, h⟩
    · rw [(roundHalfEven_eq (u * (n : ℝ) - 1) (j : ℤ)).2 (.inl (by simpa using h)), if_neg (by omega)]
      simp
    · rw [(roundHalfEven_eq (u * (n : ℝ) - 1) (j : ℤ)).2 (.inr ⟨by simpa using h, by exact_mod_cast h'⟩), if_neg (by omega)]
      simp
    · have : 0 ≤ u * (n : ℝ) := mul_nonneg (hu u hm) (by positivity)
      rw [(roundHalfEven_eq (u * (n : ℝ) - 1) (-1)).2 (.inl (by push_cast; rw [abs_lt]; constructor <;> linarith)), if_pos rfl]
      rfl

theorem argwhereFrom_nth {α : Type} (p : α → Bool) (l : List α) (s j i : ℕ) :
    (argwhereFrom p s l)[j]? = some i ↔ ∃ k, i = s + k ∧ (∃ c, l[k]? = some c ∧ p c = true) ∧ (l.take k).countP p = j := by
  induction l generalizing s j with
  | nil => simp [argwhereFrom]
  | cons a l ih =>
    by_cases ha : p a = true
    · simp only [argwhereFrom, ha, if_true]
      cases j with
      | zero =>
        constructor
        · intro h
          exact ⟨0, by simpa using h.symm, ⟨a, rfl, ha⟩, rfl⟩
        · rintro ⟨k, rfl, -, h2⟩
          cases k with
          | zero => rfl
          | succ k => simp [ha] at h2
      | succ j =>
        rw [List.getElem?_cons_succ, ih]
        constructor
        · rintro ⟨k, rfl, h1, h2⟩
          exact ⟨k + 1, by omega, by simpa using h1, by simp [ha, h2]⟩
        · rintro ⟨k, rfl, h1, h2⟩
          cases k with
          | zero => simp at h2
          | succ k => exact ⟨k, by omega, by simpa using h1, by simpa [ha] using h2⟩
    · rw [argwhereFrom, if_neg ha, ih]
      constructor
      · rintro ⟨k, rfl, h1, h2⟩
        exact ⟨k + 1, by omega, by simpa using h1, by simp [ha, h2]⟩
      · rintro ⟨k, rfl, h1, h2⟩
        cases k with
        | zero =>
          obtain ⟨c, hc, hp⟩ := h1
          obtain rfl := Option.some.inj hc
          exact absurd hp ha
        | succ k => exact ⟨k, by omega, by simpa using h1, by simpa [ha] using h2⟩

theorem indexEllipse_nth (A : BesthistArgs) (casts : List Cast) (j i : ℕ) : (indexEllipse A casts)[j]? = some i ↔ NthInside A casts j i := by
  classical
  unfold indexEllipse argwhere NthInside numInside
  rw [argwhereFrom_nth]
  have e : (fun c => decide (InEllipse A c)) = inside A := by
    funext c
    rw [Bool.eq_iff_iff, decide_eq_true_iff, inside_iff_inEllipse]
  constructor
  · rintro ⟨k, rfl, ⟨c, h1, h2⟩, h3⟩
    rw [Nat.zero_add]
    refine ⟨⟨c, h1, (inside_iff_inEllipse A c).1 h2⟩, ?_⟩
    rw [← h3, ← e]
  · rintro ⟨⟨c, h1, h2⟩, h3⟩
    refine ⟨i, by omega, ⟨c, h1, (inside_iff_inEllipse A c).2 h2⟩, ?_⟩
    rw [← h3, ← e]

theorem selectBest_rand (A : BesthistArgs) (argsort : List (Option ℝ) → List ℕ) (hist : List Cast) (idx : List ℕ) (us : List ℝ) (out : List ℕ)
    (h : selectBest A argsort hist idx us = .ok out) : ∃ picked rest, gather idx (indexRand idx.length us) = .ok picked ∧ out = picked ++ rest := by
  have peel : ∀ {α β : Type} {x : Except PyErr α} {f : α → Except PyErr β} {b : β}, x >>= f = .ok b → ∃ a, x = .ok a ∧ f a = .ok b := by
    intro α β x f b hb
    cases x with
    | error e => exact absurd hb (by simp [bind, Except.bind])
    | ok a => exact ⟨a, rfl, hb⟩
  unfold selectBest at h
  obtain ⟨_, -, h⟩ := peel h
  obtain ⟨_, -, h⟩ := peel h
  obtain ⟨_, -, h⟩ := peel h
  obtain ⟨_, -, h⟩ := peel h
  obtain ⟨_, -, h⟩ := peel h
  obtain ⟨picked, hp, h⟩ := peel h
  obtain ⟨_, -, h⟩ := peel h
  obtain ⟨large, -, h⟩ := peel h
  obtain ⟨_, -, h⟩ := peel h
  obtain ⟨_, -, h⟩ := peel h
  obtain ⟨_, -, h⟩ := peel h
  obtain ⟨small, -, h⟩ := peel h
  obtain ⟨g, hg, hp⟩ := peel hp
  refine ⟨picked, large ++ small, ?_, ?_⟩
  · unfold concat1 at hp
    split_ifs at hp
    rw [hg, hp]
  · rw [← List.append_assoc]
    exact (Except.ok.inj h).symm

theorem indexRand_sorted (n : ℕ) (us : List ℝ) (hn : 0 < n) (hu : ∀ u ∈ us, 0 ≤ u ∧ u < 1) : (indexRand n us).Pairwise (· < ·) := by
  have h1 : (indexRand n us).Pairwise (· ≤ ·) := by
    unfold indexRand uniqueInt
    refine List.Pairwise.map _ (fun a b h => Int.toNat_le_toNat h) (List.pairwise_insertionSort _ _)
  have h2 := (indexRand_spec n us hn hu).1
  exact (h1.and h2).imp fun h => lt_of_le_of_ne h.1 h.2

/-- C177: with more casts in the ellipse than may be used, the casts returned first are exactly those that the draws pick, in the order of the files. -/
theorem draws_pick (A : BesthistArgs) (argsort : List (Option ℝ) → List ℕ) (rand : ℕ → ℕ → List ℝ) (hrand : ValidRand rand) (casts : List Cast)
    (hm : A.maxCasts < numInside A casts) (out : List ℕ) (h : findBesthist A argsort rand casts = .ok out) :
    ∃ picked rest, out = picked ++ rest ∧ picked.Pairwise (· < ·) ∧
      ∀ i, i ∈ picked ↔ ∃ u ∈ rand (numInside A casts) ((A.maxCasts + 2) / 3), ∃ j, Picks (numInside A casts) u j ∧ NthInside A casts j i := by
  have hz : A.mapPvUse = 1 → ∀ c ∈ casts, c.z ≠ some 0 := by
    intro hpv c hc hz
    rw [besthist_zero_depth_fails A argsort rand casts hpv c hc hz] at h
    exact absurd h (by simp)
  rw [findBesthist_many A argsort rand casts hz hm] at h
  rw [numInside_eq] at hm ⊢
  obtain ⟨picked, rest, h1, h2⟩ := selectBest_rand _ _ _ _ _ _ h
  have hu := (hrand (indexEllipse A casts).length ((A.maxCasts + 2) / 3)).2
  have hs := indexRand_sorted (indexEllipse A casts).length _ (by omega) hu
  have hlt := (indexRand_spec (indexEllipse A casts).length _ (by omega) hu).2.1
  rw [gather_ok _ _ hlt] at h1
  obtain rfl := Except.ok.inj h1
  refine ⟨_, rest, h2, ?_, ?_⟩
  · rw [List.pairwise_map]
    refine hs.imp_of_mem fun {a b} ha hb hab => ?_
    rw [getElem!_pos _ a (hlt a ha), getElem!_pos _ b (hlt b hb)]
    exact List.pairwise_iff_getElem.1 (argwhere_sorted _ _) a b (hlt a ha) (hlt b hb) hab
  · intro i
    simp only [List.mem_map, mem_indexRand _ _ (fun u hm => (hu u hm).1), ← indexEllipse_nth]
    constructor
    · rintro ⟨j, ⟨u, hu', hp⟩, hj⟩
      have := hlt j ((mem_indexRand _ _ (fun u hm => (hu u hm).1) j).2 ⟨u, hu', hp⟩)
      exact ⟨u, hu', j, hp, by rw [← hj, getElem!_pos _ j this]; exact List.getElem?_eq_getElem this⟩
    · rintro ⟨u, hu', j, hp, hj⟩
      refine ⟨j, ⟨u, hu', hp⟩, ?_⟩
      obtain ⟨hl, hj⟩ := List.getElem?_eq_some_iff.1 hj
      rw [getElem!_pos _ j hl, hj]

/-- C177: no cast in the ellipse is excluded from the choice: there are draws with which it is chosen, whatever the sort. -/
theorem any_may_be_chosen (A : BesthistArgs) (casts : List Cast) (hz : A.mapPvUse = 1 → ∀ c ∈ casts, c.z ≠ some 0)
    (hmc : A.maxCasts = 3 ∨ 5 ≤ A.maxCasts) (hm : A.maxCasts < numInside A casts) (i : ℕ) (hi : ∃ c, casts[i]? = some c ∧ InEllipse A c) :
    ∃ rand, ValidRand rand ∧ ∀ argsort, IsArgsort argsort → ∃ out, findBesthist A argsort rand casts = .ok out ∧ i ∈ out := by
  obtain ⟨n, hn⟩ : ∃ n, n = numInside A casts := ⟨_, rfl⟩
  obtain ⟨j, hj⟩ : ∃ j, NthInside A casts j i := ⟨_, hi, rfl⟩
  have hjn : j < n := by
    rw [hn, numInside_eq]
    exact (List.getElem?_eq_some_iff.1 ((indexEllipse_nth A casts j i).2 hj)).1
  have hj' : (j : ℝ) + 1 ≤ n := by exact_mod_cast hjn
  have hj0 : (0 : ℝ) ≤ j := by positivity
  have hn0 : (0 : ℝ) < n := by linarith
  have hv : ValidRand fun _ k => List.replicate k (((j : ℝ) + 3 / 4) / n) := by
    intro seed k
    refine ⟨by simp, fun u hu => ?_⟩
    obtain rfl := List.eq_of_mem_replicate hu
    exact ⟨by positivity, by rw [div_lt_one hn0]; linarith⟩
  refine ⟨_, hv, fun argsort hs => ?_⟩
  obtain ⟨out, h1, -, -⟩ := besthist_many_exact_size A argsort hs _ hv casts hz hmc hm
  obtain ⟨picked, rest, h2, -, h3⟩ := draws_pick A argsort _ hv casts hm out h1
  refine ⟨out, h1, ?_⟩
  rw [h2]
  refine List.mem_append_left _ ((h3 i).2 ⟨_, List.mem_replicate.2 ⟨by omega, rfl⟩, j, .inl ?_, hj⟩)
  rw [← hn, div_mul_cancel₀ _ hn0.ne', abs_lt]
  constructor <;> linarith

/-- C177: the numbers that pick a cast fill an interval (up to its ends). Its length, the probability for draws spread evenly over 0 to 1, is 3 / (2 n) for the
first of `n` casts, 1 / (2 n) for the last and 1 / n for each other one. -/
theorem pick_chances (n j : ℕ) (hn : 2 ≤ n) (hj : j < n) :
    ∃ a b : ℝ, b - a = (if j = 0 then 3 / (2 * (n : ℝ)) else if j = n - 1 then 1 / (2 * (n : ℝ)) else 1 / (n : ℝ)) ∧
      Set.Ioo a b ⊆ {u : ℝ | (0 ≤ u ∧ u < 1) ∧ Picks n u j} ∧ {u : ℝ | (0 ≤ u ∧ u < 1) ∧ Picks n u j} ⊆ Set.Icc a b := by
  have hn0 : (0 : ℝ) < n := by exact_mod_cast (by omega : 0 < n)
  have hn2 : (2 : ℝ) ≤ n := by exact_mod_cast hn
  have up : ∀ u : ℝ, Picks n u j → u ≤ (j + 3 / 2) / n := by
    intro u h
    rw [le_div_iff₀ hn0]
    have hj0 : (0 : ℝ) ≤ j := by positivity
    rcases h with h | ⟨h, -⟩ | ⟨-, h⟩
    · linarith [(abs_lt.1 h).2]
    · linarith [(abs_le.1 h.le).2]
    · linarith
  have low : j ≠ 0 → ∀ u : ℝ, Picks n u j → (j + 1 / 2) / n ≤ u := by
    intro h0 u h
    rw [div_le_iff₀ hn0]
    rcases h with h | ⟨h, -⟩ | ⟨h, -⟩
    · linarith [(abs_lt.1 h).1]
    · linarith [(abs_le.1 h.le).1]
    · exact absurd h h0
  have mid : ∀ u : ℝ, (j + 1 / 2) / n < u → u < (j + 3 / 2) / n → Picks n u j := by
    intro u h1 h2
    rw [div_lt_iff₀ hn0] at h1
    rw [lt_div_iff₀ hn0] at h2
    exact .inl (abs_lt.2 ⟨by linarith, by linarith⟩)
  by_cases h0 : j = 0
  · subst h0
    refine ⟨0, (3 / 2) / n, ?_, ?_, ?_⟩
    · rw [if_pos rfl]
      field_simp
      norm_num
    · rintro u ⟨h1, h2⟩
      have h3 := h2
      rw [lt_div_iff₀ hn0] at h3
      refine ⟨⟨h1.le, by nlinarith⟩, ?_⟩
      rcases lt_trichotomy (u * n) (1 / 2) with h | h | h
      · exact .inr (.inr ⟨rfl, h⟩)
      · refine .inr (.inl ⟨?_, by decide⟩)
        rw [h]
        norm_num [abs_of_neg]
      · exact .inl (abs_lt.2 ⟨by push_cast; linarith, by push_cast; linarith⟩)
    · rintro u ⟨⟨h1, -⟩, h2⟩
      exact ⟨h1, by simpa using up u h2⟩
  · rw [if_neg h0]
    have hj1 : (1 : ℝ) ≤ j := by exact_mod_cast Nat.one_le_iff_ne_zero.2 h0
    by_cases h1 : j = n - 1
    · refine ⟨(j + 1 / 2) / n, 1, ?_, ?_, ?_⟩
      · rw [if_pos h1]
        have : (j : ℝ) = n - 1 := by rw [h1]; push_cast [Nat.cast_sub (by omega : 1 ≤ n)]; ring
        rw [this]
        field_simp
        ring
      · rintro u ⟨a, b⟩
        have hj' : (j : ℝ) = n - 1 := by rw [h1]; push_cast [Nat.cast_sub (by omega : 1 ≤ n)]; ring
        refine ⟨⟨(lt_of_le_of_lt (by positivity) a).le, b⟩, mid u a (b.trans ?_)⟩
        rw [hj', lt_div_iff₀ hn0]
        linarith
      · rintro u ⟨⟨-, b⟩, h⟩
        exact ⟨low h0 u h, b.le⟩
    · refine ⟨(j + 1 / 2) / n, (j + 3 / 2) / n, ?_, ?_, ?_⟩
      · rw [if_neg h1, ← sub_div]
        congr 1
        ring
      · rintro u ⟨a, b⟩
        have hj' : (j : ℝ) + 2 ≤ n := by exact_mod_cast (by omega : j + 2 ≤ n)
        refine ⟨⟨(lt_of_le_of_lt (by positivity) a).le, b.trans_le ?_⟩, mid u a b⟩
        rw [div_le_one hn0]
        linarith
      · rintro u ⟨-, h⟩
        exact ⟨low h0 u h, up u h⟩

/-- Seven casts in the ellipse, five asked for: the farthest, at longitude 25, may be chosen. -/
theorem far_may_be_chosen : ∃ rand, ValidRand rand ∧ ∀ argsort, IsArgsort argsort → ∃ out, findBesthist (exArgs 5 0) argsort rand exCasts = .ok out ∧ 8 ∈ out :=
  any_may_be_chosen (exArgs 5 0) exCasts (fun h => absurd h (by simp [exArgs])) (by simp [exArgs]) (by rw [exCasts_numInside]; simp [exArgs]) 8
    ⟨_, rfl, by unfold InEllipse exArgs; norm_num⟩

end Verif.Props
