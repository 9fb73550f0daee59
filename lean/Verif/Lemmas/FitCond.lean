import Verif.Model.FitCond
import Verif.Spec.FitCond
import Verif.Props.BreakFit
import Verif.Lemmas.Np

/-!
# Lemmas about `fit_cond`
-/

set_option linter.unusedSectionVars false

namespace Verif.FitCond

open Verif.Np Verif.Utilities Verif.BreakFit Verif.Spec Matrix

/-! ## Break points of the optimiser -/

theorem runningExp_pos {b : ℕ} (u : Fin (b + 1) → ℝ) (i : Fin (b + 1)) : 0 < runningExp u i :=
  Finset.sum_pos (fun k _ => Real.exp_pos _) ⟨i, by simp⟩

theorem runningExp_strictMono {b : ℕ} (u : Fin (b + 1) → ℝ) : StrictMono (runningExp u) := by
  intro i j hij
  unfold runningExp
  refine Finset.sum_lt_sum_of_subset (i := j) ?_ ?_ ?_ (Real.exp_pos _) (fun k _ _ => (Real.exp_pos _).le)
  · intro k; simp only [Finset.mem_filter, Finset.mem_univ, true_and]; exact fun h => h.trans hij.le
  · simp
  · simp [hij]

theorem rawBreaks_strictMono {b : ℕ} (lo hi : ℝ) (h : lo < hi) (u : Fin (b + 1) → ℝ) : StrictMono (rawBreaks lo hi u) := by
  intro i j hij
  unfold rawBreaks
  have h1 := runningExp_strictMono u hij
  have h2 : 0 < (hi - lo) / (1 + runningExp u (Fin.last b)) :=
    div_pos (sub_pos.2 h) (by have := runningExp_pos u (Fin.last b); linarith)
  have := mul_lt_mul_of_pos_left h1 h2
  linarith

theorem nlbpBreaks_eq {b : ℕ} (lo hi : ℝ) (h : lo < hi) (u : Fin (b + 1) → ℝ) : nlbpBreaks lo hi u = rawBreaks lo hi u := by
  funext i
  unfold nlbpBreaks
  split_ifs with h1 h2
  · exfalso
    have := rawBreaks_strictMono lo hi h u (show (⟨i.val - 1, by omega⟩ : Fin (b + 1)) < i from by
      show i.val - 1 < i.val; omega)
    linarith
  · rfl
  · rfl

theorem rawBreaks_interior {b : ℕ} (lo hi : ℝ) (h : lo < hi) (u : Fin (b + 1) → ℝ) (i : Fin (b + 1)) :
    lo < rawBreaks lo hi u i ∧ rawBreaks lo hi u i < hi := by
  unfold rawBreaks
  have h1 := runningExp_pos u i
  have h2 := runningExp_pos u (Fin.last b)
  have h3 : runningExp u i ≤ runningExp u (Fin.last b) := (runningExp_strictMono u).monotone (Fin.le_last i)
  have h4 : 0 < hi - lo := sub_pos.2 h
  constructor
  · have : 0 < (hi - lo) / (1 + runningExp u (Fin.last b)) * runningExp u i := by positivity
    linarith
  · have : (hi - lo) / (1 + runningExp u (Fin.last b)) * runningExp u i < hi - lo := by
      rw [div_mul_eq_mul_div, div_lt_iff₀ (by linarith)]
      exact mul_lt_mul_of_pos_left (by linarith) h4
    linarith

/-! ## `np.unique` -/

theorem uniqueReal_mem (l : List ℝ) (v : ℝ) : v ∈ uniqueReal l ↔ v ∈ l := by
  unfold uniqueReal; rw [List.mem_insertionSort, List.mem_dedup]

theorem uniqueReal_strict (l : List ℝ) : (uniqueReal l).Pairwise (· < ·) := by
  have h1 : (uniqueReal l).Pairwise (· ≤ ·) := List.pairwise_insertionSort _ _
  have h2 : (uniqueReal l).Nodup := (List.perm_insertionSort _ _).nodup_iff.2 (List.nodup_dedup l)
  exact (h1.and h2).imp fun h => lt_of_le_of_ne h.1 h.2

/-! ## Degrees of freedom -/

theorem ndf_bounds {n : ℕ} (c : Matrix (Fin (n + 1)) (Fin (n + 1)) ℝ) (hc : IsPosCorrelation c) :
    1 ≤ ndfOf c ∧ ndfOf c ≤ (n : ℝ) + 1 := by
  have hrow1 : ∀ i, 1 ≤ ∑ j, c i j := fun i => by
    rw [← hc.2 i]; exact Finset.single_le_sum (fun j _ => (hc.1 i j).1) (Finset.mem_univ i)
  have hrow2 : ∀ i, ∑ j, c i j ≤ (n : ℝ) + 1 := fun i => by
    calc ∑ j, c i j ≤ ∑ _j : Fin (n + 1), (1 : ℝ) := Finset.sum_le_sum fun j _ => (hc.1 i j).2
      _ = (n : ℝ) + 1 := by simp
  unfold ndfOf
  constructor
  · calc (1 : ℝ) = ∑ _i : Fin (n + 1), 1 / ((n : ℝ) + 1) := by
          simp; field_simp
      _ ≤ _ := Finset.sum_le_sum fun i _ => one_div_le_one_div_of_le (by linarith [hrow1 i]) (hrow2 i)
  · calc _ ≤ ∑ _i : Fin (n + 1), (1 : ℝ) := Finset.sum_le_sum fun i _ => by
          rw [div_le_one (by linarith [hrow1 i])]; exact hrow1 i
      _ = (n : ℝ) + 1 := by simp

/-! ## Plan -/

theorem mem_irange (a b k : ℤ) : k ∈ irange a b ↔ a ≤ k ∧ k < b := by
  unfold irange
  rw [List.mem_map]
  constructor
  · rintro ⟨i, hi, rfl⟩
    rw [List.mem_range] at hi
    omega
  · intro h
    exact ⟨(k - a).toNat, by rw [List.mem_range]; omega, by omega⟩

theorem irange_sorted (a b : ℤ) : (irange a b).Pairwise (· < ·) := by
  unfold irange
  rw [List.pairwise_map]
  refine List.pairwise_lt_range.imp fun h => ?_
  omega

/-- Free break points, `max_no_breaks = k`: the numbers of break points tried. -/
theorem mem_plan_free (k : ℤ) (hk : -1 ≤ k) (ndf : ℝ) (nbr : ℤ) :
    nbr ∈ (plan none k (-1) ndf).pbrk ↔ -1 ≤ nbr ∧ nbr ≤ k ∧ (nbr = -1 ∨ 2 * (nbr : ℝ) + 5 ≤ ndf) := by
  unfold plan
  simp only
  have hkr : (-1 : ℝ) ≤ (k : ℝ) := by exact_mod_cast hk
  split_ifs with h1 h2
  · simp only
    rw [mem_irange, Int.lt_add_one_iff, Int.le_floor]
    push_cast at h2
    constructor
    · rintro ⟨ha, hb⟩
      refine ⟨ha, ?_, Or.inr (by linarith)⟩
      have : (nbr : ℝ) < k + 1 := by linarith
      exact_mod_cast Int.lt_add_one_iff.1 (by exact_mod_cast this)
    · rintro ⟨ha, hb, hc⟩
      refine ⟨ha, ?_⟩
      rcases hc with rfl | hc
      · push_cast; linarith
      · linarith
  · simp only [List.mem_singleton]
    push_cast at h2
    constructor
    · rintro rfl; exact ⟨le_refl _, hk, Or.inl rfl⟩
    · rintro ⟨ha, hb, hc⟩
      rcases hc with rfl | hc
      · rfl
      · have : (nbr : ℝ) ≤ -1 := by linarith
        have : nbr ≤ -1 := by exact_mod_cast this
        omega
  · simp only
    rw [mem_irange]
    constructor
    · rintro ⟨ha, hb⟩
      refine ⟨ha, by omega, Or.inr ?_⟩
      have : (nbr : ℝ) ≤ k := by exact_mod_cast (show nbr ≤ k by omega)
      linarith
    · rintro ⟨ha, hb, _⟩
      exact ⟨ha, by omega⟩

theorem plan_free_nbr1 (k nbr1 : ℤ) (ndf : ℝ) : (plan none k nbr1 ndf).nbr1 = nbr1 ∧ (plan none k nbr1 ndf).maxBrk = k := by
  unfold plan
  simp only
  split_ifs <;> simp

theorem plan_free_sorted (k nbr1 : ℤ) (ndf : ℝ) : (plan none k nbr1 ndf).pbrk.Pairwise (· < ·) := by
  unfold plan
  simp only
  split_ifs
  · exact irange_sorted _ _
  · simp
  · exact irange_sorted _ _

/-! ## Choice -/

theorem firstBest_none {crit : Fitted → WithBot ℝ} {l : List Fitted} : firstBest crit l = none ↔ l = [] := by
  cases l with
  | nil => simp [firstBest]
  | cons f l =>
    simp only [firstBest]
    cases firstBest crit l with
    | none => simp
    | some g => simp only []; split_ifs <;> simp

/-- The first of the best: it splits the list, all before are strictly worse, all after not better. -/
theorem firstBest_some {crit : Fitted → WithBot ℝ} {l : List Fitted} {f : Fitted} (h : firstBest crit l = some f) :
    ∃ l1 l2, l = l1 ++ f :: l2 ∧ (∀ g ∈ l1, crit f < crit g) ∧ ∀ g ∈ l2, crit f ≤ crit g := by
  induction l generalizing f with
  | nil => simp [firstBest] at h
  | cons a l ih =>
    simp only [firstBest] at h
    cases hb : firstBest crit l with
    | none =>
      rw [hb] at h
      obtain rfl := Option.some.inj h
      rw [firstBest_none] at hb
      subst hb
      exact ⟨[], [], rfl, by simp, by simp⟩
    | some g =>
      rw [hb] at h
      simp only at h
      obtain ⟨l1, l2, hl, h1, h2⟩ := ih hb
      split_ifs at h with hle
      · obtain rfl := Option.some.inj h
        refine ⟨[], l, rfl, by simp, fun g' hg' => ?_⟩
        rw [hl] at hg'
        simp only [List.mem_append, List.mem_cons] at hg'
        rcases hg' with hg' | rfl | hg'
        · exact hle.trans (h1 g' hg').le
        · exact hle
        · exact hle.trans (h2 g' hg')
      · obtain rfl := Option.some.inj h
        refine ⟨a :: l1, l2, by rw [hl]; rfl, fun g' hg' => ?_, h2⟩
        simp only [List.mem_cons] at hg'
        rcases hg' with rfl | hg'
        · exact not_le.1 hle
        · exact h1 g' hg'

/-- The converse. -/
theorem firstBest_eq {crit : Fitted → WithBot ℝ} (l1 l2 : List Fitted) (f : Fitted) (h1 : ∀ g ∈ l1, crit f < crit g)
    (h2 : ∀ g ∈ l2, crit f ≤ crit g) : firstBest crit (l1 ++ f :: l2) = some f := by
  induction l1 with
  | nil =>
    simp only [List.nil_append, firstBest]
    cases hb : firstBest crit l2 with
    | none => rfl
    | some g =>
      obtain ⟨m1, m2, hl, _, _⟩ := firstBest_some hb
      simp only
      rw [if_pos (h2 g (by rw [hl]; simp))]
  | cons a l ih =>
    simp only [List.cons_append, firstBest]
    rw [ih (fun g hg => h1 g (List.mem_cons_of_mem _ hg))]
    simp only
    rw [if_neg (not_le.2 (h1 a List.mem_cons_self))]

/-! ## Scaling -/

theorem yScale_pos {n : ℕ} (y : Fin (n + 1) → ℝ) : 0 < yScale y := by
  unfold yScale
  split_ifs with h
  · norm_num
  · exact lt_of_le_of_ne (Real.sqrt_nonneg _) (Ne.symm h)

theorem xScale_pos {n : ℕ} (x : Fin (n + 1) → ℝ) (hx : Monotone x) : 0 < xScale x := by
  unfold xScale
  split_ifs with h
  · have : x 0 < x (Fin.last n) := lt_of_le_of_ne (hx (Fin.zero_le _)) h
    linarith
  · norm_num

theorem scaled_errVar_pos {n : ℕ} (x y err : Fin (n + 1) → ℝ) (he : ∀ i, 0 < err i) (i) : 0 < (scaled x y err).errVar i := by
  have := yScale_pos y
  have := he i
  show 0 < (err i / yScale y) ^ 2
  positivity

theorem mean_pos {n : ℕ} (y : Fin (n + 1) → ℝ) (h : ∀ i, 0 < y i) : 0 < mean y :=
  div_pos (Finset.sum_pos (fun i _ => h i) ⟨0, Finset.mem_univ _⟩) (by positivity)

theorem scaled_w_pos {n : ℕ} (x y err : Fin (n + 1) → ℝ) (he : ∀ i, 0 < err i) (i) : 0 < (scaled x y err).w i :=
  div_pos (mean_pos _ (scaled_errVar_pos x y err he)) (scaled_errVar_pos x y err he i)

theorem scaled_w_sum {n : ℕ} (x y err : Fin (n + 1) → ℝ) (he : ∀ i, 0 < err i) : 0 < ∑ i, (scaled x y err).w i :=
  Finset.sum_pos (fun i _ => scaled_w_pos x y err he i) ⟨0, Finset.mem_univ _⟩

/-- The weights are the inverse error variances up to a factor. -/
theorem scaled_w_eq {n : ℕ} (x y err : Fin (n + 1) → ℝ) (he : ∀ i, 0 < err i) :
    ∃ c : ℝ, 0 < c ∧ ∀ i, (scaled x y err).w i = c * (1 / err i ^ 2) := by
  have hs := yScale_pos y
  refine ⟨mean (scaled x y err).errVar * yScale y ^ 2, ?_, fun i => ?_⟩
  · have := mean_pos _ (scaled_errVar_pos x y err he)
    positivity
  · show mean (scaled x y err).errVar / (err i / yScale y) ^ 2 = _
    have := (he i).ne'
    field_simp

/-- The scaled weighted mean, scaled back. -/
theorem offset_back {n : ℕ} (x y err : Fin (n + 1) → ℝ) (he : ∀ i, 0 < err i) :
    (∑ i, (scaled x y err).w i * (scaled x y err).yf i) / (∑ i, (scaled x y err).w i) * yScale y + mean y = weightedMean y err := by
  obtain ⟨c, hc, hw⟩ := scaled_w_eq x y err he
  have hs := yScale_pos y
  have hS : 0 < ∑ i, 1 / err i ^ 2 := Finset.sum_pos (fun i _ => by have := he i; positivity) ⟨0, Finset.mem_univ _⟩
  have e1 : ∑ i, (scaled x y err).w i = c * ∑ i, 1 / err i ^ 2 := by
    rw [Finset.mul_sum]; exact Finset.sum_congr rfl fun i _ => hw i
  have e2 : ∑ i, (scaled x y err).w i * (scaled x y err).yf i =
      c / yScale y * (∑ i, y i / err i ^ 2 - mean y * ∑ i, 1 / err i ^ 2) := by
    rw [Finset.mul_sum, ← Finset.sum_sub_distrib, Finset.mul_sum]
    refine Finset.sum_congr rfl fun i _ => ?_
    rw [hw i]
    show c * (1 / err i ^ 2) * ((y i - mean y) / yScale y) = _
    have := (he i).ne'
    field_simp
  rw [e1, e2]
  unfold weightedMean
  field_simp
  ring

/-! ## The free fit -/

/-- Number of break points of a model, -1 for the offset. -/
def nbrOf : Fitted → ℤ
  | .offset _ _ => -1
  | .line b _ _ _ => b

theorem brkPtFit_ok {n b : ℕ} (x y : Fin (n + 1) → ℝ) (w : Option (Matrix (Fin (n + 1)) (Fin (n + 1)) ℝ)) (breaks : Fin b → ℝ) :
    ∃ a r, brkPtFit x y w breaks = .ok (a, r) := by
  cases h : brkPtFit x y w breaks with
  | ok v => exact ⟨v.1, v.2, rfl⟩
  | error e =>
    have := (Props.brk_fit_fails_iff x y w breaks).1 ⟨e, h⟩
    omega

/-- The options after `'max_no_breaks', k`. -/
def freeOpts (k : ℤ) : Opts := { maxBrkIn := some (.int k) }

theorem parse_free (k : ℤ) : parseArgs [.str "max_no_breaks", .int k] = .ok (freeOpts k) := by
  have h1 : "max_no_breaks".toLower = "max_no_breaks" := by decide +kernel
  simp [parseArgs, parsePairs, parseStep, h1, freeOpts, bind, Except.bind]

theorem tryModel_offset {n : ℕ} (d : Scaled n) (hw : ∑ i, d.w i ≠ 0) (lo hi : ℝ) (o : Opts) (maxIn : ℤ) (p : Plan) (opt : Externals) :
    tryModel d lo hi o maxIn p opt (-1) = .ok (.offset ((∑ i, d.w i * d.yf i) / ∑ i, d.w i)
      (rssOf d fun i => d.yf i - (∑ i, d.w i * d.yf i) / ∑ i, d.w i)) := by
  unfold tryModel
  rw [if_pos rfl, if_neg hw]

theorem tryModel_linear {n : ℕ} (d : Scaled n) (lo hi : ℝ) (o : Opts) (maxIn : ℤ) (p : Plan) (opt : Externals) (hs : ¬ singular d (![] : Fin 0 → ℝ))
    (a : Fin 2 → ℝ) (r : Fin (n + 1) → ℝ) (h : brkPtFit d.xf d.yf (some (diagonal d.w)) (![] : Fin 0 → ℝ) = .ok (a, r)) :
    tryModel d lo hi o maxIn p opt 0 = .ok (.line 0 ![] a (rssOf d r)) := by
  unfold tryModel
  rw [if_neg (by norm_num), if_pos rfl, h]
  simp only [bind, Except.bind]
  rw [if_neg hs]
  rfl

/-- A model whose fit cannot be stored. -/
def degenerate {n : ℕ} (d : Scaled n) (lo hi : ℝ) (opt : Externals) (nbr : ℤ) : Prop :=
  nbr = 0 ∧ singular d (![] : Fin 0 → ℝ) ∨ ∃ b : ℕ, nbr = (b : ℤ) + 1 ∧ singular d (nlbpBreaks lo hi (opt.search b).1)

open Classical in
theorem tryModel_broken {n : ℕ} (d : Scaled n) (lo hi : ℝ) (k : ℤ) (p : Plan) (hp : p.nbr1 ≤ 1) (opt : Externals)
    (b : ℕ) (h2 : (b : ℤ) + 1 ≤ k) (h3 : (b : ℤ) + 1 ≤ n + 1) (a a' : Fin (b + 3) → ℝ) (r r' : Fin (n + 1) → ℝ)
    (h : brkPtFit d.xf d.yf (some (diagonal d.w)) (nlbpBreaks lo hi (opt.search b).1) = .ok (a, r))
    (h' : brkPtFit d.xf d.yf (some (diagonal d.w)) (nlbpBreaks lo hi (opt.search b).2) = .ok (a', r')) :
    (singular d (nlbpBreaks lo hi (opt.search b).1) → tryModel d lo hi (freeOpts k) k p opt ((b : ℤ) + 1) = .error .valueError) ∧
    (¬ singular d (nlbpBreaks lo hi (opt.search b).1) → tryModel d lo hi (freeOpts k) k p opt ((b : ℤ) + 1) =
      .ok (.line (b + 1) (nlbpBreaks lo hi (opt.search b).1) a (rssOf d r'))) := by
  have e : tryModel d lo hi (freeOpts k) k p opt ((b : ℤ) + 1) = (do
      if singular d (nlbpBreaks lo hi (opt.search b).1) then .error .valueError
      pure (.line (b + 1) (nlbpBreaks lo hi (opt.search b).1) a (rssOf d r'))) := by
    unfold tryModel
    rw [if_neg (by omega), if_neg (by omega), if_neg (by simp [freeOpts]; try omega)]
    simp only [freeOpts]
    rw [if_neg (by omega), if_neg (by omega), if_neg (by omega)]
    rw [show ((b : ℤ) + 1).toNat = b + 1 by omega]
    simp only [h, h']
    rfl
  rw [e]
  refine ⟨fun hs => ?_, fun hs => ?_⟩
  · rw [if_pos hs]; rfl
  · rw [if_neg hs]; rfl

theorem tryModel_free {n : ℕ} (d : Scaled n) (hw : ∑ i, d.w i ≠ 0) (lo hi : ℝ) (k : ℤ) (p : Plan) (hp : p.nbr1 ≤ 1) (opt : Externals)
    (nbr : ℤ) (h1 : -1 ≤ nbr) (h2 : nbr ≤ k) (h3 : nbr ≤ n + 1) :
    (degenerate d lo hi opt nbr → tryModel d lo hi (freeOpts k) k p opt nbr = .error .valueError) ∧
    (¬ degenerate d lo hi opt nbr → ∃ f, tryModel d lo hi (freeOpts k) k p opt nbr = .ok f ∧ nbrOf f = nbr ∧ normalDet d f ≠ 0) := by
  by_cases e1 : nbr = -1
  · subst e1
    refine ⟨?_, fun _ => ⟨_, tryModel_offset d hw lo hi _ k p opt, rfl, hw⟩⟩
    rintro (⟨h, -⟩ | ⟨b, h, -⟩) <;> omega
  by_cases e2 : nbr = 0
  · subst e2
    obtain ⟨a, r, h⟩ := brkPtFit_ok d.xf d.yf (some (diagonal d.w)) (![] : Fin 0 → ℝ)
    constructor
    · rintro (⟨-, hs⟩ | ⟨b, hb, -⟩)
      · unfold tryModel
        rw [if_neg (by norm_num), if_pos rfl, h]
        simp only [bind, Except.bind]
        rw [if_pos hs]
      · omega
    · intro hd
      have hs : ¬ singular d (![] : Fin 0 → ℝ) := fun h => hd (Or.inl ⟨rfl, h⟩)
      exact ⟨_, tryModel_linear d lo hi _ k p opt hs a r h, rfl, hs⟩
  obtain ⟨b, rfl⟩ : ∃ b : ℕ, nbr = (b : ℤ) + 1 := ⟨(nbr - 1).toNat, by omega⟩
  obtain ⟨a, r, h⟩ := brkPtFit_ok d.xf d.yf (some (diagonal d.w)) (nlbpBreaks lo hi (opt.search b).1)
  obtain ⟨a', r', h'⟩ := brkPtFit_ok d.xf d.yf (some (diagonal d.w)) (nlbpBreaks lo hi (opt.search b).2)
  obtain ⟨hs, hns⟩ := tryModel_broken d lo hi k p hp opt b h2 h3 a a' r r' h h'
  constructor
  · rintro (⟨h0, -⟩ | ⟨b', hb, hs'⟩)
    · omega
    · obtain rfl : b = b' := by omega
      exact hs hs'
  · intro hd
    have hn : ¬ singular d (nlbpBreaks lo hi (opt.search b).1) := fun h => hd (Or.inr ⟨b, rfl, h⟩)
    exact ⟨_, hns hn, by simp [nbrOf], hn⟩

theorem mapM_error {α β : Type} (f : α → Except PyErr β) (e : PyErr) (l : List α) (hall : ∀ a ∈ l, f a = .error e ∨ ∃ b, f a = .ok b)
    (hex : ∃ a ∈ l, f a = .error e) : l.mapM f = .error e := by
  induction l with
  | nil => obtain ⟨a, ha, -⟩ := hex; cases ha
  | cons a l ih =>
    rw [List.mapM_cons]
    rcases hall a List.mem_cons_self with h | ⟨b, h⟩
    · rw [h]; rfl
    · rw [h]
      have : l.mapM f = .error e := ih (fun c hc => hall c (List.mem_cons_of_mem _ hc)) (by
        obtain ⟨c, hc, hce⟩ := hex
        rcases List.mem_cons.1 hc with rfl | hc
        · rw [h] at hce; cases hce
        · exact ⟨c, hc, hce⟩)
      simp only [bind, Except.bind]
      rw [this]

theorem free_few {n : ℕ} (cov : Matrix (Fin (n + 1)) (Fin (n + 1)) ℝ) (hc : IsPosCorrelation cov) (nbr : ℤ)
    (h3 : nbr = -1 ∨ 2 * (nbr : ℝ) + 5 ≤ ndfOf cov) : nbr ≤ n + 1 := by
  rcases h3 with rfl | h3
  · omega
  · have hb := (ndf_bounds cov hc).2
    have : (nbr : ℝ) * 2 ≤ (n : ℝ) + 1 := by linarith
    have : nbr * 2 ≤ (n : ℤ) + 1 := by exact_mod_cast this
    omega

/-- All models allowed can be stored. -/
def NoneDegenerate {n : ℕ} (x y err : Fin (n + 1) → ℝ) (cov : Matrix (Fin (n + 1)) (Fin (n + 1)) ℝ) (k : ℤ) (opt : Externals) : Prop :=
  ∀ nbr : ℤ, -1 ≤ nbr ∧ nbr ≤ k ∧ (nbr = -1 ∨ 2 * (nbr : ℝ) + 5 ≤ ndfOf cov) →
    ¬ degenerate (scaled x y err) (limits (scaled x y err).xf).1 (limits (scaled x y err).xf).2 opt nbr

theorem noneDegenerate_offset {n : ℕ} (x y err : Fin (n + 1) → ℝ) (cov : Matrix (Fin (n + 1)) (Fin (n + 1)) ℝ) (opt : Externals) :
    NoneDegenerate x y err cov (-1) opt := by
  rintro nbr ⟨h1, h2, -⟩ (⟨h, -⟩ | ⟨b, h, -⟩) <;> omega

/-- One of the models allowed cannot be stored: `fit_cond(…, 'max_no_breaks', k)` fails. -/
theorem fitCore_degenerate {n m : ℕ} (xfit : Fin (m + 1) → ℝ) (x y err : Fin (n + 1) → ℝ) (he : ∀ i, 0 < err i)
    (cov : Matrix (Fin (n + 1)) (Fin (n + 1)) ℝ) (hc : IsPosCorrelation cov) (k : ℤ) (hk : -1 ≤ k) (opt : Externals)
    (hd : ¬ NoneDegenerate x y err cov k opt) : fitCore xfit x y err cov [.str "max_no_breaks", .int k] opt = .error .valueError := by
  obtain ⟨hn, hm⟩ := plan_free_nbr1 k (-1) (ndfOf cov)
  unfold NoneDegenerate at hd
  push Not at hd
  obtain ⟨nbr₀, hnbr₀, hdeg⟩ := hd
  have htry := fun (nbr : ℤ) (h : -1 ≤ nbr ∧ nbr ≤ k ∧ (nbr = -1 ∨ 2 * (nbr : ℝ) + 5 ≤ ndfOf cov)) =>
    tryModel_free (scaled x y err) (scaled_w_sum x y err he).ne' (limits (scaled x y err).xf).1
      (limits (scaled x y err).xf).2 k (plan none k (-1) (ndfOf cov)) (by rw [hn]; norm_num) opt nbr h.1 h.2.1 (free_few cov hc nbr h.2.2)
  have hmap : (plan none k (-1) (ndfOf cov)).pbrk.mapM (tryModel (scaled x y err) (limits (scaled x y err).xf).1
        (limits (scaled x y err).xf).2 (freeOpts k) k (plan none k (-1) (ndfOf cov)) opt) = .error .valueError := by
    refine mapM_error _ _ _ (fun nbr hnbr => ?_) ⟨nbr₀, (mem_plan_free k hk _ nbr₀).2 hnbr₀, (htry nbr₀ hnbr₀).1 hdeg⟩
    have h := (mem_plan_free k hk _ nbr).1 hnbr
    by_cases hdg : degenerate (scaled x y err) (limits (scaled x y err).xf).1 (limits (scaled x y err).xf).2 opt nbr
    · exact Or.inl ((htry nbr h).1 hdg)
    · obtain ⟨f, hf, -⟩ := (htry nbr h).2 hdg
      exact Or.inr ⟨f, hf⟩
  have hmb : maxBreaks (freeOpts k) = .ok k := by
    simp only [maxBreaks, freeOpts]; rw [if_neg (by omega)]
  unfold fitCore
  rw [parse_free]
  have ho : ({ freeOpts k with breaks := (freeOpts k).breaks.map fun l => l.map fun v => (v - xCentre x) / xScale x } : Opts) = freeOpts k := rfl
  simp only [bind, Except.bind]
  rw [ho, hmb]
  simp only
  rw [if_neg (show ¬ presetFails (scaled x y err) (freeOpts k) k from id)]
  have hb : (freeOpts k).breaks = none := rfl
  have hb1 : (freeOpts k).nbr1 = -1 := rfl
  rw [hb, hb1]
  simp only [Option.map_none]
  simp only [pure, Except.pure]
  rw [hmap]

/-- Where the fit returns, all models allowed can be stored. -/
theorem NoneDegenerate.of_ok {n m : ℕ} {xfit : Fin (m + 1) → ℝ} {x y err : Fin (n + 1) → ℝ} (he : ∀ i, 0 < err i)
    {cov : Matrix (Fin (n + 1)) (Fin (n + 1)) ℝ} (hc : IsPosCorrelation cov) {k : ℤ} (hk : -1 ≤ k) {opt : Externals} {fit : Fit m}
    (h : fitCore xfit x y err cov [.str "max_no_breaks", .int k] opt = .ok fit) : NoneDegenerate x y err cov k opt := by
  by_contra hd
  rw [fitCore_degenerate xfit x y err he cov hc k hk opt hd] at h
  cases h

/-- `fit_cond(…, 'max_no_breaks', k)` for good data: everything but the choice of the model. -/
theorem fitCore_free {n m : ℕ} (xfit : Fin (m + 1) → ℝ) (x y err : Fin (n + 1) → ℝ) (he : ∀ i, 0 < err i)
    (cov : Matrix (Fin (n + 1)) (Fin (n + 1)) ℝ) (hc : IsPosCorrelation cov) (k : ℤ) (hk : -1 ≤ k) (opt : Externals)
    (hd : NoneDegenerate x y err cov k opt) :
    ∃ tried f, (plan none k (-1) (ndfOf cov)).pbrk.mapM (tryModel (scaled x y err) (limits (scaled x y err).xf).1
        (limits (scaled x y err).xf).2 (freeOpts k) k (plan none k (-1) (ndfOf cov)) opt) = .ok tried ∧
      firstBest (aic (ndfOf cov) (n + 1)) tried = some f ∧
      fitCore xfit x y err cov [.str "max_no_breaks", .int k] opt =
        if normalDet (scaled x y err) f = 0 then .error .linAlgError
        else match f with
          | .line (_ + 1) _ _ _ => .error .typeError
          | f => .ok (finish 200 opt x y (scaled x y err) cov xfit f) := by
  obtain ⟨hn, hm⟩ := plan_free_nbr1 k (-1) (ndfOf cov)
  obtain ⟨tried, htried⟩ := mapM_isOk (l := (plan none k (-1) (ndfOf cov)).pbrk) (f := tryModel (scaled x y err)
      (limits (scaled x y err).xf).1 (limits (scaled x y err).xf).2 (freeOpts k) k (plan none k (-1) (ndfOf cov)) opt) (by
    intro nbr hnbr
    have h := (mem_plan_free k hk _ nbr).1 hnbr
    obtain ⟨f, hf, -⟩ := (tryModel_free (scaled x y err) (scaled_w_sum x y err he).ne' (limits (scaled x y err).xf).1
      (limits (scaled x y err).xf).2 k (plan none k (-1) (ndfOf cov)) (by rw [hn]; norm_num) opt nbr h.1 h.2.1 (free_few cov hc nbr h.2.2)).2 (hd nbr h)
    exact ⟨f, hf⟩)
  have hne : tried ≠ [] := by
    rintro rfl
    have hl := (mapM_getElem htried).1
    have : (-1 : ℤ) ∈ (plan none k (-1) (ndfOf cov)).pbrk := (mem_plan_free k hk _ _).2 ⟨le_refl _, hk, Or.inl rfl⟩
    rw [List.length_nil] at hl
    rw [List.length_eq_zero_iff.1 hl.symm] at this
    simp at this
  obtain ⟨f, hf⟩ : ∃ f, firstBest (aic (ndfOf cov) (n + 1)) tried = some f := by
    cases hb : firstBest (aic (ndfOf cov) (n + 1)) tried with
    | none => exact absurd (firstBest_none.1 hb) hne
    | some f => exact ⟨f, rfl⟩
  refine ⟨tried, f, htried, hf, ?_⟩
  have hmb : maxBreaks (freeOpts k) = .ok k := by
    simp only [maxBreaks, freeOpts]; rw [if_neg (by omega)]
  have hch : chooseModel (ndfOf cov) (n + 1) false (plan none k (-1) (ndfOf cov)) tried = .ok f := by
    unfold chooseModel
    rw [if_neg (by simp), if_neg (by rw [hn]; norm_num), hf]
  unfold fitCore
  rw [parse_free]
  have ho : ({ freeOpts k with breaks := (freeOpts k).breaks.map fun l => l.map fun v => (v - xCentre x) / xScale x } : Opts) = freeOpts k := rfl
  simp only [bind, Except.bind]
  rw [ho, hmb]
  simp only
  rw [if_neg (show ¬ presetFails (scaled x y err) (freeOpts k) k from id)]
  simp only [pure, Except.pure]
  have hb : (freeOpts k).breaks = none := rfl
  have hb1 : (freeOpts k).nbr1 = -1 := rfl
  have hnl : (freeOpts k).nloops = .int 200 := rfl
  rw [hb, hb1]
  simp only [Option.map_none]
  rw [htried]
  simp only [Option.isSome_none]
  rw [hch]
  simp only
  by_cases hd : normalDet (scaled x y err) f = 0
  · rw [if_pos hd, if_pos hd]
  · rw [if_neg hd, if_neg hd]
    cases f with
    | offset a r => rfl
    | line b br co r =>
      cases b with
      | zero => simp [errorLoop, hnl]; rfl
      | succ b => simp [errorLoop, hnl]

end Verif.FitCond
