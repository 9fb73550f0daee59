import Verif.Props.PiecewiseMore
import Verif.Props.FitDetermined

/-!
# C146: a linear drift
-/

set_option linter.unusedSectionVars false

namespace Verif.Props

open Verif.Np Verif.Stats Verif.Spec Verif.FitCond Verif.Piecewise Verif.Thetas

/-- Ten values for each of `M` profiles, with a correlation of at most `ε` between different ones: each profile that counts contributes at least `1 / (1 + 10 (M - 1) ε)`. -/
theorem effective_of_apart {n : ℕ} (c : Matrix (Fin n) (Fin n) ℝ) (hc : IsPosCorrelation c) (pos : Fin n → ℕ) (hinj : Function.Injective pos) (M : ℕ)
    (hpos : ∀ i, pos i < 10 * M) (ε : ℝ) (hε : 0 ≤ ε) (hfar : ∀ i j, pos i / 10 ≠ pos j / 10 → c i j ≤ ε) (T : Finset ℕ) (hT : ∀ p ∈ T, ∃ i, pos i / 10 = p) :
    (T.card : ℝ) / (1 + 10 * ((M : ℝ) - 1) * ε) ≤ effectiveNumber c := by
  have hrow : ∀ i, 0 < ∑ j, c i j := by
    intro i
    refine lt_of_lt_of_le zero_lt_one ?_
    rw [← hc.2 i]
    exact Finset.single_le_sum (f := fun j => c i j) (fun j _ => (hc.1 i j).1) (Finset.mem_univ i)
  rcases T.eq_empty_or_nonempty with rfl | hne
  · simp only [Finset.card_empty, Nat.cast_zero, zero_div]
    exact Finset.sum_nonneg fun i _ => (one_div_pos.2 (hrow i)).le
  have hM : 1 ≤ M := by
    obtain ⟨p, hp⟩ := hne
    obtain ⟨i, -⟩ := hT p hp
    have := hpos i
    omega
  have hM' : (1 : ℝ) ≤ M := by exact_mod_cast hM
  set D : ℝ := 1 + 10 * ((M : ℝ) - 1) * ε with hD
  have hD1 : 1 ≤ D := by
    have : 0 ≤ 10 * ((M : ℝ) - 1) * ε := by
      refine mul_nonneg (mul_nonneg (by norm_num) (by linarith)) hε
    linarith
  have key : ∀ p ∈ T, 1 / D ≤ ∑ i ∈ Finset.univ.filter fun i => pos i / 10 = p, 1 / ∑ j, c i j := by
    intro p hp
    obtain ⟨i₀, hi₀⟩ := hT p hp
    set A := Finset.univ.filter fun i => pos i / 10 = p with hA
    have hi₀A : i₀ ∈ A := by simp [hA, hi₀]
    have hg : 1 ≤ A.card := Finset.card_pos.2 ⟨i₀, hi₀A⟩
    have hg' : (1 : ℝ) ≤ A.card := by exact_mod_cast hg
    have hout : ((Finset.univ.filter fun i => ¬ pos i / 10 = p).card : ℝ) ≤ 10 * ((M : ℝ) - 1) := by
      have hp' : p < M := by
        have := hpos i₀
        omega
      have h1 : ((Finset.univ.filter fun i => ¬ pos i / 10 = p).image pos) ⊆ Finset.range (10 * M) \ Finset.Ico (10 * p) (10 * p + 10) := by
        intro a ha
        obtain ⟨i, hi, rfl⟩ := Finset.mem_image.1 ha
        have h2 := (Finset.mem_filter.1 hi).2
        have h3 := hpos i
        simp only [Finset.mem_sdiff, Finset.mem_range, Finset.mem_Ico]
        omega
      have h2 := Finset.card_le_card h1
      rw [Finset.card_image_of_injective _ hinj, Finset.card_sdiff_of_subset (by
        intro a ha
        simp only [Finset.mem_Ico, Finset.mem_range] at ha ⊢
        omega), Finset.card_range, Nat.card_Ico] at h2
      have h3 : (Finset.univ.filter fun i => ¬ pos i / 10 = p).card + 10 ≤ 10 * M := by omega
      have h4 : ((Finset.univ.filter fun i => ¬ pos i / 10 = p).card : ℝ) + 10 ≤ 10 * M := by exact_mod_cast h3
      linarith
    have hle : ∀ i ∈ A, ∑ j, c i j ≤ A.card * D := by
      intro i hi
      have hip : pos i / 10 = p := (Finset.mem_filter.1 hi).2
      rw [← Finset.sum_filter_add_sum_filter_not Finset.univ (fun j => pos j / 10 = p)]
      have h1 : ∑ j ∈ Finset.univ.filter (fun j => pos j / 10 = p), c i j ≤ A.card := by
        refine (Finset.sum_le_card_nsmul _ _ 1 fun j _ => (hc.1 i j).2).trans ?_
        rw [nsmul_one]
      have h2 : ∑ j ∈ Finset.univ.filter (fun j => ¬ pos j / 10 = p), c i j ≤ 10 * ((M : ℝ) - 1) * ε := by
        refine (Finset.sum_le_card_nsmul _ _ ε fun j hj => hfar i j ?_).trans ?_
        · rw [hip]
          exact fun e => (Finset.mem_filter.1 hj).2 e.symm
        · rw [nsmul_eq_mul]
          exact mul_le_mul_of_nonneg_right hout hε
      have h3 : 10 * ((M : ℝ) - 1) * ε ≤ A.card * (10 * ((M : ℝ) - 1) * ε) :=
        le_mul_of_one_le_left (mul_nonneg (mul_nonneg (by norm_num) (by linarith)) hε) hg'
      rw [hD, mul_add, mul_one]
      linarith
    calc 1 / D = A.card * (1 / (A.card * D)) := by field_simp
      _ = ∑ _i ∈ A, 1 / (A.card * D) := by rw [Finset.sum_const, nsmul_eq_mul]
      _ ≤ _ := Finset.sum_le_sum fun i hi => one_div_le_one_div_of_le (hrow i) (hle i hi)
  calc (T.card : ℝ) / D = ∑ _p ∈ T, 1 / D := by rw [Finset.sum_const, nsmul_eq_mul, mul_one_div]
    _ ≤ ∑ p ∈ T, ∑ i ∈ Finset.univ.filter fun i => pos i / 10 = p, 1 / ∑ j, c i j := Finset.sum_le_sum key
    _ = ∑ i ∈ T.biUnion fun p => Finset.univ.filter fun i => pos i / 10 = p, 1 / ∑ j, c i j := by
      rw [Finset.sum_biUnion]
      intro p _ q _ hpq
      refine Finset.disjoint_left.2 fun i hi hj => hpq ?_
      rw [← (Finset.mem_filter.1 hi).2, (Finset.mem_filter.1 hj).2]
    _ ≤ ∑ i, 1 / ∑ j, c i j := Finset.sum_le_sum_of_subset_of_nonneg (Finset.subset_univ _) fun i _ _ => (one_div_pos.2 (hrow i)).le

/-- Data on a straight line that is not constant: whenever `fit_cond` returns, it is the line or a constant. -/
theorem fit_linear_returned {n m : ℕ} (xfit : Fin (m + 1) → ℝ) (x y err : Fin (n + 1) → ℝ) (hx : Monotone x) (he : ∀ i, 0 < err i)
    (cov : Matrix (Fin (n + 1)) (Fin (n + 1)) ℝ) (hc : IsPosCorrelation cov) (opt : Externals) (hxm : Monotone xfit) (p q : ℝ) (hq : q ≠ 0)
    (hy : ∀ i, y i = p + q * x i) (k : ℤ) (hk : -1 ≤ k) (fit : Fit m) (hfit : fitCore xfit x y err cov [.str "max_no_breaks", .int k] opt = .ok fit) :
    (∀ i, fit.timeDeriv i = some q ∧ fit.condslope i = p + q * xfit i + q * (x 0 - xfit 0)) ∨
    ((k = -1 ∨ effectiveNumber cov < 5) ∧ ∃ a, ∀ i, fit.timeDeriv i = some 0 ∧ fit.condslope i = a) := by
  by_cases h : k = -1 ∨ effectiveNumber cov < 5
  · obtain ⟨fit', h1, -, h2, h3⟩ := fit_offset_when_few xfit x y err he cov hc opt k hk h
    rw [hfit] at h1
    obtain rfl := Except.ok.inj h1
    exact Or.inr ⟨h, _, fun i => ⟨h3 i, h2 i⟩⟩
  · push Not at h
    have hx0 : x 0 < x (Fin.last n) := by
      by_contra hle
      have key : ∀ i, x i = x 0 := fun i => le_antisymm ((hx (Fin.le_last i)).trans (not_lt.1 hle)) (hx (Fin.zero_le i))
      have := fit_one_profile_fails xfit x y err hx he cov hc opt (fun i j => (key i).trans (key j).symm) k (by omega) h.2
      rw [hfit] at this
      cases this
    obtain ⟨fit', h1, -, h2, h3⟩ := fit_linear_aux xfit x y err he cov hc opt hx hx0 hxm h.2 p q hq hy k (by omega) (.of_ok he hc hk hfit)
    rw [hfit] at h1
    obtain rfl := Except.ok.inj h1
    exact Or.inl fun i => ⟨h2 i, h3 i⟩

/-- The same for observations in ascending order of their profile numbers. -/
theorem fitCond_linear (obs : List Obs) (hsort : (obs.map Obs.x).Pairwise (· ≤ ·)) (lvcov : ℕ → ℕ → ℝ) (k : ℤ) (hk : -1 ≤ k) (opt : Externals) (p q : ℝ)
    (hq : q ≠ 0) (hy : ∀ o ∈ obs, ∀ y, o.y = some y → y = p + q * o.x) (herr : ∀ o ∈ obs, o.y ≠ none → 0 < o.err)
    (hcov : ∀ a b, a < obs.length → b < obs.length → 0 ≤ lvcov a b ∧ lvcov a b ≤ 1) (hdiag : ∀ a, a < obs.length → lvcov a a = 1)
    (r : (m : ℕ) × Fit m) (hr : fitCond obs lvcov [.str "max_no_breaks", .int k] opt = .ok (some r)) :
    (∃ o ∈ obs, o.y ≠ none ∧ (∀ o' ∈ obs, o'.y ≠ none → o.x ≤ o'.x) ∧ ∀ i, r.2.timeDeriv i = some q ∧
      r.2.condslope i = p + q * (uniqueReal (obs.map Obs.x)).getD i.val 0 + q * (o.x - (uniqueReal (obs.map Obs.x)).getD 0 0)) ∨
    ((k = -1 ∨ ∀ (T : Finset ℕ) (M : ℕ) (ε : ℝ), 0 ≤ ε → obs.length = 10 * M →
      (∀ a b, a < obs.length → b < obs.length → a / 10 ≠ b / 10 → lvcov a b ≤ ε) →
      (∀ p ∈ T, ∃ a, a / 10 = p ∧ ∃ o, obs[a]? = some o ∧ o.y ≠ none) → (T.card : ℝ) < 5 * (1 + 10 * ((M : ℝ) - 1) * ε)) ∧
    ∃ a, ∀ i, r.2.timeDeriv i = some 0 ∧ r.2.condslope i = a) := by
  have hmem : ∀ g, g ∈ goodObs obs ↔ g ∈ obs ∧ g.y ≠ none := by
    intro g
    unfold goodObs
    rw [List.mem_filter]
    cases g.y <;> simp
  have hgood : ∃ o ∈ obs, o.y ≠ none := by
    by_contra hno
    push Not at hno
    rw [fitCond_no_good obs lvcov _ opt hno] at hr
    cases hr
  obtain ⟨o0, ho0, hy0⟩ := hgood
  have hsg : ((goodObs obs).map Obs.x).Pairwise (· ≤ ·) := by
    refine hsort.sublist (List.Sublist.map _ ?_)
    unfold goodObs
    exact List.filter_sublist
  obtain ⟨n, hn⟩ : ∃ n, (goodObs obs).length = n + 1 := Nat.exists_eq_succ_of_ne_zero (by
    intro h
    have := (hmem o0).2 ⟨ho0, hy0⟩
    rw [List.length_eq_zero_iff.1 h] at this
    cases this)
  obtain ⟨m, hm⟩ : ∃ m, (uniqueReal (obs.map Obs.x)).length = m + 1 := Nat.exists_eq_succ_of_ne_zero (by
    intro h
    have := (uniqueReal_mem (obs.map Obs.x) o0.x).2 (List.mem_map_of_mem ho0)
    rw [List.length_eq_zero_iff.1 h] at this
    cases this)
  have hlen : (argwhere (fun o : Obs => o.y.isSome) obs).length = (goodObs obs).length := by
    rw [argwhere_length, List.countP_eq_length_filter]; rfl
  have hb : ∀ i : Fin (n + 1), (argwhere (fun o : Obs => o.y.isSome) obs).getD i.val 0 < obs.length := by
    intro i
    have hi : i.val < (argwhere (fun o : Obs => o.y.isSome) obs).length := by rw [hlen, hn]; exact i.isLt
    rw [List.getD_eq_getElem?_getD, List.getElem?_eq_getElem hi]
    exact argwhere_lt _ _ _ (List.getElem_mem hi)
  rw [fit_sorted obs hsg hn hm] at hr
  have hg : ∀ i : Fin (n + 1), i.val < (goodObs obs).length := fun i => by omega
  have hu : ∀ i : Fin (m + 1), i.val < (uniqueReal (obs.map Obs.x)).length := fun i => by omega
  have hgm : ∀ i : Fin (n + 1), (goodObs obs)[i.val]'(hg i) ∈ obs ∧ ((goodObs obs)[i.val]'(hg i)).y ≠ none := fun i => (hmem _).1 (List.getElem_mem _)
  have hmono : Monotone fun i : Fin (n + 1) => ((goodObs obs)[i.val]'(hg i)).x := by
    intro i j hij
    rcases hij.lt_or_eq with hlt | rfl
    · have := List.pairwise_iff_getElem.1 hsg i.val j.val (by rw [List.length_map]; exact hg i) (by rw [List.length_map]; exact hg j) hlt
      simpa using this
    · exact le_refl _
  have hmonou : Monotone fun i : Fin (m + 1) => (uniqueReal (obs.map Obs.x))[i.val]'(hu i) := by
    intro i j hij
    rcases hij.lt_or_eq with hlt | rfl
    · exact (List.pairwise_iff_getElem.1 (uniqueReal_strict _) i.val j.val (hu i) (hu j) hlt).le
    · exact le_refl _
  cases hf : fitCore (n := n) (m := m) (fun i => (uniqueReal (obs.map Obs.x))[i.val]'(hu i)) (fun i => ((goodObs obs)[i.val]'(hg i)).x)
        (fun i => (((goodObs obs)[i.val]'(hg i)).y).getD 0) (fun i => ((goodObs obs)[i.val]'(hg i)).err)
        (Matrix.of fun i j => lvcov ((argwhere (fun o : Obs => o.y.isSome) obs).getD i.val 0)
          ((argwhere (fun o : Obs => o.y.isSome) obs).getD j.val 0)) [.str "max_no_breaks", .int k] opt with
  | error e => rw [hf] at hr; cases hr
  | ok fit =>
    rw [hf] at hr
    obtain rfl := Option.some.inj (Except.ok.inj hr)
    rcases fit_linear_returned _ _ _ _ hmono (fun i => herr _ (hgm i).1 (hgm i).2) _
      ⟨fun i j => hcov _ _ (hb i) (hb j), fun i => hdiag _ (hb i)⟩ opt hmonou p q hq (fun i => by
        obtain ⟨h1, h2⟩ := hgm i
        obtain ⟨y, e⟩ := Option.ne_none_iff_exists'.1 h2
        rw [e, Option.getD_some]
        exact hy _ h1 y e) k hk fit hf with h | h
    · refine Or.inl ⟨_, (hgm 0).1, (hgm 0).2, ?_, fun i => ⟨(h i).1, ?_⟩⟩
      · intro o' ho' hy'
        obtain ⟨q', hq', e⟩ := List.mem_iff_getElem.1 ((hmem o').2 ⟨ho', hy'⟩)
        have := hmono (Fin.zero_le ⟨q', by omega⟩)
        rw [← e]
        exact this
      · rw [(h i).2, List.getD_eq_getElem?_getD, List.getD_eq_getElem?_getD, List.getElem?_eq_getElem (hu i), List.getElem?_eq_getElem (show 0 < (uniqueReal (obs.map Obs.x)).length by omega)]
        rfl
    · obtain ⟨h1, h⟩ := h
      refine Or.inr ⟨h1.imp_right fun h1 T M ε hε hM hfar hT => ?_, h⟩
      have hpos : ∀ i : Fin (n + 1), i.val < (argwhere (fun o : Obs => o.y.isSome) obs).length := fun i => by rw [hlen, hn]; exact i.isLt
      have hgetD : ∀ i : Fin (n + 1), (argwhere (fun o : Obs => o.y.isSome) obs).getD i.val 0 = (argwhere (fun o : Obs => o.y.isSome) obs)[i.val]'(hpos i) := by
        intro i
        rw [List.getD_eq_getElem?_getD, List.getElem?_eq_getElem (hpos i)]
        rfl
      have h2 := effective_of_apart _ (⟨fun i j => hcov _ _ (hb i) (hb j), fun i => hdiag _ (hb i)⟩ : IsPosCorrelation
        (Matrix.of fun i j : Fin (n + 1) => lvcov ((argwhere (fun o : Obs => o.y.isSome) obs).getD i.val 0)
          ((argwhere (fun o : Obs => o.y.isSome) obs).getD j.val 0)))
        (fun i : Fin (n + 1) => (argwhere (fun o : Obs => o.y.isSome) obs).getD i.val 0) (by
          intro i j hij
          dsimp only at hij
          rw [hgetD, hgetD, (argwhere_nodup _ _).getElem_inj_iff] at hij
          exact Fin.ext hij) M (fun i => by rw [← hM]; exact hb i) ε hε (fun i j hij => hfar _ _ (hb i) (hb j) hij) T (by
          intro p hp
          obtain ⟨a, ha, o, ho, hy⟩ := hT p hp
          have hm' : a ∈ argwhere (fun o : Obs => o.y.isSome) obs := (argwhere_mem _ _ _).2 ⟨o, ho, by
            obtain ⟨y, e⟩ := Option.ne_none_iff_exists'.1 hy
            rw [e]; rfl⟩
          obtain ⟨i, hi, e⟩ := List.mem_iff_getElem.1 hm'
          refine ⟨⟨i, by omega⟩, ?_⟩
          rw [hgetD]
          dsimp only
          rw [e, ha])
      have hD : 0 < 1 + 10 * ((M : ℝ) - 1) * ε := by
        have hM1 : 1 ≤ M := by
          have := List.length_pos_of_mem ho0
          omega
        have : (1 : ℝ) ≤ M := by exact_mod_cast hM1
        have := mul_nonneg (mul_nonneg (by norm_num : (0 : ℝ) ≤ 10) (sub_nonneg.2 this)) hε
        linarith
      exact (div_lt_iff₀ hD).1 (h2.trans_lt h1)

/-- Observations of profiles with ascending numbers are in ascending order. -/
theorem observations_sorted (G : Gsw) (cols : List Column) (index : List (List (Option ℕ))) (h : (cols.map Column.no).Pairwise (· < ·)) :
    ((observations G cols (tenOf index cols)).map Obs.x).Pairwise (· ≤ ·) := by
  have hz : List.zipWith (fun (c : Column) l => l.map (observation G c.no)) cols (tenOf index cols) =
      cols.zipIdx.map fun (c : Column × ℕ) => (tenCells index c.2 c.1).map (observation G c.1.no) := by
    apply List.ext_getElem?
    intro k
    rw [List.getElem?_zipWith, List.getElem?_map, tenOf, List.getElem?_map, List.getElem?_zipIdx]
    cases cols[k]? <;> rfl
  have hx : ∀ no o, (observation G no o).x = no := by
    intro no o
    unfold observation
    split <;> rfl
  unfold observations
  rw [hz, List.map_flatten, List.pairwise_flatten]
  constructor
  · intro l hl
    obtain ⟨l', hl', rfl⟩ := List.mem_map.1 hl
    obtain ⟨c, hc, rfl⟩ := List.mem_map.1 hl'
    rw [List.map_map]
    refine List.pairwise_of_forall_mem_list fun a ha b hb => ?_
    obtain ⟨o, -, rfl⟩ := List.mem_map.1 ha
    obtain ⟨o', -, rfl⟩ := List.mem_map.1 hb
    simp only [Function.comp, hx, le_refl]
  · rw [List.map_map, List.pairwise_map]
    have h' : (cols.zipIdx.map fun c : Column × ℕ => c.1.no).Pairwise (· < ·) := by
      have : (cols.zipIdx.map fun c : Column × ℕ => c.1.no) = cols.map Column.no := by
        conv_rhs => rw [← List.zipIdx_map_fst 0 cols]
        rw [List.map_map]
        rfl
      rw [this]
      exact h
    rw [List.pairwise_map] at h'
    refine h'.imp fun {a b} hab x hxa y hyb => ?_
    simp only [Function.comp, List.map_map] at hxa hyb
    obtain ⟨o, -, rfl⟩ := List.mem_map.1 hxa
    obtain ⟨o', -, rfl⟩ := List.mem_map.1 hyb
    simp only [Function.comp, hx]
    exact hab.le

/-- A good observation belongs to a profile that the fit uses. -/
theorem used_of_good {G : Gsw} {S : Settings} {cols : List Column} {th : Thetas ℝ}
    (hth : find10thetas S.bounds S.percent (cols.map fun c => c.cells.map toLevel) = .ok th) {o : Obs} (ho : o ∈ observations G cols (tenOf th.index cols))
    (hy : o.y ≠ none) : ∃ (p : ℕ) (c : Column), UsedAt S cols p ∧ cols[p]? = some c ∧ o.x = c.no := by
  obtain ⟨p, c, oc, hcp, hoc, rfl⟩ := mem_observations ho
  have hx : (observation G c.no oc).x = c.no := by
    unfold observation
    split <;> rfl
  refine ⟨p, c, ⟨th, hth, ?_⟩, hcp, hx⟩
  cases oc with
  | none => exact absurd rfl hy
  | some x =>
    unfold tenCells at hoc
    rcases List.mem_append.1 hoc with h | h
    · obtain ⟨lev, hlev, hx⟩ := List.mem_map.1 h
      obtain ⟨row, hrow, hl⟩ := List.mem_filterMap.1 hlev
      refine ⟨row, hrow, lev, c, x, ?_, hcp, hx, ?_⟩
      · cases hr : row[p]? with
        | none => rw [hr] at hl; cases hl
        | some z => rw [hr] at hl; rw [show z = some lev from hl]
      · obtain ⟨s, t, pr, mp, m⟩ := x
        cases s with
        | none => exact absurd rfl hy
        | some s =>
          cases t with
          | none => exact absurd rfl hy
          | some t =>
            cases m with
            | none => exact absurd rfl hy
            | some m => exact ⟨rfl, rfl, rfl⟩
    · exact absurd (List.mem_replicate.1 h).2 (by simp)

theorem flatten_ten {α : Type} : ∀ (L : List (List α)), (∀ l ∈ L, l.length = 10) → ∀ (p j : ℕ), j < 10 → L.flatten[10 * p + j]? = (L[p]?).bind fun l => l[j]?
  | [], _, p, j, _ => by simp
  | l :: L, h, 0, j, hj => by
    have hl := h l (by simp)
    rw [List.flatten_cons, List.getElem?_append_left (by omega)]
    simp
  | l :: L, h, p + 1, j, hj => by
    have hl := h l (by simp)
    rw [List.flatten_cons, List.getElem?_append_right (by omega), show 10 * (p + 1) + j - l.length = 10 * p + j by omega,
      flatten_ten L (fun l hl => h l (by simp [hl])) p j hj]
    simp

/-- A profile that the fit uses has a good one among its ten observations. -/
theorem good_of_used {E : Env} {S : Settings} {cols : List Column} {th : Thetas ℝ} (hG : SoundConductivity E.gsw)
    (hth : find10thetas S.bounds S.percent (cols.map fun c => c.cells.map toLevel) = .ok th) {p : ℕ} (h : UsedAt S cols p) :
    ∃ a, a / 10 = p ∧ ∃ o, (observations E.gsw cols (tenOf th.index cols))[a]? = some o ∧ o.y ≠ none := by
  obtain ⟨th', hth', row, hrow, lev, c, x, h1, h2, h3, h4⟩ := h
  obtain rfl := Except.ok.inj (hth.symm.trans hth')
  have hindex : th.index.length ≤ 10 := by
    obtain ⟨pl, rows, -, -, -, -, -, -, h7⟩ := find10thetas_ok hth
    rw [h7, List.length_map]
    exact (select_spec 10 _).2.1
  have hz : List.zipWith (fun (c : Column) l => l.map (observation E.gsw c.no)) cols (tenOf th.index cols) =
      cols.zipIdx.map fun (c : Column × ℕ) => (tenCells th.index c.2 c.1).map (observation E.gsw c.1.no) := by
    apply List.ext_getElem?
    intro k
    rw [List.getElem?_zipWith, List.getElem?_map, tenOf, List.getElem?_map, List.getElem?_zipIdx]
    cases cols[k]? <;> rfl
  have hmem : some x ∈ tenCells th.index p c := by
    unfold tenCells
    exact List.mem_append_left _ (List.mem_map.2 ⟨lev, List.mem_filterMap.2 ⟨row, hrow, by rw [h1]; rfl⟩, h3⟩)
  obtain ⟨j, hj, e⟩ := List.mem_iff_getElem.1 hmem
  have hj' : j < 10 := by rwa [tenCells_length _ hindex] at hj
  refine ⟨10 * p + j, by omega, observation E.gsw c.no (some x), ?_, ?_⟩
  · unfold observations
    rw [hz, flatten_ten _ ?_ p j hj', List.getElem?_map, List.getElem?_zipIdx, h2]
    · simp [List.getElem?_eq_getElem hj, e]
    · intro l hl
      obtain ⟨d, -, rfl⟩ := List.mem_map.1 hl
      rw [List.length_map, tenCells_length _ hindex]
  · obtain ⟨s, t, pr, mp, m⟩ := x
    obtain ⟨c1, c2, c3⟩ := h4
    obtain ⟨s, rfl⟩ := Option.isSome_iff_exists.1 c1
    obtain ⟨t, rfl⟩ := Option.isSome_iff_exists.1 c2
    obtain ⟨⟨ms, me⟩, rfl⟩ := Option.isSome_iff_exists.1 c3
    simp [observation, Verif.Mapping.npDiv, (hG.1 s t).ne']

/-- The coordinates of two different profiles of a segment. -/
theorem sub_apart {long lat : ℝ} {S : Settings} {cs sub : List Coord} {v ε : ℝ} (h : FarApart long lat S cs v ε) (hsub : gather cs (calIndex S v) = .ok sub) {p q : ℕ}
    (hp : p < (calIndex S v).length) (hq : q < (calIndex S v).length) (hpq : p ≠ q) :
    Real.exp (-(horizontalSq long lat (sub.getD p ⟨0, 0, 0⟩) (sub.getD q ⟨0, 0, 0⟩))) ≤ ε := by
  obtain ⟨-, hg⟩ := gather_inv hsub
  obtain ⟨x, hx, hx'⟩ := hg p _ (List.getElem?_eq_getElem hp)
  obtain ⟨y, hy, hy'⟩ := hg q _ (List.getElem?_eq_getElem hq)
  rw [List.getD_eq_getElem?_getD, List.getD_eq_getElem?_getD, hx, hy]
  exact h _ _ x y (fun e => hpq ((calIndex_nodup S v).getElem_inj_iff.1 e)) ((calIndex_mem S v _).1 (List.getElem_mem hp))
    ((calIndex_mem S v _).1 (List.getElem_mem hq)) hx' hy'

theorem segmentColumns_sorted (S : Settings) (data : List Column) (v : ℝ) (hl : data.length = S.calseries.length) (hno : (data.map Column.no).Pairwise (· < ·)) :
    ((segmentColumns S data v).map Column.no).Pairwise (· < ·) := by
  have h2 : ((data.zip S.calseries).map fun p => p.1.no).Pairwise (· < ·) := by
    have e := List.map_fst_zip hl.le
    have : (data.zip S.calseries).map (fun p => p.1.no) = data.map Column.no := by
      conv_rhs => rw [← e]
      rw [List.map_map]; rfl
    rw [this]; exact hno
  have h1 : (data.zip S.calseries).Pairwise fun a b => a.1.no < b.1.no := List.pairwise_map.1 h2
  unfold segmentColumns
  rw [List.map_map]
  exact List.pairwise_map.2 (h1.filter _)

/-- C146 with the condition for the second case. -/
theorem linear_drift_aux (E : Env) (S : Settings) (data : List Column) (cs : List Coord) (k : ℤ) (hk : -1 ≤ k)
    (hE : E.cov.long ≠ 0 ∧ E.cov.lat ≠ 0 ∧ E.cov.usePv = false) (hG : SoundConductivity E.gsw) (hb : S.breaks = []) (hm : S.maxBreaks = [[k]])
    (hl : data.length = S.calseries.length) (hno : (data.map Column.no).Pairwise (· < ·))
    (hs : ∀ c ∈ data, ∀ x ∈ c.cells, SoundCell x) (v a b : ℝ) (hv : v ≠ 0) (hb0 : b ≠ 0)
    (hq : ∀ (j : ℕ) (c : Column), data[j]? = some c → S.calseries[j]? = some v → ∀ x ∈ c.cells, ∀ s t ms me,
      x.sal = some s → x.ptmp = some t → x.mapped = some (ms, me) → E.gsw.cFromSP ms t = (a + b * c.no) * E.gsw.cFromSP s t)
    (out : CalibFile) (hout : calibrate E S data (some cs) = .ok out) (hseg : v ∈ S.calseries) :
    (∃ d, UnusedStart S (segmentColumns S data v) d ∧ ∀ (j : ℕ) (c : Column), data[j]? = some c → S.calseries[j]? = some v →
      ∃ o, out.columns[j]? = some o ∧ o.factor = some (a + b * c.no + b * d) ∧ o.timeDeriv = some b) ∨
    ((k = -1 ∨ ∀ (n : ℕ) (ε : ℝ), 0 ≤ ε → FarApart E.cov.long E.cov.lat S cs v ε → UsedProfiles S (segmentColumns S data v) n →
      (n : ℝ) < 5 * (1 + 10 * (((segmentColumns S data v).length : ℝ) - 1) * ε)) ∧
    ∃ f, ∀ (j : ℕ) (c : Column), data[j]? = some c → S.calseries[j]? = some v →
      ∃ o, out.columns[j]? = some o ∧ o.factor = some f ∧ o.timeDeriv = some 0) := by
  have hA : Accepted S := ⟨hb, Or.inr (Or.inl (by rw [hm]; rfl))⟩
  have hcol : ∀ (v : ℝ) (c : Column), c ∈ segmentColumns S data v → ∃ j : ℕ, data[j]? = some c ∧ S.calseries[j]? = some v := by
    intro v c h
    obtain ⟨⟨c, w⟩, hp, rfl⟩ := List.mem_map.1 h
    obtain ⟨hz, hw⟩ := List.mem_filter.1 hp
    obtain rfl : w = v := by simpa using hw
    obtain ⟨j, hj⟩ := List.getElem?_of_mem hz
    exact ⟨j, List.getElem?_zip_eq_some.1 hj⟩
  obtain ⟨j0, hj0⟩ := List.getElem?_of_mem hseg
  obtain ⟨i, hi⟩ := segment_of hj0 hv
  obtain ⟨D⟩ := accepted_done hA hout hi
  have hcols : D.cols = segmentColumns S data v := Except.ok.inj (D.hcols.symm.trans (segmentColumns_eq S data v hl))
  have hargs : D.args = [.str "max_no_breaks", .int k] := by
    have h1 := fitArgs_single S k hm i (List.getElem?_eq_some_iff.1 hi).1
    exact Except.ok.inj (D.hargs.symm.trans h1)
  have hsort := done_cols_no D hno
  have hlenm : D.cols.length = D.m + 1 := by
    have := (done_straight D).1
    rwa [uniqueReal_of_sorted _ hsort, List.length_map] at this
  have hf := D.hfit
  rw [hcols, hargs] at hf
  rw [hcols] at hsort
  obtain ⟨th, -, hth, -, -⟩ := fitSegment_ok hf
  have hg := goodTen_of (index := th.index) hG fun c hcm => hs c (segmentColumns_mem S data v c hcm)
  obtain ⟨lvcov, g1, g2, g3⟩ := fitSegment_apart E S i (segmentColumns S data v) D.sub [.str "max_no_breaks", .int k] hE th hth hg
  rw [g3] at hf
  have key := fitCond_linear _ (observations_sorted E.gsw _ th.index hsort) lvcov k hk (E.opt i) a b hb0 (by
    intro o ho y hy
    obtain ⟨p, c, oc, hcp, hoc, rfl⟩ := mem_observations ho
    cases oc with
    | none => cases hy
    | some x =>
      have hx := tenCells_mem hoc
      obtain ⟨j, hj1, hj2⟩ := hcol v c (List.mem_of_getElem? hcp)
      have hqx := hq j c hj1 hj2 x hx
      obtain ⟨s, t, pr, mp, m⟩ := x
      cases s with
      | none => cases hy
      | some s =>
        cases t with
        | none => cases hy
        | some t =>
          cases m with
          | none => cases hy
          | some m =>
            obtain ⟨ms, me⟩ := m
            have h1 := hqx s t ms me rfl rfl rfl
            have h2 := (hG.1 s t).ne'
            simp only [observation, Verif.Mapping.npDiv, if_neg h2, Option.some.injEq] at hy ⊢
            rw [← hy, h1]
            field_simp) hg.err (fun a b ha hb => (g1 a b ha hb).1) g2 ⟨_, D.f⟩ hf
  rw [uniqueReal_congr _ _ (observations_x E.gsw _ th.index), uniqueReal_of_sorted _ hsort] at key
  obtain ⟨hfl, hfp, -, -⟩ := spread_ok D.hfac
  have place : ∀ (j : ℕ) (c : Column), data[j]? = some c → S.calseries[j]? = some v → ∃ p : Fin (D.m + 1), (segmentColumns S data v)[p.val]? = some c ∧
      out.columns[j]? = some (columnOut E.gsw c (fitNumbers D.f p)) := by
    intro j c hd hsv
    obtain ⟨p, hp⟩ := List.getElem?_of_mem ((calIndex_mem S v j).2 hsv)
    obtain ⟨c', r, hcp, hd', hr, ho⟩ := D.hout p j hp
    obtain rfl : c' = c := Option.some.inj (hd'.symm.trans hd)
    have hplt : p < D.cols.length := (List.getElem?_eq_some_iff.1 hcp).1
    have := hfp hlenm.symm ⟨p, by omega⟩
    rw [hr] at this
    obtain rfl := Option.some.inj this
    exact ⟨⟨p, by omega⟩, by rw [← hcols]; exact hcp, ho⟩
  rcases key with ⟨o, ho, hoy, hmin, h⟩ | ⟨hfew, f, h⟩
  · left
    obtain ⟨p, c, hu, hcp, hox⟩ := used_of_good hth ho hoy
    have hpos : 0 < (segmentColumns S data v).length := by
      have := (List.getElem?_eq_some_iff.1 hcp).1
      omega
    refine ⟨c.no - (segmentColumns S data v)[0].no, ⟨p, c, _, hu, ?_, hcp, List.getElem?_eq_getElem hpos, rfl⟩, ?_⟩
    · rintro p' ⟨th', hth', row, hrow, lev, c', x, h1, h2, h3, h4⟩
      obtain rfl := Except.ok.inj (hth.symm.trans hth')
      obtain ⟨o', ho', hy', hx'⟩ := good_observation hG hrow h1 h2 h3 h4
      have hle := hmin o' ho' hy'
      rw [hox, hx'] at hle
      by_contra hlt
      obtain ⟨l1, e1⟩ := List.getElem?_eq_some_iff.1 h2
      obtain ⟨l2, e2⟩ := List.getElem?_eq_some_iff.1 hcp
      have := List.pairwise_iff_getElem.1 hsort p' p (by rw [List.length_map]; exact l1) (by rw [List.length_map]; exact l2) (not_le.1 hlt)
      rw [List.getElem_map, List.getElem_map, e1, e2] at this
      linarith
    · intro j c' hd hsv
      obtain ⟨p', hp', ho'⟩ := place j c' hd hsv
      refine ⟨_, ho', ?_, (h p').1⟩
      show some (D.f.condslope p') = _
      have e := (h p').2
      dsimp only at e
      rw [e, List.getD_eq_getElem?_getD, List.getElem?_map, hp', List.getD_eq_getElem?_getD, List.getElem?_map, List.getElem?_eq_getElem hpos, hox]
      rfl
  · right
    refine ⟨hfew.imp_right fun hfew n ε hε hfar ⟨T, hT1, hT2⟩ => ?_, f, fun j c hd hsv => ?_⟩
    · have hindex : th.index.length ≤ 10 := by
        obtain ⟨pl, rows, -, -, -, -, -, -, h7⟩ := find10thetas_ok hth
        rw [h7, List.length_map]
        exact (select_spec 10 _).2.1
      have hlen := observations_length E.gsw (segmentColumns S data v) th.index hindex
      have hlc : (calIndex S v).length = (segmentColumns S data v).length := by
        rw [← hcols]
        exact (gather_inv D.hcols).1.symm
      have hsub : gather cs (calIndex S v) = .ok D.sub := by
        have := D.hsub
        rwa [← Option.some.inj D.hcs] at this
      have := hfew T _ ε hε hlen (fun a b ha hb hab => (g1 a b ha hb).2.trans (sub_apart hfar hsub (by rw [hlc]; omega) (by rw [hlc]; omega) hab))
        fun p hp => good_of_used hG hth (hT2 p hp)
      rwa [hT1] at this
    obtain ⟨p', -, ho'⟩ := place j c hd hsv
    refine ⟨_, ho', ?_, (h p').1⟩
    show some (D.f.condslope p') = _
    rw [(h p').2]

/-- C146. Profile numbers ascend, and in a segment the mapped conductivity is the measured one times `a + b * number` (`b` is not 0). If the calibration completes, the
factors of the segment are either these numbers, all shifted by `b` times the distance from the first profile of the segment to the first one that the fit uses, with the time
derivative `b`; or they are all the same, with the time derivative 0. -/
theorem linear_drift (E : Env) (S : Settings) (data : List Column) (cs : List Coord) (k : ℤ) (hk : -1 ≤ k)
    (hE : E.cov.long ≠ 0 ∧ E.cov.lat ≠ 0 ∧ E.cov.usePv = false) (hG : SoundConductivity E.gsw) (hb : S.breaks = []) (hm : S.maxBreaks = [[k]])
    (hl : data.length = S.calseries.length) (hno : (data.map Column.no).Pairwise (· < ·))
    (hs : ∀ c ∈ data, ∀ x ∈ c.cells, SoundCell x) (v a b : ℝ) (hv : v ≠ 0) (hb0 : b ≠ 0)
    (hq : ∀ (j : ℕ) (c : Column), data[j]? = some c → S.calseries[j]? = some v → ∀ x ∈ c.cells, ∀ s t ms me,
      x.sal = some s → x.ptmp = some t → x.mapped = some (ms, me) → E.gsw.cFromSP ms t = (a + b * c.no) * E.gsw.cFromSP s t)
    (out : CalibFile) (hout : calibrate E S data (some cs) = .ok out) (hseg : v ∈ S.calseries) :
    (∃ d, UnusedStart S (segmentColumns S data v) d ∧ ∀ (j : ℕ) (c : Column), data[j]? = some c → S.calseries[j]? = some v →
      ∃ o, out.columns[j]? = some o ∧ o.factor = some (a + b * c.no + b * d) ∧ o.timeDeriv = some b) ∨
    ∃ f, ∀ (j : ℕ) (c : Column), data[j]? = some c → S.calseries[j]? = some v →
      ∃ o, out.columns[j]? = some o ∧ o.factor = some f ∧ o.timeDeriv = some 0 := by
  rcases linear_drift_aux E S data cs k hk hE hG hb hm hl hno hs v a b hv hb0 hq out hout hseg with h | ⟨-, h⟩
  · exact Or.inl h
  · exact Or.inr h

/-- C146. If a slope is allowed and enough profiles that the fit uses are far apart, the line is found: the factors are those of the drift, all shifted by `b` times the distance
from the first profile of the segment to the first one that the fit uses. -/
theorem drift_found (E : Env) (S : Settings) (data : List Column) (cs : List Coord) (k : ℤ) (hk : 0 ≤ k)
    (hE : E.cov.long ≠ 0 ∧ E.cov.lat ≠ 0 ∧ E.cov.usePv = false) (hG : SoundConductivity E.gsw) (hb : S.breaks = []) (hm : S.maxBreaks = [[k]])
    (hl : data.length = S.calseries.length) (hno : (data.map Column.no).Pairwise (· < ·))
    (hs : ∀ c ∈ data, ∀ x ∈ c.cells, SoundCell x) (v a b : ℝ) (hv : v ≠ 0) (hb0 : b ≠ 0)
    (hq : ∀ (j : ℕ) (c : Column), data[j]? = some c → S.calseries[j]? = some v → ∀ x ∈ c.cells, ∀ s t ms me,
      x.sal = some s → x.ptmp = some t → x.mapped = some (ms, me) → E.gsw.cFromSP ms t = (a + b * c.no) * E.gsw.cFromSP s t)
    (n : ℕ) (ε : ℝ) (hε : 0 ≤ ε) (hfar : FarApart E.cov.long E.cov.lat S cs v ε) (hused : UsedProfiles S (segmentColumns S data v) n)
    (hn : 5 * (1 + 10 * (((segmentColumns S data v).length : ℝ) - 1) * ε) ≤ n)
    (out : CalibFile) (hout : calibrate E S data (some cs) = .ok out) (hseg : v ∈ S.calseries) :
    ∃ d, UnusedStart S (segmentColumns S data v) d ∧ ∀ (j : ℕ) (c : Column), data[j]? = some c → S.calseries[j]? = some v →
      ∃ o, out.columns[j]? = some o ∧ o.factor = some (a + b * c.no + b * d) ∧ o.timeDeriv = some b := by
  rcases linear_drift_aux E S data cs k (by omega) hE hG hb hm hl hno hs v a b hv hb0 hq out hout hseg with h | ⟨h | h, -⟩
  · exact h
  · omega
  · exact absurd (h n ε hε hfar hused) (not_lt.2 hn)

/-- C146. If the fit also uses the first profile of the segment, the factors are exactly those of the drift, and the calibrated salinity is the mapped one. -/
theorem drift_recovered (E : Env) (S : Settings) (data : List Column) (cs : List Coord) (k : ℤ) (hk : 0 ≤ k)
    (hE : E.cov.long ≠ 0 ∧ E.cov.lat ≠ 0 ∧ E.cov.usePv = false) (hG : SoundConductivity E.gsw) (hb : S.breaks = []) (hm : S.maxBreaks = [[k]])
    (hl : data.length = S.calseries.length) (hno : (data.map Column.no).Pairwise (· < ·))
    (hs : ∀ c ∈ data, ∀ x ∈ c.cells, SoundCell x) (v a b : ℝ) (hv : v ≠ 0) (hb0 : b ≠ 0)
    (hq : ∀ (j : ℕ) (c : Column), data[j]? = some c → S.calseries[j]? = some v → ∀ x ∈ c.cells, ∀ s t ms me,
      x.sal = some s → x.ptmp = some t → x.mapped = some (ms, me) → E.gsw.cFromSP ms t = (a + b * c.no) * E.gsw.cFromSP s t)
    (n : ℕ) (ε : ℝ) (hε : 0 ≤ ε) (hfar : FarApart E.cov.long E.cov.lat S cs v ε) (hused : UsedProfiles S (segmentColumns S data v) n)
    (hn : 5 * (1 + 10 * (((segmentColumns S data v).length : ℝ) - 1) * ε) ≤ n)
    (h0 : UsedAt S (segmentColumns S data v) 0)
    (out : CalibFile) (hout : calibrate E S data (some cs) = .ok out) (j : ℕ) (c : Column) (hd : data[j]? = some c) (hsv : S.calseries[j]? = some v) :
    ∃ o, out.columns[j]? = some o ∧ o.factor = some (a + b * c.no) ∧ o.timeDeriv = some b ∧
      ((∀ s t, E.gsw.spFromC (E.gsw.cFromSP s t) t = some s) → ∀ (i : ℕ) (x : Cell) (s t ms me : ℝ), c.cells[i]? = some x → x.sal = some s → x.ptmp = some t →
        x.mapped = some (ms, me) → ∃ y, o.cells[i]? = some y ∧ y.calSal = some ms) := by
  obtain ⟨d, ⟨p, e, e₀, -, hmin, he, he₀, hd'⟩, h⟩ := drift_found E S data cs k hk hE hG hb hm hl hno hs v a b hv hb0 hq n ε hε hfar hused hn out hout (List.mem_of_getElem? hsv)
  obtain rfl : p = 0 := Nat.le_zero.1 (hmin 0 h0)
  obtain rfl : e = e₀ := Option.some.inj (he.symm.trans he₀)
  obtain ⟨o, ho, hf, ht⟩ := h j c hd hsv
  rw [hd', sub_self, mul_zero, add_zero] at hf
  refine ⟨o, ho, hf, ht, ?_⟩
  intro hinv i x s t ms me hx hxs hxt hxm
  obtain ⟨y, hy, hy1, -⟩ := calibrated_cells E S data (some cs) out hout j c _ hd ho _ hf i x hx
  refine ⟨y, hy, ?_⟩
  rw [(hy1 s t hxs hxt).2.2.1, ← hq j c hd hsv x (List.mem_of_getElem? hx) s t ms me hxs hxt hxm]
  exact hinv ms t

/-- C146, finding. If the fit does not use the first profile of the segment, no factor is that of the drift. -/
theorem drift_shifted (E : Env) (S : Settings) (data : List Column) (cs : List Coord) (k : ℤ) (hk : 0 ≤ k)
    (hE : E.cov.long ≠ 0 ∧ E.cov.lat ≠ 0 ∧ E.cov.usePv = false) (hG : SoundConductivity E.gsw) (hb : S.breaks = []) (hm : S.maxBreaks = [[k]])
    (hl : data.length = S.calseries.length) (hno : (data.map Column.no).Pairwise (· < ·))
    (hs : ∀ c ∈ data, ∀ x ∈ c.cells, SoundCell x) (v a b : ℝ) (hv : v ≠ 0) (hb0 : b ≠ 0)
    (hq : ∀ (j : ℕ) (c : Column), data[j]? = some c → S.calseries[j]? = some v → ∀ x ∈ c.cells, ∀ s t ms me,
      x.sal = some s → x.ptmp = some t → x.mapped = some (ms, me) → E.gsw.cFromSP ms t = (a + b * c.no) * E.gsw.cFromSP s t)
    (n : ℕ) (ε : ℝ) (hε : 0 ≤ ε) (hfar : FarApart E.cov.long E.cov.lat S cs v ε) (hused : UsedProfiles S (segmentColumns S data v) n)
    (hn : 5 * (1 + 10 * (((segmentColumns S data v).length : ℝ) - 1) * ε) ≤ n)
    (h0 : ¬ UsedAt S (segmentColumns S data v) 0)
    (out : CalibFile) (hout : calibrate E S data (some cs) = .ok out) (j : ℕ) (c : Column) (hd : data[j]? = some c) (hsv : S.calseries[j]? = some v) :
    ∃ o f, out.columns[j]? = some o ∧ o.factor = some f ∧ f ≠ a + b * c.no ∧ o.timeDeriv = some b := by
  obtain ⟨d, ⟨p, e, e₀, hu, -, he, he₀, hd'⟩, h⟩ := drift_found E S data cs k hk hE hG hb hm hl hno hs v a b hv hb0 hq n ε hε hfar hused hn out hout (List.mem_of_getElem? hsv)
  have hp : 0 < p := Nat.pos_of_ne_zero fun e => h0 (e ▸ hu)
  obtain ⟨o, ho, hf, ht⟩ := h j c hd hsv
  refine ⟨o, _, ho, hf, ?_, ht⟩
  have hsort : ((segmentColumns S data v).map Column.no).Pairwise (· < ·) := segmentColumns_sorted S data v hl hno
  obtain ⟨l1, e1⟩ := List.getElem?_eq_some_iff.1 he₀
  obtain ⟨l2, e2⟩ := List.getElem?_eq_some_iff.1 he
  have := List.pairwise_iff_getElem.1 hsort 0 p (by rw [List.length_map]; exact l1) (by rw [List.length_map]; exact l2) hp
  rw [List.getElem_map, List.getElem_map, e1, e2] at this
  have hd0 : d ≠ 0 := by
    rw [hd']
    exact (sub_pos.2 this).ne'
  have hne : b * d ≠ 0 := mul_ne_zero hb0 hd0
  intro e
  exact hne (by linarith)

/-! ## Example: seven profiles far apart with a growing offset, in one segment -/

def sevenProfs : List (List (Level ℝ)) := [calExProf, calExProf, calExProf, calExProf, calExProf, calExProf, calExProf]

theorem sevenPresLevels : presLevels sevenProfs = .ok ((List.range 10).map fun (i : ℕ) => (i : ℝ)) := by
  have h1 : nanmin (sevenProfs.flatten.map Level.ptmp) = some 0 := by simp [sevenProfs, calExProf, nanmin]
  have h2 : nanmax (sevenProfs.flatten.map Level.ptmp) = some 10 := by simp [sevenProfs, calExProf, nanmax]
  have h3 : nanmin (sevenProfs.flatten.map Level.pres) = some 0 := by simp [sevenProfs, calExProf, nanmin]
  have h4 : nanmax (sevenProfs.flatten.map Level.pres) = some 10 := by simp [sevenProfs, calExProf, nanmax]
  unfold presLevels
  rw [h1, h2, h3, h4]
  have f1 : ⌈((0:ℝ) * 10)⌉ = 0 := by norm_num
  have f2 : ⌊((10:ℝ) * 10)⌋ = 100 := by norm_num
  have f3 : ⌊((10:ℝ) - 0) / 10⌋ = 1 := by norm_num
  have f4 : (arange (0 : ℝ) 10 50).length = 1 := by
    unfold arange
    rw [List.length_map, List.length_range]
    norm_num
  simp only [f1, f2, f3, f4]
  norm_num [arange]
  rfl

theorem sevenThetaLevel (i : ℕ) (hi : i < 10) : thetaLevel sevenProfs (i : ℝ) = calExTheta i := by
  unfold thetaLevel calExTheta
  by_cases h : i = 0
  · subst h
    have : interpT ((0 : ℕ) : ℝ) calExProf = none := by
      unfold interpT
      have hg : goodPT calExProf = [(0, 0), (10, 10)] := by simp [goodPT, calExProf]
      rw [hg]
      simp
    simp only [sevenProfs, List.map_cons, List.map_nil, this, nanmean]
    simp
  · have h0 : (0 : ℝ) < i := by exact_mod_cast Nat.pos_of_ne_zero h
    have h1 : (i : ℝ) < 10 := by exact_mod_cast hi
    rw [if_neg h]
    simp only [sevenProfs, List.map_cons, List.map_nil, calExInterp _ h0 h1, nanmean]
    simp
    ring

def sevenSalRow (i : ℕ) : List (Option ℝ) :=
  if i = 0 then [none, none, none, none, none, none, none] else [some 35, some 35, some 35, some 35, some 35, some 35, some 35]

theorem sevenSalRow_eq (i : ℕ) (hi : i < 10) : salRow sevenProfs (calExTheta i) = .ok (sevenSalRow i) := by
  unfold calExTheta sevenSalRow
  by_cases h : i = 0
  · subst h; rfl
  · have h0 : (0 : ℝ) < i := by exact_mod_cast Nat.pos_of_ne_zero h
    have h1 : (i : ℝ) < 10 := by exact_mod_cast hi
    rw [if_neg h, if_neg h]
    unfold salRow sevenProfs
    simp only [List.mapM_cons, List.mapM_nil, calExSal _ h0 h1]
    rfl

theorem sevenVar : filteredVar (1 / 2 : ℝ) ((List.range 10).map sevenSalRow) = (List.range 10).map fun i => if i = 0 then none else some 0 := by
  have hz : nanvar1 ([some 35, some 35, some 35, some 35, some 35, some 35, some 35] : List (Option ℝ)) = some 0 := by
    have : ([some 35, some 35, some 35, some 35, some 35, some 35, some 35] : List (Option ℝ)).filterMap id = [35, 35, 35, 35, 35, 35, 35] := rfl
    unfold nanvar1
    rw [this]
    norm_num
  unfold filteredVar
  simp [List.range_succ, sevenSalRow, List.zipIdx, hz]
  norm_num

/-- The first of the ten levels of the seven profiles. -/
theorem sevenThetas : ∃ th, find10thetas calExBounds (1 / 2) sevenProfs = .ok th ∧ [some 0, some 0, some 0, some 0, some 0, some 0, some 0] ∈ th.index ∧
    ∀ row ∈ th.index, row.length = 7 ∧ ∀ z ∈ row, z = some 0 ∨ z = some 1 := by
  have hmask : sevenProfs.map (fun prof => prof.map (mask calExBounds)) = sevenProfs := by
    simp only [sevenProfs, List.map_cons, List.map_nil, exProf_mask]
  have htl : ((List.range 10).map fun (i : ℕ) => (i : ℝ)).map (thetaLevel sevenProfs) = (List.range 10).map calExTheta := by
    rw [List.map_map]
    apply List.map_congr_left
    intro i hi
    exact sevenThetaLevel i (List.mem_range.1 hi)
  have hrows : ((List.range 10).map calExTheta).mapM (salRow sevenProfs) = .ok ((List.range 10).map sevenSalRow) := by
    apply mapM_ok_of_map
    rw [List.map_map]
    apply List.map_congr_left
    intro i hi
    exact sevenSalRow_eq i (List.mem_range.1 hi)
  have hlev : ∀ i : ℕ, 0 < i → i < 10 → (((List.range 10).map calExTheta)[i]?).join = some (i : ℝ) := by
    intro i h0 h1
    rw [List.getElem?_map, List.getElem?_range h1]
    simp [calExTheta, h0.ne']
  unfold find10thetas
  rw [hmask]
  dsimp only
  rw [sevenPresLevels]
  dsimp only [bind, Except.bind]
  rw [htl, hrows]
  dsimp only [pure, Except.pure]
  rw [sevenVar, calSelect]
  refine ⟨_, rfl, ?_, ?_⟩
  · refine List.mem_map.2 ⟨1, by simp, ?_⟩
    rw [hlev 1 (by norm_num) (by norm_num)]
    simp only [sevenProfs, List.map_cons, List.map_nil]
    rw [exThetaIndex _ (by norm_num) (by norm_num)]
    norm_num
  · intro row hrow
    obtain ⟨i, hi, rfl⟩ := List.mem_map.1 hrow
    refine ⟨by simp [sevenProfs], fun z hz => ?_⟩
    have hi' : 0 < i ∧ i < 10 := by
      simp only [List.mem_cons, List.not_mem_nil, or_false] at hi
      omega
    rw [hlev i hi'.1 hi'.2] at hz
    obtain ⟨prof, hp, rfl⟩ := List.mem_map.1 hz
    obtain rfl : prof = calExProf := by
      simp only [sevenProfs, List.mem_cons, List.not_mem_nil, or_false] at hp
      tauto
    rw [exThetaIndex _ (by exact_mod_cast hi'.1) (by exact_mod_cast hi'.2)]
    split_ifs <;> simp

/-- A profile whose mapped conductivity is the measured one times `1 + n`, at both levels. -/
noncomputable def driftColumn (n : ℝ) : Column :=
  ⟨n, [⟨some 35, some 0, some 0, some 0, some (35 + Real.log (1 + n), 1)⟩, ⟨some 35, some 10, some 10, some 10, some (35 + Real.log (1 + n), 1)⟩]⟩
noncomputable def driftRest : List Column := [driftColumn 2, driftColumn 3, driftColumn 4, driftColumn 5, driftColumn 6, driftColumn 7]
noncomputable def driftSettings : Settings := ⟨[1, 1, 1, 1, 1, 1, 1], [[0]], [], calExBounds, 1 / 2⟩
def driftCoords : List Coord := [⟨0, 50, 4000⟩, ⟨40, 50, 4000⟩, ⟨80, 50, 4000⟩, ⟨120, 50, 4000⟩, ⟨160, 50, 4000⟩, ⟨200, 50, 4000⟩, ⟨240, 50, 4000⟩]

theorem drift_segment (c : Column) : segmentColumns driftSettings (c :: driftRest) 1 = c :: driftRest := by
  norm_num [segmentColumns, driftSettings, driftRest]

theorem driftFar : FarApart exCalEnv.cov.long exCalEnv.cov.lat driftSettings driftCoords 1 (1 / 300) := by
  intro j j' x y hj _ _ hx hy
  have hc : ∀ (j : ℕ) (x : Coord), driftCoords[j]? = some x → x.c0 = 40 * j ∧ x.c1 = 50 := by
    intro j x h
    match j with
    | 0 | 1 | 2 | 3 | 4 | 5 | 6 => obtain rfl := Option.some.inj h; norm_num
    | j + 7 => simp [driftCoords] at h
  obtain ⟨h1, h2⟩ := hc j x hx
  obtain ⟨h3, h4⟩ := hc j' y hy
  rw [h1, h2, h3, h4]
  have h5 : (1 : ℝ) ≤ ((j : ℝ) - j') ^ 2 := by
    have : (1 : ℤ) ≤ ((j : ℤ) - j') ^ 2 := by
      have : (j : ℤ) - j' ≠ 0 := by omega
      have := pow_pos (abs_pos.2 this) 2
      rw [sq_abs] at this
      omega
    exact_mod_cast this
  have h6 := Real.add_one_le_exp (400 * ((j : ℝ) - j') ^ 2)
  have h7 : (40 * (j : ℝ) - 40 * j') ^ 2 / exCalEnv.cov.lat ^ 2 + ((50 : ℝ) - 50) ^ 2 / exCalEnv.cov.long ^ 2 = 400 * ((j : ℝ) - j') ^ 2 := by
    norm_num [exCalEnv]
    ring
  rw [h7, Real.exp_neg, ← one_div]
  exact one_div_le_one_div_of_le (by norm_num) (by linarith)

theorem driftUsed (c : Column) (hc : c.cells.map takenLevel = calExProf) (p : ℕ) (d : Column) (x : Cell) (hp : (c :: driftRest)[p]? = some d) (hx : d.cells[0]? = some x)
    (hu : Comparable x) : UsedAt driftSettings (c :: driftRest) p := by
  obtain ⟨th, h1, h2, -⟩ := sevenThetas
  refine ⟨th, ?_, _, h2, 0, d, x, ?_, hp, hx, hu⟩
  · rw [← h1]
    congr 1
    rw [List.map_cons, hc]
    rfl
  · have : p < 7 := (List.getElem?_eq_some_iff.1 hp).1
    match p with
    | 0 | 1 | 2 | 3 | 4 | 5 | 6 => rfl
    | p + 7 => omega

theorem driftComparable (n : ℝ) : ∃ x, (driftColumn n).cells[0]? = some x ∧ Comparable x := ⟨_, rfl, rfl, rfl, rfl⟩

theorem driftUsedRest (c : Column) (hc : c.cells.map takenLevel = calExProf) (p : ℕ) (h0 : 0 < p) (h6 : p ≤ 6) : UsedAt driftSettings (c :: driftRest) p := by
  match p with
  | 1 => obtain ⟨x, h1, h2⟩ := driftComparable 2; exact driftUsed c hc _ _ x rfl h1 h2
  | 2 => obtain ⟨x, h1, h2⟩ := driftComparable 3; exact driftUsed c hc _ _ x rfl h1 h2
  | 3 => obtain ⟨x, h1, h2⟩ := driftComparable 4; exact driftUsed c hc _ _ x rfl h1 h2
  | 4 => obtain ⟨x, h1, h2⟩ := driftComparable 5; exact driftUsed c hc _ _ x rfl h1 h2
  | 5 => obtain ⟨x, h1, h2⟩ := driftComparable 6; exact driftUsed c hc _ _ x rfl h1 h2
  | 6 => obtain ⟨x, h1, h2⟩ := driftComparable 7; exact driftUsed c hc _ _ x rfl h1 h2
  | p + 7 => omega

theorem driftSix (c : Column) (hc : c.cells.map takenLevel = calExProf) : UsedProfiles driftSettings (segmentColumns driftSettings (c :: driftRest) 1) 6 := by
  rw [drift_segment]
  refine ⟨Finset.Icc 1 6, rfl, fun p hp => ?_⟩
  have := Finset.mem_Icc.1 hp
  exact driftUsedRest c hc p (by omega) this.2

theorem driftSound (n : ℝ) (x : Cell) (hx : x ∈ (driftColumn n).cells) : SoundCell x := by
  simp only [driftColumn, List.mem_cons, List.not_mem_nil, or_false] at hx
  rcases hx with rfl | rfl <;> refine ⟨fun t ht => ?_, fun s e he => ?_⟩
  · obtain rfl := Option.some.inj ht; norm_num
  · obtain ⟨-, rfl⟩ := Prod.mk.inj (Option.some.inj he); norm_num
  · obtain rfl := Option.some.inj ht; norm_num
  · obtain ⟨-, rfl⟩ := Prod.mk.inj (Option.some.inj he); norm_num

theorem driftRest_mem (d : Column) (h : d ∈ driftRest) : ∃ n : ℝ, 0 < n ∧ d = driftColumn n := by
  simp only [driftRest, List.mem_cons, List.not_mem_nil, or_false] at h
  rcases h with rfl | rfl | rfl | rfl | rfl | rfl <;> exact ⟨_, by norm_num, rfl⟩

theorem driftFactor (n : ℝ) (hn : 0 < n) : ∀ x ∈ (driftColumn n).cells, ∀ s t ms me, x.sal = some s → x.ptmp = some t → x.mapped = some (ms, me) →
    calExGsw.cFromSP ms t = (1 + 1 * (driftColumn n).no) * calExGsw.cFromSP s t := by
  intro x hx s t ms me h1 h2 h3
  have key : Real.exp (35 + Real.log (1 + n)) = (1 + 1 * n) * Real.exp 35 := by
    rw [Real.exp_add, Real.exp_log (by linarith)]
    ring
  simp only [driftColumn, List.mem_cons, List.not_mem_nil, or_false] at hx
  rcases hx with rfl | rfl
  · obtain rfl := Option.some.inj h1
    obtain ⟨rfl, rfl⟩ := Prod.mk.inj (Option.some.inj h3)
    exact key
  · obtain rfl := Option.some.inj h1
    obtain ⟨rfl, rfl⟩ := Prod.mk.inj (Option.some.inj h3)
    exact key

/-- The calibration of the seven profiles completes. -/
theorem driftRuns (c : Column) (hno : c.no = 1) (hc : c.cells.map toLevel = calExProf) (hs : ∀ x ∈ c.cells, SoundCell x) :
    ∃ out, calibrate exCalEnv driftSettings (c :: driftRest) (some driftCoords) = .ok out := by
  refine calibration_completes exCalEnv driftSettings _ driftCoords 0 ⟨?_, ?_, rfl⟩ calSound rfl rfl rfl rfl ?_ ?_ (Or.inr ⟨rfl, ?_⟩)
  · norm_num [exCalEnv]
  · norm_num [exCalEnv]
  · rw [List.map_cons, hno]
    norm_num [driftRest, driftColumn]
  · intro d hd x hx
    rcases List.mem_cons.1 hd with rfl | hd
    · exact hs x hx
    · obtain ⟨n, -, rfl⟩ := driftRest_mem d hd
      exact driftSound n x hx
  · intro v hv
    obtain rfl : v = 1 := by
      simp [segmentValues, driftSettings] at hv
      tauto
    rw [drift_segment]
    obtain ⟨th, h1, h⟩ := driftUsedRest c hc 1 (by norm_num) (by norm_num)
    refine ⟨th, h1, 1, 2, by norm_num, fun q hq => ?_⟩
    rcases hq with rfl | rfl
    · exact h
    · obtain ⟨th', h1', h'⟩ := driftUsedRest c hc 2 (by norm_num) (by norm_num)
      obtain rfl := Except.ok.inj (h1.symm.trans h1')
      exact h'

theorem driftHyp (c : Column) (hc : ∀ x ∈ c.cells, ∀ s t ms me, x.sal = some s → x.ptmp = some t → x.mapped = some (ms, me) →
    calExGsw.cFromSP ms t = (1 + 1 * c.no) * calExGsw.cFromSP s t) : ∀ (j : ℕ) (d : Column), (c :: driftRest)[j]? = some d → driftSettings.calseries[j]? = some 1 →
    ∀ x ∈ d.cells, ∀ s t ms me, x.sal = some s → x.ptmp = some t → x.mapped = some (ms, me) → calExGsw.cFromSP ms t = (1 + 1 * d.no) * calExGsw.cFromSP s t := by
  intro j d hd _
  rcases List.mem_cons.1 (List.mem_of_getElem? hd) with rfl | hd
  · exact hc
  · obtain ⟨n, hn, rfl⟩ := driftRest_mem d hd
    exact driftFactor n hn

/-- The line is recovered: all hypotheses of `drift_recovered` hold for seven profiles with the factors 2 to 8. -/
example : ∃ out, calibrate exCalEnv driftSettings (driftColumn 1 :: driftRest) (some driftCoords) = .ok out ∧
    ∃ o, out.columns[0]? = some o ∧ o.factor = some 2 ∧ o.timeDeriv = some 1 := by
  obtain ⟨out, hout⟩ := driftRuns (driftColumn 1) rfl rfl (driftSound 1)
  refine ⟨out, hout, ?_⟩
  obtain ⟨x, hx, hx'⟩ := driftComparable 1
  obtain ⟨o, ho, hf, ht, -⟩ := drift_recovered exCalEnv driftSettings (driftColumn 1 :: driftRest) driftCoords 0 le_rfl ⟨by norm_num [exCalEnv], by norm_num [exCalEnv], rfl⟩ calSound
    rfl rfl rfl (by norm_num [driftRest, driftColumn]) (by
      intro d hd
      rcases List.mem_cons.1 hd with rfl | hd
      · exact driftSound 1
      · obtain ⟨n, -, rfl⟩ := driftRest_mem d hd
        exact driftSound n) 1 1 1 one_ne_zero one_ne_zero (driftHyp _ (driftFactor 1 one_pos)) 6 (1 / 300) (by norm_num) driftFar (driftSix _ rfl) (by
      rw [drift_segment]
      norm_num [driftRest]) (by
      rw [drift_segment]
      exact driftUsed _ rfl 0 _ x rfl hx hx') out hout 0 _ rfl rfl
  refine ⟨o, ho, ?_, ht⟩
  rw [hf]
  norm_num [driftColumn]

/-- The line is shifted: the first profile has no mapped level, and the hypotheses of `drift_shifted` hold. -/
example : ∃ out, calibrate exCalEnv driftSettings (noneColumn 1 :: driftRest) (some driftCoords) = .ok out ∧
    ∃ o f, out.columns[1]? = some o ∧ o.factor = some f ∧ f ≠ 3 ∧ o.timeDeriv = some 1 := by
  have hs : ∀ x ∈ (noneColumn 1).cells, SoundCell x := by
    intro x hx
    simp only [noneColumn, List.mem_cons, List.not_mem_nil, or_false] at hx
    rcases hx with rfl | rfl
    · exact ⟨fun t ht => by obtain rfl := Option.some.inj ht; norm_num, fun s e he => by cases he⟩
    · exact ⟨fun t ht => by obtain rfl := Option.some.inj ht; norm_num, fun s e he => by cases he⟩
  have hnone : ∀ x ∈ (noneColumn 1).cells, x.mapped = none := by
    intro x hx
    simp only [noneColumn, List.mem_cons, List.not_mem_nil, or_false] at hx
    rcases hx with rfl | rfl <;> rfl
  obtain ⟨out, hout⟩ := driftRuns (noneColumn 1) rfl rfl hs
  refine ⟨out, hout, ?_⟩
  obtain ⟨o, f, ho, hf, hne, ht⟩ := drift_shifted exCalEnv driftSettings (noneColumn 1 :: driftRest) driftCoords 0 le_rfl ⟨by norm_num [exCalEnv], by norm_num [exCalEnv], rfl⟩ calSound
    rfl rfl rfl (by norm_num [driftRest, driftColumn, noneColumn]) (by
      intro d hd
      rcases List.mem_cons.1 hd with rfl | hd
      · exact hs
      · obtain ⟨n, -, rfl⟩ := driftRest_mem d hd
        exact driftSound n) 1 1 1 one_ne_zero one_ne_zero (driftHyp _ fun x hx s t ms me _ _ h => by rw [hnone x hx] at h; cases h) 6 (1 / 300) (by norm_num) driftFar
      (driftSix _ rfl) (by
      rw [drift_segment]
      norm_num [driftRest]) (by
      rw [drift_segment]
      rintro ⟨th, -, row, -, lev, c, x, -, hc, hx, -, -, hm⟩
      obtain rfl := Option.some.inj hc
      rw [hnone x (List.mem_of_getElem? hx)] at hm
      cases hm) out hout 1 _ rfl rfl
  refine ⟨o, f, ho, hf, fun e => hne ?_, ht⟩
  rw [e]
  norm_num [driftColumn]

end Verif.Props
