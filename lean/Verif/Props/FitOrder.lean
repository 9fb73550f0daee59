import Verif.Props.FitArgs

/-!
# C33: the order of the observations given to `fit_cond`
-/

set_option linter.unusedSectionVars false

namespace Verif.Props

open Verif.Np Verif.Spec Verif.BreakFit Verif.FitCond Matrix

theorem stableArgsort_sorted (l : List ℝ) (h : l.Pairwise (· ≤ ·)) : stableArgsort l = List.range l.length := by
  unfold stableArgsort stableSortPairs
  have hs : (l.zipIdx).Pairwise lexLe := by
    rw [List.pairwise_iff_getElem] at h ⊢
    intro i j hi hj hij
    rw [List.length_zipIdx] at hi hj
    simp only [List.getElem_zipIdx]
    rcases (h i j hi hj hij).lt_or_eq with hlt | heq
    · exact Or.inl hlt
    · exact Or.inr ⟨heq, by simp; omega⟩
  rw [List.Pairwise.insertionSort_eq hs, List.zipIdx_map_snd, List.range_eq_range']

theorem argwhereFrom_map {α β : Type} (p : α → Bool) (g : Option α → β) (F : ℕ → β) (l : List α) (s : ℕ) (hF : ∀ j, F (s + j) = g l[j]?) :
    (argwhereFrom p s l).map F = (l.filter p).map (fun a => g (some a)) := by
  induction l generalizing s with
  | nil => simp [argwhereFrom]
  | cons a l ih =>
    have h0 := hF 0
    have h1 := ih (s + 1) (fun j => by have := hF (j + 1); rw [show s + 1 + j = s + (j + 1) by omega]; simpa using this)
    unfold argwhereFrom
    by_cases hp : p a = true
    · rw [if_pos hp, List.filter_cons_of_pos hp, List.map_cons, List.map_cons, h1]
      simp at h0
      rw [h0]
    · rw [if_neg hp, List.filter_cons_of_neg hp, h1]

theorem argwhere_map {α β : Type} (p : α → Bool) (g : Option α → β) (l : List α) :
    (argwhere p l).map (fun i => g l[i]?) = (l.filter p).map (fun a => g (some a)) :=
  argwhereFrom_map p g _ l 0 (fun j => by simp)

/-- The good observations, in the order given. -/
def goodObs (obs : List Obs) : List Obs := obs.filter fun o => o.y.isSome

theorem map_range_getD (l : List ℝ) (n : ℕ) (h : n = l.length) : (List.range n).map (fun i => l.getD i 0) = l := by
  subst h
  apply List.ext_getElem
  · simp
  · intro i h1 h2
    simp [h2]

/-- `fit_cond` as it is: the profile numbers of the good observations are sorted, their values and errors are not. -/
theorem fitCond_eq (obs : List Obs) (lvcov : ℕ → ℕ → ℝ) (args : List Arg) (opt : Externals) :
    fitCond obs lvcov args opt =
      match (goodObs obs).length, (uniqueReal (obs.map Obs.x)).length with
      | n + 1, m + 1 =>
        (fitCore (n := n) (m := m) (fun i => (uniqueReal (obs.map Obs.x)).getD i.val 0)
          (fun i => (((goodObs obs).map Obs.x).insertionSort (· ≤ ·)).getD i.val 0)
          (fun i => ((goodObs obs).map fun o => o.y.getD 0).getD i.val 0) (fun i => ((goodObs obs).map Obs.err).getD i.val 0)
          (Matrix.of fun i j => lvcov ((argwhere (fun o : Obs => o.y.isSome) obs).getD i.val 0)
            ((argwhere (fun o : Obs => o.y.isSome) obs).getD j.val 0)) args opt).map fun f => some ⟨m, f⟩
      | _, _ => .ok none := by
  have hl : (argwhere (fun o : Obs => o.y.isSome) obs).length = (goodObs obs).length := by
    rw [argwhere_length, List.countP_eq_length_filter]; rfl
  have hx := argwhere_map (fun o : Obs => o.y.isSome) (fun q => (q.map Obs.x).getD 0) obs
  have hy := argwhere_map (fun o : Obs => o.y.isSome) (fun q => (q.bind Obs.y).getD 0) obs
  have he := argwhere_map (fun o : Obs => o.y.isSome) (fun q => (q.map Obs.err).getD 0) obs
  simp only [Option.map_some, Option.getD_some, Option.bind_some] at hx hy he
  unfold fitCond
  simp only [hx, hy, he, hl]
  rw [stableArgsort_sorted _ (List.pairwise_insertionSort _ _), map_range_getD _ _ (by simp [List.length_insertionSort]),
    map_range_getD _ _ (by simp [List.length_insertionSort])]
  rfl

theorem uniqueReal_perm (l l' : List ℝ) (h : l.Perm l') : uniqueReal l = uniqueReal l' := by
  unfold uniqueReal
  apply List.Perm.eq_of_pairwise (fun a b _ _ hab hba => le_antisymm hab hba) (List.pairwise_insertionSort _ _) (List.pairwise_insertionSort _ _)
  exact (List.perm_insertionSort _ _).trans ((h.dedup).trans (List.perm_insertionSort _ _).symm)

/-- C33, finding. Reordering the profile numbers against the values and the errors does not change the result at all. -/
theorem fit_ignores_pairing (n : ℕ) (x y err : Fin n → ℝ) (σ : Equiv.Perm (Fin n)) (lvcov : ℕ → ℕ → ℝ) (args : List Arg) (opt : Externals) :
    fitCond (List.ofFn fun i => ⟨x (σ i), some (y i), err i⟩) lvcov args opt =
      fitCond (List.ofFn fun i => ⟨x i, some (y i), err i⟩) lvcov args opt := by
  have hperm : (List.ofFn (x ∘ σ)).Perm (List.ofFn x) := by
    rw [List.perm_iff_count]
    intro a
    rw [← Multiset.coe_count, ← Multiset.coe_count]
    congr 1
    have e1 : ∀ f : Fin n → ℝ, ((List.ofFn f : List ℝ) : Multiset ℝ) = (Finset.univ : Finset (Fin n)).val.map f := by
      intro f
      rw [List.ofFn_eq_map]; rfl
    rw [e1, e1, ← Multiset.map_map]
    congr 1
    have := congrArg Finset.val (Finset.map_univ_equiv σ)
    simpa using this
  have hg : ∀ x : Fin n → ℝ, goodObs (List.ofFn fun i => (⟨x i, some (y i), err i⟩ : Obs)) = List.ofFn fun i => (⟨x i, some (y i), err i⟩ : Obs) := by
    intro x
    unfold goodObs
    rw [List.filter_eq_self]
    intro o ho
    obtain ⟨i, rfl⟩ := (List.mem_ofFn' _ _).1 ho
    rfl
  have ha : ∀ x : Fin n → ℝ, argwhere (fun o : Obs => o.y.isSome) (List.ofFn fun i => (⟨x i, some (y i), err i⟩ : Obs)) = List.range n := by
    intro x
    have h1 := argwhere_sorted (fun o : Obs => o.y.isSome) (List.ofFn fun i => (⟨x i, some (y i), err i⟩ : Obs))
    apply List.Perm.eq_of_pairwise (fun a b _ _ hab hba => absurd hab (lt_asymm hba)) h1 (List.pairwise_lt_range)
    rw [List.perm_ext_iff_of_nodup (argwhere_nodup _ _) List.nodup_range]
    intro i
    rw [argwhere_mem]
    simp [List.getElem?_ofFn]
  rw [fitCond_eq, fitCond_eq]
  simp only [hg, ha]
  have e1 : ∀ x : Fin n → ℝ, List.map Obs.x (List.ofFn fun i => (⟨x i, some (y i), err i⟩ : Obs)) = List.ofFn x := by
    intro x; rw [List.map_ofFn]; rfl
  rw [e1 (fun i => x (σ i)), e1 x]
  have e2 : (List.ofFn (fun i => x (σ i))).insertionSort (· ≤ ·) = (List.ofFn x).insertionSort (· ≤ ·) :=
    List.Perm.eq_of_pairwise (fun a b _ _ hab hba => le_antisymm hab hba) (List.pairwise_insertionSort _ _) (List.pairwise_insertionSort _ _)
      ((List.perm_insertionSort _ _).trans (hperm.trans (List.perm_insertionSort _ _).symm))
  rw [e2, show uniqueReal (List.ofFn fun i => x (σ i)) = uniqueReal (List.ofFn x) from uniqueReal_perm _ _ hperm]
  simp only [List.length_ofFn, List.map_ofFn]
  rfl

/-- If the good observations are listed with ascending profile numbers, `fit_cond` fits every value at its own profile number. -/
theorem fit_sorted (obs : List Obs) (hs : ((goodObs obs).map Obs.x).Pairwise (· ≤ ·)) {n m : ℕ} (hn : (goodObs obs).length = n + 1)
    (hm : (uniqueReal (obs.map Obs.x)).length = m + 1) (lvcov : ℕ → ℕ → ℝ) (args : List Arg) (opt : Externals) :
    fitCond obs lvcov args opt =
      (fitCore (n := n) (m := m) (fun i => (uniqueReal (obs.map Obs.x))[i.val]) (fun i => (goodObs obs)[i.val].x)
        (fun i => ((goodObs obs)[i.val].y).getD 0) (fun i => (goodObs obs)[i.val].err)
        (Matrix.of fun i j => lvcov ((argwhere (fun o : Obs => o.y.isSome) obs).getD i.val 0)
          ((argwhere (fun o : Obs => o.y.isSome) obs).getD j.val 0)) args opt).map fun f => some ⟨m, f⟩ := by
  have hb : ∀ i : Fin (n + 1), i.val < (goodObs obs).length := fun i => by omega
  have hc : ∀ i : Fin (m + 1), i.val < (uniqueReal (obs.map Obs.x)).length := fun i => by omega
  have e1 : (fun i : Fin (m + 1) => (uniqueReal (obs.map Obs.x))[i.val]'(hc i)) = fun i => (uniqueReal (obs.map Obs.x)).getD i.val 0 := by
    funext i; simp [hc]
  have e2 : (fun i : Fin (n + 1) => (goodObs obs)[i.val]'(hb i) |>.x) = fun i => ((goodObs obs).map Obs.x).getD i.val 0 := by
    funext i; simp [hb]
  have e3 : (fun i : Fin (n + 1) => ((goodObs obs)[i.val]'(hb i) |>.y).getD 0) = fun i => ((goodObs obs).map fun o => o.y.getD 0).getD i.val 0 := by
    funext i; simp [hb]
  have e4 : (fun i : Fin (n + 1) => (goodObs obs)[i.val]'(hb i) |>.err) = fun i => ((goodObs obs).map Obs.err).getD i.val 0 := by
    funext i; simp [hb]
  rw [e1, e2, e3, e4, fitCond_eq, List.Pairwise.insertionSort_eq hs, hn, hm]

theorem eq_ofFn_of_sorted {α : Type} [LinearOrder α] {n : ℕ} (l : List α) (hl : l.Pairwise (· < ·)) (f : Fin n → α) (hf : StrictMono f)
    (h : ∀ v, v ∈ l ↔ ∃ i, f i = v) : l = List.ofFn f := by
  have hp : (List.ofFn f).Pairwise (· < ·) := by
    rw [List.pairwise_ofFn]
    exact fun i j hij => hf hij
  refine List.Perm.eq_of_pairwise (fun a b _ _ hab hba => absurd hab (lt_asymm hba)) hl hp ?_
  rw [List.perm_ext_iff_of_nodup (hl.imp ne_of_lt) (List.nodup_ofFn.2 hf.injective)]
  intro v
  rw [h, List.mem_ofFn]

/-- C33, partial: if the good observations, those in the places `pos`, are listed with ascending profile numbers `x`, then `fit_cond` fits every value at its own profile
number, with its own error and its own correlations; `profile` are the different profile numbers. -/
theorem fit_order_partial (obs : List Obs) {n m : ℕ} (pos : Fin (n + 1) → ℕ) (hpos : StrictMono pos) (x y err : Fin (n + 1) → ℝ)
    (hget : ∀ i, obs[pos i]? = some ⟨x i, some (y i), err i⟩) (hall : ∀ (k : ℕ) (o : Obs), obs[k]? = some o → o.y ≠ none → ∃ i, pos i = k) (hx : Monotone x)
    (profile : Fin (m + 1) → ℝ) (hprof : StrictMono profile) (hmem : ∀ v, (∃ i, profile i = v) ↔ ∃ o ∈ obs, o.x = v)
    (lvcov : ℕ → ℕ → ℝ) (args : List Arg) (opt : Externals) :
    fitCond obs lvcov args opt = (fitCore profile x y err (Matrix.of fun i j => lvcov (pos i) (pos j)) args opt).map fun f => some ⟨m, f⟩ := by
  have ha : argwhere (fun o : Obs => o.y.isSome) obs = List.ofFn pos := by
    refine eq_ofFn_of_sorted _ (argwhere_sorted _ _) pos hpos fun k => ?_
    rw [argwhere_mem]
    constructor
    · rintro ⟨o, ho, hy⟩
      exact hall k o ho (by rw [← Option.isSome_iff_ne_none]; exact hy)
    · rintro ⟨i, rfl⟩
      exact ⟨_, hget i, rfl⟩
  have hg : ∀ {β : Type} (g : Option Obs → β), (goodObs obs).map (fun a => g (some a)) = List.ofFn fun i => g (some ⟨x i, some (y i), err i⟩) := by
    intro β g
    have := argwhere_map (fun o : Obs => o.y.isSome) g obs
    rw [ha, List.map_ofFn] at this
    unfold goodObs
    rw [← this]
    congr 1
    funext i
    simp only [Function.comp_apply, hget]
  have hu : uniqueReal (obs.map Obs.x) = List.ofFn profile := by
    refine eq_ofFn_of_sorted _ (uniqueReal_strict _) profile hprof fun v => ?_
    rw [uniqueReal_mem, hmem]
    simp
  have hlen : (goodObs obs).length = n + 1 := by
    have := congrArg List.length (hg fun _ => (0 : ℕ))
    simpa using this
  have ex : (goodObs obs).map Obs.x = List.ofFn x := by
    have := hg fun o => (o.map Obs.x).getD 0
    simpa using this
  have ey : (goodObs obs).map (fun o => o.y.getD 0) = List.ofFn y := by
    have := hg fun o => (o.bind Obs.y).getD 0
    simpa using this
  have ee : (goodObs obs).map Obs.err = List.ofFn err := by
    have := hg fun o => (o.map Obs.err).getD 0
    simpa using this
  have hsx : (List.ofFn x).insertionSort (· ≤ ·) = List.ofFn x := by
    apply List.Pairwise.insertionSort_eq
    rw [List.pairwise_ofFn]
    exact fun i j hij => hx hij.le
  have hD : ∀ {α : Type} {k : ℕ} (f : Fin (k + 1) → α) (z : α) (i : Fin (k + 1)), (List.ofFn f).getD i.val z = f i := by
    intro α k f z i
    rw [List.getD_eq_getElem?_getD, List.getElem?_ofFn, dif_pos i.isLt]
    rfl
  rw [fitCond_eq, hlen, hu, List.length_ofFn, ex, ey, ee, ha, hsx]
  simp only [hD]

/-- A missing value among ascending profiles, two values for the second of them: the hypotheses of `fit_order_partial` are met. -/
example : ∃ (pos : Fin 3 → ℕ) (x y err : Fin 3 → ℝ) (profile : Fin 3 → ℝ), StrictMono pos ∧
    (∀ i, ([⟨1, none, 1⟩, ⟨2, some 34, 1⟩, ⟨2, some 35, 2⟩, ⟨3, some 36, 1⟩] : List Obs)[pos i]? = some ⟨x i, some (y i), err i⟩) ∧ Monotone x ∧ StrictMono profile := by
  refine ⟨![1, 2, 3], ![2, 2, 3], ![34, 35, 36], ![1, 2, 1], ![1, 2, 3], ?_, ?_, ?_, ?_⟩
  · intro i j h; fin_cases i <;> fin_cases j <;> simp_all
  · intro i; fin_cases i <;> rfl
  · intro i j h; fin_cases i <;> fin_cases j <;> simp_all <;> norm_num
  · intro i j h; fin_cases i <;> fin_cases j <;> simp_all <;> norm_num

/-- C33 is false: the five observations (0,0), …, (4,4) listed upwards give slope 1, listed downwards slope -1. -/
theorem fit_order_matters (opt : Externals) :
    ∃ obs obs' : List Obs, obs.Perm obs' ∧ (∀ o ∈ obs, o.y = some o.x ∧ o.err = 1) ∧ ∃ m m' fit fit',
      fitCond obs (fun i j => if i = j then 1 else 0) [.str "max_no_breaks", .int 0] opt = .ok (some ⟨m, fit⟩) ∧ fit.coef = [0, 1] ∧
      fitCond obs' (fun i j => if i = j then 1 else 0) [.str "max_no_breaks", .int 0] opt = .ok (some ⟨m', fit'⟩) ∧ fit'.coef = [4, -1] := by
  have hcast : StrictMono (fun i : Fin 5 => (i.val : ℝ)) := fun a b h => by
    show (a.val : ℝ) < b.val
    exact_mod_cast h
  set up : List Obs := List.ofFn fun i : Fin 5 => (⟨(i.val : ℝ), some (i.val : ℝ), 1⟩ : Obs) with hup
  set down : List Obs := List.ofFn fun i : Fin 5 => (⟨(i.rev.val : ℝ), some (i.rev.val : ℝ), 1⟩ : Obs) with hdown
  have hrev : down = up.reverse := by
    rw [hup, hdown]
    simp [List.ofFn_succ, Fin.rev]
    norm_num
  have main : ∀ (y : Fin 5 → ℝ) (p q : ℝ), q ≠ 0 → (∀ i, y i = p + q * (i.val : ℝ)) → ∃ m fit,
      fitCond (List.ofFn fun i : Fin 5 => (⟨(i.val : ℝ), some (y i), 1⟩ : Obs)) (fun i j => if i = j then 1 else 0)
        [.str "max_no_breaks", .int 0] opt = .ok (some ⟨m, fit⟩) ∧ fit.coef = [p, q] := by
    intro y p q hq hy
    set o : List Obs := List.ofFn fun i : Fin 5 => (⟨(i.val : ℝ), some (y i), 1⟩ : Obs) with ho
    have hg : goodObs o = o := by
      unfold goodObs
      rw [List.filter_eq_self]
      intro a ha
      rw [ho] at ha
      obtain ⟨i, rfl⟩ := (List.mem_ofFn' _ _).1 ha
      rfl
    have hox : o.map Obs.x = List.ofFn fun i : Fin 5 => (i.val : ℝ) := by rw [ho, List.map_ofFn]; rfl
    have hlen : o.length = 5 := by rw [ho, List.length_ofFn]
    have hu : uniqueReal (o.map Obs.x) = List.ofFn fun i : Fin 5 => (i.val : ℝ) := by rw [hox, uniqueReal_ofFn _ hcast]
    have ha : argwhere (fun o : Obs => o.y.isSome) o = List.range 5 := by
      apply List.Perm.eq_of_pairwise (fun a b _ _ hab hba => absurd hab (lt_asymm hba)) (argwhere_sorted _ _) (List.pairwise_lt_range)
      rw [List.perm_ext_iff_of_nodup (argwhere_nodup _ _) List.nodup_range]
      intro i
      rw [argwhere_mem, ho]
      simp [List.getElem?_ofFn, -List.ofFn_succ]
    have hgx : ((goodObs o).map Obs.x).Pairwise (· ≤ ·) := by
      rw [hg, hox, List.pairwise_ofFn]
      exact fun i j h => (hcast h).le
    have e := fit_sorted o hgx (n := 4) (m := 4) (by rw [hg, hlen]) (by rw [hu, List.length_ofFn])
      (fun i j => if i = j then 1 else 0) [.str "max_no_breaks", .int 0] opt
    have hcov : (Matrix.of fun i j : Fin 5 => if (argwhere (fun o : Obs => o.y.isSome) o).getD i.val 0 =
        (argwhere (fun o : Obs => o.y.isSome) o).getD j.val 0 then (1 : ℝ) else 0) = 1 := by
      ext i j
      rw [ha]
      have : ∀ i : Fin 5, (List.range 5).getD i.val 0 = i.val := by decide
      simp only [Matrix.of_apply, this, Matrix.one_apply, Fin.ext_iff]
    have ex : (fun i : Fin 5 => (goodObs o)[i.val]'(by rw [hg, hlen]; exact i.isLt) |>.x) = fun i : Fin 5 => (i.val : ℝ) := by
      funext i
      have : ∀ l : List Obs, l = o → ∀ h : i.val < l.length, l[i.val].x = (i.val : ℝ) := by
        rintro l rfl h
        simp [ho, -List.ofFn_succ]
      exact this _ hg _
    have ey : (fun i : Fin 5 => ((goodObs o)[i.val]'(by rw [hg, hlen]; exact i.isLt) |>.y).getD 0) = y := by
      funext i
      have : ∀ l : List Obs, l = o → ∀ h : i.val < l.length, (l[i.val].y).getD 0 = y i := by
        rintro l rfl h
        simp [ho, -List.ofFn_succ]
      exact this _ hg _
    have ee : (fun i : Fin 5 => (goodObs o)[i.val]'(by rw [hg, hlen]; exact i.isLt) |>.err) = fun _ => 1 := by
      funext i
      have : ∀ l : List Obs, l = o → ∀ h : i.val < l.length, l[i.val].err = 1 := by
        rintro l rfl h
        simp [ho, -List.ofFn_succ]
      exact this _ hg _
    have exf : (fun i : Fin 5 => (uniqueReal (o.map Obs.x))[i.val]'(by rw [hu, List.length_ofFn]; exact i.isLt)) = fun i : Fin 5 => (i.val : ℝ) := by
      funext i
      simp [hu, -List.ofFn_succ]
    rw [hcov, ex, ey, ee, exf] at e
    obtain ⟨fit, h1, h2, -, -⟩ := fit_linear_aux (fun i : Fin 5 => (i.val : ℝ)) (fun i : Fin 5 => (i.val : ℝ)) y (fun _ => 1)
      (fun _ => one_pos) 1 isCorrelation_one opt hcast.monotone (hcast (by decide)) hcast.monotone
      (by rw [(ndf_bounds_sharp 4).1]; norm_num) p q hq hy 0 le_rfl
      (noneDegenerate_line _ _ _ (fun _ => one_pos) _ _ hcast.monotone (hcast (by decide)))
    refine ⟨4, fit, ?_, by simpa using h2⟩
    rw [e, h1]
    rfl
  obtain ⟨m, fit, h1, h2⟩ := main (fun i => (i.val : ℝ)) 0 1 one_ne_zero (fun i => by simp)
  obtain ⟨m', fit', h3, h4⟩ := main (fun i => (i.rev.val : ℝ)) 4 (-1) (by norm_num) (fun i => by
    have : i.rev.val + i.val = 4 := by rw [Fin.val_rev]; omega
    have : (i.rev.val : ℝ) + i.val = 4 := by exact_mod_cast this
    linarith)
  refine ⟨up, down, ?_, ?_, m, m', fit, fit', h1, h2, ?_, h4⟩
  · rw [hrev]; exact (List.reverse_perm _).symm
  · intro o ho
    rw [hup] at ho
    obtain ⟨i, rfl⟩ := (List.mem_ofFn' _ _).1 ho
    exact ⟨rfl, rfl⟩
  · have := fit_ignores_pairing 5 (fun i => (i.val : ℝ)) (fun i => (i.rev.val : ℝ)) (fun _ => 1) Fin.revPerm
      (fun i j => if i = j then 1 else 0) [.str "max_no_breaks", .int 0] opt
    rw [← h3, ← this]
    rfl

/-! ## C74: profile means -/

/-- Two profiles with the values 0, 0 and 1, 1 and equal errors get the means 0 and 1/2. -/
theorem finish_profile_mean_wrong (loops : ℤ) (opt : Externals) (f : Fitted) :
    let x : Fin 4 → ℝ := ![1, 1, 2, 2]
    let y : Fin 4 → ℝ := ![0, 0, 1, 1]
    (finish loops opt x y (scaled x y fun _ => 1) 1 (![1, 2] : Fin 2 → ℝ) f).staMean 1 = some (1 / 2) := by
  intro x y
  have hmean : mean y = 1 / 2 := by simp [mean, y, Fin.sum_univ_succ]; norm_num
  have hstd : std y = 1 / 2 := by
    unfold std
    rw [hmean]
    rw [Real.sqrt_eq_iff_mul_self_eq] <;> norm_num [mean, y, Fin.sum_univ_succ]
  have hys : yScale y = 1 / 2 := by unfold yScale; rw [hstd]; norm_num
  have hxc : xCentre x = 3 / 2 := by simp [xCentre, x, Fin.last]; norm_num
  have hxs : xScale x = 1 / 2 := by simp [xScale, x, Fin.last]; norm_num
  have hxf : (scaled x y fun _ => 1).xf = ![-1, -1, 1, 1] := by
    funext i
    show (x i - xCentre x) / xScale x = _
    rw [hxc, hxs]
    fin_cases i <;> norm_num [x]
  have hyf : (scaled x y fun _ => 1).yf = ![-1, -1, 1, 1] := by
    funext i
    show (y i - mean y) / yScale y = _
    rw [hmean, hys]
    fin_cases i <;> norm_num [y]
  show (staMean (scaled x y fun _ => 1) (((![1, 2] : Fin 2 → ℝ) 1 - xCentre x) / xScale x)).map (fun v => v * yScale y + mean y) = _
  rw [hxc, hxs, hmean, hys, show ((![1, 2] : Fin 2 → ℝ) 1 - 3 / 2) / (1 / 2) = 1 by norm_num]
  have hu : uniqueReal (List.ofFn (scaled x y fun _ => 1).xf) = [-1, 1] := by
    rw [hxf]
    unfold uniqueReal
    apply List.Perm.eq_of_pairwise (fun a b _ _ hab hba => le_antisymm hab hba) (List.pairwise_insertionSort _ _) (by simp)
    refine (List.perm_insertionSort _ _).trans ?_
    rw [List.perm_ext_iff_of_nodup (List.nodup_dedup _) (by simp; norm_num)]
    intro v
    simp
  have hw : ∀ i j, (scaled x y fun _ => 1).w i = (scaled x y fun _ => 1).w j := by
    intro i j
    rfl
  have hwp := scaled_w_pos x y (fun _ => 1) (fun _ => one_pos)
  unfold staMean staWindow
  simp only [hu, hyf]
  have hne : (-1 : ℝ) ≠ 1 := by norm_num
  have hne' : (1 : ℝ) ≠ -1 := by norm_num
  have hidx : List.idxOf (1 : ℝ) [-1, 1] = 1 := by simp [List.idxOf_cons, hne]
  have hlast : List.idxOf (1 : ℝ) (List.ofFn (scaled x y fun _ => 1).xf) = 2 := by rw [hxf]; simp [List.idxOf_cons, hne]
  have hfirst : List.idxOf (-1 : ℝ) (List.ofFn (scaled x y fun _ => 1).xf) = 0 := by rw [hxf]; simp [List.idxOf_cons]
  rw [if_pos (by simp), hidx, if_neg (by norm_num), hlast]
  simp only [Nat.sub_self, List.getD_cons_zero, hfirst]
  have hsel : (Finset.univ.filter fun i : Fin 4 => 0 + 1 ≤ i.val ∧ i.val ≤ 2) = {1, 2} := by decide
  rw [hsel, Finset.sum_pair (by decide), Finset.sum_pair (by decide), hw 1 2]
  have := (hwp 2).ne'
  simp

end Verif.Props
