import Verif.Props.Piecewise
import Verif.Props.FitDetermined
import Verif.Lemmas.Helper

/-! # When a calibration succeeds, and an example -/

set_option linter.unusedSectionVars false

namespace Verif.Props
open Verif.Np Verif.Stats Verif.FitCond Verif.Thetas Verif.Piecewise Verif.Spec

/-! ## Success (C107) -/

/-- What `fit_cond` works on when there are good observations. -/
theorem fitCond_core (obs : List Obs) (lvcov : ℕ → ℕ → ℝ) (args : List Arg) (opt : Externals)
    (hgood : ∃ o ∈ obs, o.y ≠ none) (herr : ∀ o ∈ obs, o.y ≠ none → 0 < o.err)
    (hcov : ∀ a b, a < obs.length → b < obs.length → 0 ≤ lvcov a b ∧ lvcov a b ≤ 1) (hdiag : ∀ a, a < obs.length → lvcov a a = 1) :
    ∃ (n m : ℕ) (xfit : Fin (m + 1) → ℝ) (x y err : Fin (n + 1) → ℝ) (cov : Matrix (Fin (n + 1)) (Fin (n + 1)) ℝ), (goodObs obs).length = n + 1 ∧ Monotone x ∧ (∀ i, 0 < err i) ∧
      IsPosCorrelation cov ∧ (∀ i, ∃ o ∈ obs, o.y = some (y i)) ∧
      (∀ o ∈ obs, o.y ≠ none → ∃ i, x i = o.x) ∧
      fitCond obs lvcov args opt = (fitCore xfit x y err cov args opt).map fun fit => some ⟨m, fit⟩ := by
  obtain ⟨o, ho, hy⟩ := hgood
  have hmem : ∀ g ∈ goodObs obs, g ∈ obs ∧ g.y ≠ none := by
    intro g hg
    unfold goodObs at hg
    rw [List.mem_filter] at hg
    exact ⟨hg.1, by intro hc; rw [hc] at hg; cases hg.2⟩
  have hg : (goodObs obs).length ≠ 0 := by
    intro h
    have h1 : o ∈ goodObs obs := by
      unfold goodObs
      rw [List.mem_filter]
      exact ⟨ho, by cases hc : o.y with
        | none => exact absurd hc hy
        | some y => rfl⟩
    rw [List.length_eq_zero_iff.1 h] at h1
    cases h1
  have hu : (uniqueReal (obs.map Obs.x)).length ≠ 0 := by
    intro h
    have := (uniqueReal_mem (obs.map Obs.x) o.x).2 (List.mem_map_of_mem ho)
    rw [List.length_eq_zero_iff.1 h] at this
    cases this
  have hlen : (argwhere (fun o : Obs => o.y.isSome) obs).length = (goodObs obs).length := by
    rw [argwhere_length, List.countP_eq_length_filter]; rfl
  obtain ⟨n, hn⟩ := Nat.exists_eq_succ_of_ne_zero hg
  obtain ⟨m, hm⟩ := Nat.exists_eq_succ_of_ne_zero hu
  have hb : ∀ i : Fin (n + 1), (argwhere (fun o : Obs => o.y.isSome) obs).getD i.val 0 < obs.length := by
    intro i
    have hi : i.val < (argwhere (fun o : Obs => o.y.isSome) obs).length := by rw [hlen, hn]; exact i.isLt
    rw [List.getD_eq_getElem?_getD, List.getElem?_eq_getElem hi]
    exact argwhere_lt _ _ _ (List.getElem_mem hi)
  refine ⟨n, m, fun i => (uniqueReal (obs.map Obs.x)).getD i.val 0, fun i => (((goodObs obs).map Obs.x).insertionSort (· ≤ ·)).getD i.val 0,
    fun i => ((goodObs obs).map fun o => o.y.getD 0).getD i.val 0, fun i => ((goodObs obs).map Obs.err).getD i.val 0,
    Matrix.of fun i j => lvcov ((argwhere (fun o : Obs => o.y.isSome) obs).getD i.val 0) ((argwhere (fun o : Obs => o.y.isSome) obs).getD j.val 0),
    hn, ?_, ?_, ⟨fun i j => hcov _ _ (hb i) (hb j), fun i => hdiag _ (hb i)⟩, ?_, ?_, ?_⟩
  · intro i j hij
    rcases hij.lt_or_eq with hlt | rfl
    · have hl : (((goodObs obs).map Obs.x).insertionSort (· ≤ ·)).length = n + 1 := by
        rw [List.length_insertionSort, List.length_map, hn]
      have hi : i.val < (((goodObs obs).map Obs.x).insertionSort (· ≤ ·)).length := by omega
      have hj : j.val < (((goodObs obs).map Obs.x).insertionSort (· ≤ ·)).length := by omega
      show (((goodObs obs).map Obs.x).insertionSort (· ≤ ·)).getD i.val 0 ≤ (((goodObs obs).map Obs.x).insertionSort (· ≤ ·)).getD j.val 0
      rw [List.getD_eq_getElem?_getD, List.getD_eq_getElem?_getD, List.getElem?_eq_getElem hi, List.getElem?_eq_getElem hj]
      exact List.pairwise_iff_getElem.1 (List.pairwise_insertionSort _ _) _ _ hi hj hlt
    · exact le_refl _
  · intro i
    have hi : i.val < (goodObs obs).length := by rw [hn]; exact i.isLt
    dsimp only
    rw [List.getD_eq_getElem?_getD, List.getElem?_map, List.getElem?_eq_getElem hi]
    exact herr _ (hmem _ (List.getElem_mem hi)).1 (hmem _ (List.getElem_mem hi)).2
  · intro i
    have hi : i.val < (goodObs obs).length := by rw [hn]; exact i.isLt
    refine ⟨_, (hmem _ (List.getElem_mem hi)).1, ?_⟩
    dsimp only
    rw [List.getD_eq_getElem?_getD, List.getElem?_map, List.getElem?_eq_getElem hi]
    have := (hmem _ (List.getElem_mem hi)).2
    cases hc : (goodObs obs)[i.val].y with
    | none => exact absurd hc this
    | some y => rw [Option.map_some, Option.getD_some, hc]; rfl
  · intro o ho hy
    have hm : o.x ∈ ((goodObs obs).map Obs.x).insertionSort (· ≤ ·) := by
      rw [List.mem_insertionSort]
      refine List.mem_map_of_mem ?_
      unfold goodObs
      rw [List.mem_filter]
      exact ⟨ho, by cases hc : o.y with
        | none => exact absurd hc hy
        | some y => rfl⟩
    obtain ⟨q, hq, e⟩ := List.mem_iff_getElem.1 hm
    refine ⟨⟨q, by rwa [List.length_insertionSort, List.length_map, hn] at hq⟩, ?_⟩
    dsimp only
    rw [List.getD_eq_getElem?_getD, List.getElem?_eq_getElem hq, e]
    rfl
  · rw [fitCond_eq, hn, hm]

/-- At most an offset, or a line with good observations at two profiles, or at most four good observations. -/
theorem fitCond_returns (obs : List Obs) (lvcov : ℕ → ℕ → ℝ) (k : ℤ) (opt : Externals)
    (hk : (k = -1 ∧ ∃ o ∈ obs, o.y ≠ none) ∨ (k = 0 ∧ ∃ o ∈ obs, o.y ≠ none ∧ ∃ o' ∈ obs, o'.y ≠ none ∧ o.x ≠ o'.x) ∨
      -1 ≤ k ∧ (∃ o ∈ obs, o.y ≠ none) ∧ (goodObs obs).length ≤ 4)
    (herr : ∀ o ∈ obs, o.y ≠ none → 0 < o.err)
    (hcov : ∀ a b, a < obs.length → b < obs.length → 0 ≤ lvcov a b ∧ lvcov a b ≤ 1) (hdiag : ∀ a, a < obs.length → lvcov a a = 1) :
    ∃ r : (m : ℕ) × Fit m, fitCond obs lvcov [.str "max_no_breaks", .int k] opt = .ok (some r) := by
  have hgood : ∃ o ∈ obs, o.y ≠ none := by
    rcases hk with ⟨-, h⟩ | ⟨-, o, ho, hy, -⟩ | ⟨-, h, -⟩
    · exact h
    · exact ⟨o, ho, hy⟩
    · exact h
  obtain ⟨n, m, xfit, x, y, err, cov, hn, hx, he, hc, -, hxo, hret⟩ := fitCond_core obs lvcov [.str "max_no_breaks", .int k] opt hgood herr hcov hdiag
  rcases hk with ⟨rfl, -⟩ | ⟨rfl, o, ho, hy, o', ho', hy', hne⟩ | ⟨hk, -, hl⟩
  · obtain ⟨fit, hfit, -⟩ := fit_offset_when_few xfit x y err he cov hc opt (-1) (by norm_num) (Or.inl rfl)
    exact ⟨_, by rw [hret, hfit]; rfl⟩
  · have h0 : x 0 < x (Fin.last n) := by
      obtain ⟨i, hi⟩ := hxo o ho hy
      obtain ⟨j, hj⟩ := hxo o' ho' hy'
      rw [← hi, ← hj] at hne
      by_contra hle
      have key : ∀ i, x i = x 0 := fun i => le_antisymm ((hx (Fin.le_last i)).trans (not_lt.1 hle)) (hx (Fin.zero_le i))
      exact hne ((key i).trans (key j).symm)
    have := fit_returns_without_breaks xfit x y err he cov hc opt hx
    rw [if_pos (Or.inr h0)] at this
    obtain ⟨fit, hfit⟩ := this
    exact ⟨_, by rw [hret, hfit]; rfl⟩
  · have h4 : effectiveNumber cov ≤ (n + 1 : ℕ) := (ndf_between cov hc).2
    have h4' : ((n + 1 : ℕ) : ℝ) ≤ 4 := by exact_mod_cast hn ▸ hl
    obtain ⟨fit, hfit, -⟩ := fit_offset_when_few xfit x y err he cov hc opt k hk (Or.inr (by linarith))
    exact ⟨_, by rw [hret, hfit]; rfl⟩

/-- Equal good values. -/
theorem fitCond_constant (obs : List Obs) (lvcov : ℕ → ℕ → ℝ) (k : ℤ) (hk : -1 ≤ k) (opt : Externals) (q : ℝ) (hq : ∀ o ∈ obs, ∀ y, o.y = some y → y = q)
    (herr : ∀ o ∈ obs, o.y ≠ none → 0 < o.err)
    (hcov : ∀ a b, a < obs.length → b < obs.length → 0 ≤ lvcov a b ∧ lvcov a b ≤ 1) (hdiag : ∀ a, a < obs.length → lvcov a a = 1)
    (r : (m : ℕ) × Fit m) (hr : fitCond obs lvcov [.str "max_no_breaks", .int k] opt = .ok (some r)) :
    (∀ i, r.2.condslope i = q) ∧ ∀ i, r.2.timeDeriv i = some 0 := by
  have hgood : ∃ o ∈ obs, o.y ≠ none := by
    by_contra hno
    push Not at hno
    rw [fitCond_no_good obs lvcov _ opt hno] at hr
    cases hr
  obtain ⟨n, m, xfit, x, y, err, cov, hn, hx, he, hc, hy, -, hret⟩ := fitCond_core obs lvcov [.str "max_no_breaks", .int k] opt hgood herr hcov hdiag
  rw [hret] at hr
  cases hf : fitCore xfit x y err cov [.str "max_no_breaks", .int k] opt with
  | error e => rw [hf] at hr; cases hr
  | ok fit =>
    rw [hf] at hr
    obtain rfl := Option.some.inj (Except.ok.inj hr)
    exact (fit_constant_returned xfit x y err he cov hc opt q (fun i => by obtain ⟨o, ho, hoy⟩ := hy i; exact hq o ho _ hoy) k hk fit hf).2

theorem tenCells_length (index : List (List (Option ℕ))) (h : index.length ≤ 10) (p : ℕ) (c : Column) : (tenCells index p c).length = 10 := by
  unfold tenCells
  have := List.length_filterMap_le (fun row : List (Option ℕ) => (row[p]?).join) index
  simp only [List.length_append, List.length_map, List.length_replicate]
  omega

theorem observations_length (G : Gsw) (cols : List Column) (index : List (List (Option ℕ))) (h : index.length ≤ 10) :
    (observations G cols (tenOf index cols)).length = 10 * cols.length := by
  have hz : List.zipWith (fun (c : Column) l => l.map (observation G c.no)) cols (tenOf index cols) =
      cols.zipIdx.map fun (c : Column × ℕ) => (tenCells index c.2 c.1).map (observation G c.1.no) := by
    apply List.ext_getElem?
    intro k
    rw [List.getElem?_zipWith, List.getElem?_map, tenOf, List.getElem?_map, List.getElem?_zipIdx]
    cases cols[k]? <;> rfl
  unfold observations
  rw [hz, List.length_flatten, List.map_map]
  have : (List.length ∘ fun (c : Column × ℕ) => (tenCells index c.2 c.1).map (observation G c.1.no)) = fun _ => 10 := by
    funext c
    simp only [Function.comp, List.length_map]
    exact tenCells_length index h _ _
  rw [this]
  simp [List.sum_replicate, mul_comm]

/-- What the ten levels of a segment must give: positive errors and temperatures within the table of `build_cov`. -/
structure GoodTen (E : Env) (cols : List Column) (index : List (List (Option ℕ))) : Prop where
  err : ∀ o ∈ observations E.gsw cols (tenOf index cols), o.y ≠ none → 0 < o.err
  temp : ∀ l ∈ tenOf index cols, ∀ x t, some x ∈ l → Cell.ptmp x = some t → -2 ≤ t ∧ t ≤ 30

theorem vertical_le_one {m : ℕ} {pt : Fin m → Option ℝ} {i j : Fin m} {v : ℝ} (h : VerticalCorrelation pt i j v) : v ≤ 1 := by
  obtain ⟨h1, h2, h3⟩ := h
  by_cases hij : i = j
  · exact (h1 hij).le
  · cases hi : pt i with
    | none => exact (h2 (Or.inl hi)).le
    | some a =>
      cases hj : pt j with
      | none => exact (h2 (Or.inr hj)).le
      | some b =>
        obtain ⟨s, -, -, -, rfl⟩ := h3 a b hij hi hj
        exact Real.exp_le_one_iff.2 (neg_nonpos.2 (by positivity))

/-- The fit of a segment is `fit_cond` with a positive correlation, at most the horizontal one of the profiles. -/
theorem fitSegment_apart (E : Env) (S : Settings) (i : ℕ) (cols : List Column) (sub : List Coord) (args : List Arg)
    (hE : E.cov.long ≠ 0 ∧ E.cov.lat ≠ 0 ∧ E.cov.usePv = false) (th : Thetas ℝ)
    (hth : find10thetas S.bounds S.percent (cols.map fun c => c.cells.map toLevel) = .ok th) (hg : GoodTen E cols th.index) :
    ∃ lvcov : ℕ → ℕ → ℝ, (∀ a b, a < (observations E.gsw cols (tenOf th.index cols)).length → b < (observations E.gsw cols (tenOf th.index cols)).length →
      (0 ≤ lvcov a b ∧ lvcov a b ≤ 1) ∧
      lvcov a b ≤ Real.exp (-(horizontalSq E.cov.long E.cov.lat (sub.getD (a / 10) ⟨0, 0, 0⟩) (sub.getD (b / 10) ⟨0, 0, 0⟩)))) ∧
      (∀ a, a < (observations E.gsw cols (tenOf th.index cols)).length → lvcov a a = 1) ∧
      fitSegment E S i cols sub args = fitCond (observations E.gsw cols (tenOf th.index cols)) lvcov args (E.opt i) := by
  have hindex : th.index.length ≤ 10 := by
    obtain ⟨pl, rows, -, -, -, -, -, -, h7⟩ := find10thetas_ok hth
    rw [h7, List.length_map]
    exact (select_spec 10 _).2.1
  obtain ⟨M, hM⟩ := build_cov_ok (n := cols.length) (m := 10) (fun p j => (((tenOf th.index cols).getD p []).getD j none).bind Cell.ptmp)
    (fun p => sub.getD p ⟨0, 0, 0⟩) E.cov.long E.cov.lat E.cov.phi E.cov.usePv (by
      intro p j t ht
      rw [List.getD_eq_getElem?_getD, List.getD_eq_getElem?_getD] at ht
      cases h1 : (tenOf th.index cols)[p.val]? with
      | none => rw [h1] at ht; simp at ht
      | some l =>
        rw [h1, Option.getD_some] at ht
        cases h2 : l[j.val]? with
        | none => rw [h2] at ht; simp at ht
        | some o =>
          rw [h2, Option.getD_some] at ht
          cases o with
          | none => simp at ht
          | some x => exact hg.temp l (List.mem_of_getElem? h1) x t (List.mem_of_getElem? h2) ht)
  have hproper : ProperGrid (fun p : Fin cols.length => sub.getD p ⟨0, 0, 0⟩) E.cov.long E.cov.lat E.cov.phi E.cov.usePv :=
    ⟨hE.1, hE.2.1, by rw [hE.2.2]; simp⟩
  have hlen := observations_length E.gsw cols th.index hindex
  refine ⟨flatCov M, ?_, ?_, ?_⟩
  · intro a b ha hb
    rw [hlen] at ha hb
    unfold flatCov
    rw [dif_pos ⟨by omega, by omega⟩]
    obtain ⟨⟨w, hw, e⟩, h1, h2⟩ := build_cov_entry _ _ _ _ _ _ M hproper hM ⟨a / 10, by omega⟩ ⟨b / 10, by omega⟩ ⟨a % 10, Nat.mod_lt _ (by norm_num)⟩
      ⟨b % 10, Nat.mod_lt _ (by norm_num)⟩
    refine ⟨⟨h1.le, h2⟩, ?_⟩
    rw [e]
    have hw1 : w ≤ 1 := vertical_le_one hw
    refine (mul_le_of_le_one_right (Real.exp_pos _).le hw1).trans ?_
    rw [hE.2.2]
    simp
  · intro a ha
    rw [hlen] at ha
    unfold flatCov
    rw [dif_pos ⟨by omega, by omega⟩]
    exact build_cov_diagonal _ _ _ _ _ _ M hproper hM _
  · unfold fitSegment
    rw [hth]
    simp only [bind, Except.bind]
    rw [hM]

/-- The fit of a segment is `fit_cond` with a positive correlation. -/
theorem fitSegment_of (E : Env) (S : Settings) (i : ℕ) (cols : List Column) (sub : List Coord) (args : List Arg)
    (hE : E.cov.long ≠ 0 ∧ E.cov.lat ≠ 0 ∧ E.cov.usePv = false) (th : Thetas ℝ)
    (hth : find10thetas S.bounds S.percent (cols.map fun c => c.cells.map toLevel) = .ok th) (hg : GoodTen E cols th.index) :
    ∃ lvcov : ℕ → ℕ → ℝ, (∀ a b, a < (observations E.gsw cols (tenOf th.index cols)).length → b < (observations E.gsw cols (tenOf th.index cols)).length →
      0 ≤ lvcov a b ∧ lvcov a b ≤ 1) ∧ (∀ a, a < (observations E.gsw cols (tenOf th.index cols)).length → lvcov a a = 1) ∧
      fitSegment E S i cols sub args = fitCond (observations E.gsw cols (tenOf th.index cols)) lvcov args (E.opt i) := by
  obtain ⟨lvcov, h1, h2, h3⟩ := fitSegment_apart E S i cols sub args hE th hth hg
  exact ⟨lvcov, fun a b ha hb => (h1 a b ha hb).1, h2, h3⟩

theorem mem_observations {G : Gsw} {cols : List Column} {index : List (List (Option ℕ))} {o : Obs}
    (h : o ∈ observations G cols (tenOf index cols)) : ∃ (p : ℕ) (c : Column) (oc : Option Cell), cols[p]? = some c ∧ oc ∈ tenCells index p c ∧
      o = observation G c.no oc := by
  unfold observations at h
  obtain ⟨l, hl, hol⟩ := List.mem_flatten.1 h
  obtain ⟨p, hp⟩ := List.getElem?_of_mem hl
  rw [List.getElem?_zipWith_eq_some] at hp
  obtain ⟨c, ten, hc, hten, rfl⟩ := hp
  obtain ⟨oc, hoc, rfl⟩ := List.mem_map.1 hol
  unfold tenOf at hten
  rw [List.getElem?_map, List.getElem?_zipIdx, hc] at hten
  simp only [Option.map_some, Option.some.injEq, Nat.zero_add] at hten
  exact ⟨p, c, oc, hc, hten ▸ hoc, rfl⟩

theorem observations_mem {G : Gsw} {cols : List Column} {index : List (List (Option ℕ))} {p : ℕ} {c : Column} {oc : Option Cell}
    (hc : cols[p]? = some c) (h : oc ∈ tenCells index p c) : observation G c.no oc ∈ observations G cols (tenOf index cols) := by
  unfold observations
  refine List.mem_flatten.2 ⟨(tenCells index p c).map (observation G c.no), ?_, List.mem_map_of_mem h⟩
  apply List.mem_of_getElem? (i := p)
  rw [List.getElem?_zipWith, hc, tenOf, List.getElem?_map, List.getElem?_zipIdx, hc]
  simp

theorem tenCells_mem {index : List (List (Option ℕ))} {p : ℕ} {c : Column} {x : Cell} (h : some x ∈ tenCells index p c) : x ∈ c.cells := by
  unfold tenCells at h
  rcases List.mem_append.1 h with h | h
  · obtain ⟨lev, -, hx⟩ := List.mem_map.1 h
    exact List.mem_of_getElem? hx
  · exact absurd (List.mem_replicate.1 h).2 (by simp)

/-- A level that can be compared gives a good observation. -/
theorem good_observation {E : Env} {cols : List Column} {index : List (List (Option ℕ))} (hG : SoundConductivity E.gsw)
    {row : List (Option ℕ)} (hrow : row ∈ index) {p lev : ℕ} {c : Column} {x : Cell} (h1 : row[p]? = some (some lev)) (h2 : cols[p]? = some c)
    (h3 : c.cells[lev]? = some x) (h4 : Comparable x) :
    ∃ o ∈ observations E.gsw cols (tenOf index cols), o.y ≠ none ∧ o.x = c.no := by
  refine ⟨observation E.gsw c.no (some x), observations_mem h2 ?_, ?_, ?_⟩
  · unfold tenCells
    refine List.mem_append_left _ (List.mem_map.2 ⟨lev, List.mem_filterMap.2 ⟨row, hrow, by rw [h1]; rfl⟩, h3⟩)
  · obtain ⟨s, t, pr, mp, m⟩ := x
    obtain ⟨c1, c2, c3⟩ := h4
    obtain ⟨s, rfl⟩ := Option.isSome_iff_exists.1 c1
    obtain ⟨t, rfl⟩ := Option.isSome_iff_exists.1 c2
    obtain ⟨⟨ms, me⟩, rfl⟩ := Option.isSome_iff_exists.1 c3
    simp [observation, Verif.Mapping.npDiv, (hG.1 s t).ne']
  · unfold observation
    split <;> rfl

theorem goodTen_of {E : Env} {cols : List Column} {index : List (List (Option ℕ))} (hG : SoundConductivity E.gsw)
    (hs : ∀ c ∈ cols, ∀ x ∈ c.cells, SoundCell x) : GoodTen E cols index := by
  refine ⟨?_, ?_⟩
  · intro o ho hy
    obtain ⟨p, c, oc, hc, hoc, rfl⟩ := mem_observations ho
    cases oc with
    | none => exact absurd rfl hy
    | some x =>
      have hsx := (hs c (List.mem_of_getElem? hc) x (tenCells_mem hoc)).2
      obtain ⟨s, t, pr, mp, m⟩ := x
      cases s with
      | none => exact absurd rfl hy
      | some s =>
        cases t with
        | none => exact absurd rfl hy
        | some t =>
          cases m with
          | none => exact absurd rfl hy
          | some m =>
            obtain ⟨ms, me⟩ := m
            have hme := hsx ms me rfl
            show 0 < 100 * |E.gsw.cFromSP ms t - E.gsw.cFromSP (ms + me / 100) t| / E.gsw.cFromSP s t
            have h1 := hG.1 s t
            have h2 := hG.2 ms (ms + me / 100) t (by linarith)
            have h3 : 0 < |E.gsw.cFromSP ms t - E.gsw.cFromSP (ms + me / 100) t| := abs_pos.2 (by linarith)
            positivity
  · intro l hl x t hx ht
    unfold tenOf at hl
    obtain ⟨⟨c, p⟩, hcp, rfl⟩ := List.mem_map.1 hl
    have hcm : c ∈ cols := List.mem_of_getElem? (List.mem_zipIdx_iff_getElem?.1 hcp)
    exact (hs c hcm x (tenCells_mem hx)).1 t ht

theorem segmentColumns_eq (S : Settings) (data : List Column) (v : ℝ) (hl : data.length = S.calseries.length) :
    gather data (calIndex S v) = .ok (segmentColumns S data v) := by
  have := Verif.Helper.gather_argwhere (fun c : ℝ => decide (c = v)) (fun p : Column × ℝ => p.2) (fun p => p.1) (data.zip S.calseries)
  rw [show (data.zip S.calseries).map (fun p => p.1) = data from List.map_fst_zip hl.le,
    show (data.zip S.calseries).map (fun p => p.2) = S.calseries from List.map_snd_zip hl.ge] at this
  exact this

theorem gather_coords (S : Settings) (cs : List Coord) (v : ℝ) (hl : cs.length = S.calseries.length) : ∃ sub, gather cs (calIndex S v) = .ok sub := by
  have := Verif.Helper.gather_argwhere (fun c : ℝ => decide (c = v)) (fun p : Coord × ℝ => p.2) (fun p => p.1) (cs.zip S.calseries)
  rw [show (cs.zip S.calseries).map (fun p => p.1) = cs from List.map_fst_zip hl.le,
    show (cs.zip S.calseries).map (fun p => p.2) = S.calseries from List.map_snd_zip hl.ge] at this
  exact ⟨_, this⟩

theorem segmentColumns_mem (S : Settings) (data : List Column) (v : ℝ) (c : Column) (h : c ∈ segmentColumns S data v) : c ∈ data := by
  obtain ⟨p, hp, rfl⟩ := List.mem_map.1 h
  exact (List.of_mem_zip (a := p.1) (b := p.2) (List.mem_of_mem_filter hp)).1

theorem fitArgs_single (S : Settings) (k : ℤ) (hm : S.maxBreaks = [[k]]) (i : ℕ) (hi : i < (segments S).length) :
    fitArgs (checkMaxBreaks (segments S).length S.maxBreaks).1 [] i = .ok [.str "max_no_breaks", .int k] := by
  rw [hm]
  unfold fitArgs checkMaxBreaks
  rw [if_pos (show ([] : List (List (Option ℝ))).length = 0 from rfl)]
  split_ifs with hgt
  · simp [hi]
  · have : i = 0 := by omega
    subst this; rfl

theorem segment_numbers (S : Settings) (data : List Column) (v : ℝ) (hl : data.length = S.calseries.length) (hno : (data.map Column.no).Nodup) :
    ((segmentColumns S data v).map Column.no).Nodup := by
  have h2 : ((data.zip S.calseries).map fun p => p.1.no).Nodup := by
    have e := List.map_fst_zip hl.le
    have : (data.zip S.calseries).map (fun p => p.1.no) = data.map Column.no := by
      conv_rhs => rw [← e]
      rw [List.map_map]; rfl
    rw [this]; exact hno
  have h1 : (data.zip S.calseries).Pairwise fun a b => a.1.no ≠ b.1.no := List.pairwise_map.1 h2
  unfold segmentColumns
  rw [List.map_map]
  exact List.pairwise_map.2 (h1.filter _)

/-- The calibration completes if the fits of all segments return. -/
theorem calibrate_of_fits (E : Env) (S : Settings) (data : List Column) (cs : List Coord) (k : ℤ) (hb : S.breaks = []) (hm : S.maxBreaks = [[k]])
    (hl : data.length = S.calseries.length) (hlc : cs.length = S.calseries.length) (hno : (data.map Column.no).Nodup)
    (hfit : ∀ (i : ℕ) (v : ℝ) (sub : List Coord), v ∈ segmentValues S →
      ∃ r : (m : ℕ) × Fit m, fitSegment E S i (segmentColumns S data v) sub [.str "max_no_breaks", .int k] = .ok (some r)) :
    ∃ out, calibrate E S data (some cs) = .ok out := by
  have hA : Accepted S := ⟨hb, Or.inr (Or.inl (by rw [hm]; rfl))⟩
  rw [calibrate_accepted E S data _ hA]
  obtain ⟨rs, hrs⟩ := mapM_isOk (l := numbered S) (f := segmentWork E S (checkMaxBreaks (segments S).length S.maxBreaks).1 data (some cs)) (by
    intro iv hiv
    obtain ⟨q, hq⟩ := List.getElem?_of_mem hiv
    obtain ⟨hseg, hi⟩ := (numbered_get S q iv).1 hq
    have hv := (segments_mem S iv.2).1 (List.mem_of_getElem? hseg)
    have hqlt : q < (segments S).length := (List.getElem?_eq_some_iff.1 hseg).1
    obtain ⟨sub, hsub⟩ := gather_coords S cs iv.2 hlc
    have hcols := segmentColumns_eq S data iv.2 hl
    have hargs : fitArgs (checkMaxBreaks (segments S).length S.maxBreaks).1 S.breaks iv.1 = .ok [.str "max_no_breaks", .int k] := by
      rw [hb, hi]
      exact fitArgs_single S k hm q hqlt
    obtain ⟨⟨m, f⟩, hf⟩ := hfit iv.1 iv.2 sub (by unfold segmentValues; rw [Finset.mem_erase, List.mem_toFinset]; exact ⟨hv.2, hv.1⟩)
    have hdist : (uniqueReal ((segmentColumns S data iv.2).map Column.no)).length = m + 1 := by
      obtain ⟨th', cov, -, -, hfc⟩ := fitSegment_ok hf
      have := (fitCond_straight _ _ _ _ _ _ hfc).1
      rwa [uniqueReal_congr _ _ (observations_x E.gsw _ th'.index)] at this
    have hnd := segment_numbers S data iv.2 hl hno
    have hlu : (uniqueReal ((segmentColumns S data iv.2).map Column.no)).length = (segmentColumns S data iv.2).length := by
      unfold uniqueReal
      rw [List.length_insertionSort, hnd.dedup, List.length_map]
    rw [hlu] at hdist
    obtain ⟨res, hres⟩ : ∃ res, segmentOut E.gsw (segmentColumns S data iv.2) f = .ok res := by
      unfold segmentOut spread
      rw [if_pos hdist.symm]
      exact ⟨_, rfl⟩
    refine ⟨⟨(calIndex S iv.2).zip res, f.coef, f.breaks⟩, ?_⟩
    unfold segmentWork
    change (gather cs (calIndex S iv.2) >>= fun sub => _) = _
    rw [hsub]
    change (gather data (calIndex S iv.2) >>= fun cols => _) = _
    rw [hcols]
    change (fitArgs _ S.breaks iv.1 >>= fun args => _) = _
    rw [hargs]
    change (fitSegment E S iv.1 (segmentColumns S data iv.2) sub _ >>= fun fit => _) = _
    rw [hf]
    change (segmentOut E.gsw (segmentColumns S data iv.2) f >>= fun res => _) = _
    rw [hres]
    change (if S.breaks.length ≠ 0 then _ else _) = _
    rw [if_neg (by rw [hb]; simp)]
    rfl)
  rw [hrs]
  exact ⟨_, rfl⟩

/-- C107. If only offsets are allowed, the calibration completes whenever profile numbers are distinct, every segment has a level that can be compared, mapping
errors are positive and temperatures between -2 and 30; if straight lines are allowed, whenever every segment has such levels in two profiles. -/
theorem calibration_completes (E : Env) (S : Settings) (data : List Column) (cs : List Coord) (k : ℤ)
    (hE : E.cov.long ≠ 0 ∧ E.cov.lat ≠ 0 ∧ E.cov.usePv = false) (hG : SoundConductivity E.gsw) (hb : S.breaks = []) (hm : S.maxBreaks = [[k]])
    (hl : data.length = S.calseries.length) (hlc : cs.length = S.calseries.length) (hno : (data.map Column.no).Nodup)
    (hs : ∀ c ∈ data, ∀ x ∈ c.cells, SoundCell x)
    (hc : k = -1 ∧ (∀ v ∈ segmentValues S, Calibratable S (segmentColumns S data v)) ∨
      k = 0 ∧ ∀ v ∈ segmentValues S, LineCalibratable S (segmentColumns S data v)) :
    ∃ out, calibrate E S data (some cs) = .ok out := by
  refine calibrate_of_fits E S data cs k hb hm hl hlc hno fun i v sub hv => ?_
  have hsv : ∀ c ∈ segmentColumns S data v, ∀ x ∈ c.cells, SoundCell x := fun c hcm => hs c (segmentColumns_mem S data v c hcm)
  rcases hc with ⟨rfl, hc⟩ | ⟨rfl, hc⟩
  · obtain ⟨th, hth, row, hrow, p, lev, c, x, h1, h2, h3, h4⟩ := hc v hv
    have hg := goodTen_of (index := th.index) hG hsv
    obtain ⟨lvcov, g1, g2, g3⟩ := fitSegment_of E S i (segmentColumns S data v) sub [.str "max_no_breaks", .int (-1)] hE th hth hg
    rw [g3]
    obtain ⟨o, ho, hy, -⟩ := good_observation hG hrow h1 h2 h3 h4
    exact fitCond_returns _ lvcov (-1) (E.opt i) (Or.inl ⟨rfl, o, ho, hy⟩) hg.err g1 g2
  · obtain ⟨th, hth, p, p', hpp, hlev⟩ := hc v hv
    have hg := goodTen_of (index := th.index) hG hsv
    obtain ⟨lvcov, g1, g2, g3⟩ := fitSegment_of E S i (segmentColumns S data v) sub [.str "max_no_breaks", .int 0] hE th hth hg
    rw [g3]
    obtain ⟨row, hrow, lev, c, x, h1, h2, h3, h4⟩ := hlev p (Or.inl rfl)
    obtain ⟨row', hrow', lev', c', x', h1', h2', h3', h4'⟩ := hlev p' (Or.inr rfl)
    obtain ⟨o, ho, hy, hox⟩ := good_observation hG hrow h1 h2 h3 h4
    obtain ⟨o', ho', hy', hox'⟩ := good_observation hG hrow' h1' h2' h3' h4'
    refine fitCond_returns _ lvcov 0 (E.opt i) (Or.inr (Or.inl ⟨rfl, o, ho, hy, o', ho', hy', ?_⟩)) hg.err g1 g2
    rw [hox, hox']
    intro he
    have hnd := segment_numbers S data v hl hno
    have e1 : ((segmentColumns S data v).map Column.no)[p]? = some c.no := by rw [List.getElem?_map, h2]; rfl
    have e2 : ((segmentColumns S data v).map Column.no)[p']? = some c.no := by rw [List.getElem?_map, h2', he]; rfl
    obtain ⟨l1, e1⟩ := List.getElem?_eq_some_iff.1 e1
    obtain ⟨l2, e2⟩ := List.getElem?_eq_some_iff.1 e2
    exact hpp ((hnd.getElem_inj_iff).1 (e1.trans e2.symm))

/-! ## C132: a constant offset is recovered -/

/-- C132. If in every segment the mapped conductivity is the measured one times a number that is the same at all levels that can be compared, and the calibration completes,
whatever number of break points is allowed, the factor of every profile of the segment is this number, and the calibrated salinity at these levels is the mapped one. -/
theorem constant_offset_recovered (E : Env) (S : Settings) (data : List Column) (cs : List Coord) (k : ℤ) (hk : -1 ≤ k) (q : ℝ → ℝ)
    (hE : E.cov.long ≠ 0 ∧ E.cov.lat ≠ 0 ∧ E.cov.usePv = false) (hG : SoundConductivity E.gsw) (hb : S.breaks = []) (hm : S.maxBreaks = [[k]])
    (hl : data.length = S.calseries.length)
    (hs : ∀ c ∈ data, ∀ x ∈ c.cells, SoundCell x)
    (hq : ∀ (j : ℕ) (c : Column) (v : ℝ), data[j]? = some c → S.calseries[j]? = some v → v ≠ 0 → ∀ x ∈ c.cells, ∀ s t ms me,
      x.sal = some s → x.ptmp = some t → x.mapped = some (ms, me) → E.gsw.cFromSP ms t = q v * E.gsw.cFromSP s t)
    (out : CalibFile) (hout : calibrate E S data (some cs) = .ok out) (j : ℕ) (c : Column) (v : ℝ) (hd : data[j]? = some c) (hsv : S.calseries[j]? = some v) (hv : v ≠ 0) :
      ∃ o, out.columns[j]? = some o ∧ o.factor = some (q v) ∧ o.timeDeriv = some 0 ∧
        ((∀ s t, E.gsw.spFromC (E.gsw.cFromSP s t) t = some s) → ∀ (n : ℕ) (x : Cell) (s t ms me : ℝ), c.cells[n]? = some x → x.sal = some s → x.ptmp = some t →
          x.mapped = some (ms, me) → ∃ y, o.cells[n]? = some y ∧ y.calSal = some ms) := by
  have hA : Accepted S := ⟨hb, Or.inr (Or.inl (by rw [hm]; rfl))⟩
  have hcol : ∀ (v : ℝ) (c : Column), c ∈ segmentColumns S data v → ∃ j : ℕ, data[j]? = some c ∧ S.calseries[j]? = some v := by
    intro v c h
    obtain ⟨⟨c, w⟩, hp, rfl⟩ := List.mem_map.1 h
    obtain ⟨hz, hw⟩ := List.mem_filter.1 hp
    obtain rfl : w = v := by simpa using hw
    obtain ⟨j, hj⟩ := List.getElem?_of_mem hz
    exact ⟨j, List.getElem?_zip_eq_some.1 hj⟩
  obtain ⟨i, hi⟩ := segment_of hsv hv
  obtain ⟨D⟩ := accepted_done hA hout hi
  obtain ⟨p, hp⟩ := List.getElem?_of_mem ((calIndex_mem S v j).2 hsv)
  obtain ⟨c', r, -, hd', hr, ho⟩ := D.hout p j hp
  obtain rfl : c' = c := Option.some.inj (hd'.symm.trans hd)
  have hcols : D.cols = segmentColumns S data v := Except.ok.inj (D.hcols.symm.trans (segmentColumns_eq S data v hl))
  have hargs : D.args = [.str "max_no_breaks", .int k] := by
    have h1 := fitArgs_single S k hm i (List.getElem?_eq_some_iff.1 hi).1
    exact Except.ok.inj (D.hargs.symm.trans h1)
  have hf := D.hfit
  rw [hcols, hargs] at hf
  obtain ⟨hc1, hc2⟩ : (∀ i, D.f.condslope i = q v) ∧ ∀ i, D.f.timeDeriv i = some 0 := by
    obtain ⟨th, -, hth, -, -⟩ := fitSegment_ok hf
    have hg := goodTen_of (index := th.index) hG fun c hcm => hs c (segmentColumns_mem S data v c hcm)
    obtain ⟨lvcov, g1, g2, g3⟩ := fitSegment_of E S i (segmentColumns S data v) D.sub [.str "max_no_breaks", .int k] hE th hth hg
    rw [g3] at hf
    refine fitCond_constant _ lvcov k hk (E.opt i) (q v) ?_ hg.err g1 g2 ⟨_, D.f⟩ hf
    intro o ho y hy
    obtain ⟨p, c, oc, hcp, hoc, rfl⟩ := mem_observations ho
    cases oc with
    | none => cases hy
    | some x =>
      have hx := tenCells_mem hoc
      obtain ⟨j, hj1, hj2⟩ := hcol v c (List.mem_of_getElem? hcp)
      have hqx := hq j c v hj1 hj2 hv x hx
      obtain ⟨s, t, pr, mp, m⟩ := x
      cases s with
      | none => cases hy
      | some s =>
        cases t with
        | none => cases hy
        | some t =>
          cases m with
          | none => cases hy
          | some m =>
            obtain ⟨ms, me⟩ := m
            have h1 := hqx s t ms me rfl rfl rfl
            have h2 := (hG.1 s t).ne'
            simp only [observation, Verif.Mapping.npDiv, if_neg h2, Option.some.injEq] at hy
            rw [← hy, h1]
            field_simp
  obtain ⟨-, -, -, hall⟩ := spread_ok D.hfac
  obtain ⟨pq, rfl⟩ := hall r (List.mem_of_getElem? hr)
  have hfac : (columnOut E.gsw c' (fitNumbers D.f pq)).factor = some (q v) := by
    show some (D.f.condslope pq) = _
    rw [hc1]
  refine ⟨_, ho, hfac, hc2 pq, ?_⟩
  intro hinv n x s t ms me hx hxs hxt hxm
  obtain ⟨y, hy, hy1, -⟩ := calibrated_cells E S data (some cs) out hout j c' _ hd ho (q v) hfac n x hx
  refine ⟨y, hy, ?_⟩
  rw [(hy1 s t hxs hxt).2.2.1, ← hq j c' v hd hsv hv x (List.mem_of_getElem? hx) s t ms me hxs hxt hxm]
  exact hinv ms t

/-! ## Example -/

def exCellA : Cell := ⟨some 35, some 0, some 0, some 0, some (36, 1)⟩
def exCellB : Cell := ⟨some 35, some 10, some 10, some 10, some (36, 1)⟩
def calExProf : List (Level ℝ) := [⟨some 0, some 35, some 0, some 0⟩, ⟨some 10, some 35, some 10, some 10⟩]
def calExBounds : Bounds ℝ := ⟨none, none, none, none⟩

theorem exProf_mask : calExProf.map (mask calExBounds) = calExProf := by
  simp [calExProf, mask, maskPres, maskTheta, maskUnmapped, excluded, calExBounds]

theorem calExLevels : presLevels [calExProf, calExProf] = .ok ((List.range 10).map fun (i : ℕ) => (i : ℝ)) := by
  have h1 : nanmin ([calExProf, calExProf].flatten.map Level.ptmp) = some 0 := by simp [calExProf, nanmin]
  have h2 : nanmax ([calExProf, calExProf].flatten.map Level.ptmp) = some 10 := by simp [calExProf, nanmax]
  have h3 : nanmin ([calExProf, calExProf].flatten.map Level.pres) = some 0 := by simp [calExProf, nanmin]
  have h4 : nanmax ([calExProf, calExProf].flatten.map Level.pres) = some 10 := by simp [calExProf, nanmax]
  unfold presLevels
  rw [h1, h2, h3, h4]
  have f1 : ⌈((0:ℝ) * 10)⌉ = 0 := by norm_num
  have f2 : ⌊((10:ℝ) * 10)⌋ = 100 := by norm_num
  have f3 : ⌊((10:ℝ) - 0) / 10⌋ = 1 := by norm_num
  have f4 : (arange (0 : ℝ) 10 50).length = 1 := by
    unfold arange
    rw [List.length_map, List.length_range]
    norm_num
  simp only [f1, f2, f3, f4]
  norm_num [arange]
  rfl

theorem calExInterp (p : ℝ) (h0 : 0 < p) (h1 : p < 10) : interpT p calExProf = some p := by
  have hg : goodPT calExProf = [(0, 0), (10, 10)] := by simp [goodPT, calExProf]
  unfold interpT
  rw [hg]
  have a : (([(0, 0), (10, 10)] : List (ℝ × ℝ)).map Prod.fst).min? = some 0 := by simp
  have b : (([(0, 0), (10, 10)] : List (ℝ × ℝ)).map Prod.fst).max? = some 10 := by simp
  simp only [a, b]
  rw [if_pos ⟨h1, h0⟩]
  unfold interp1d
  rw [show ([(0, 0), (10, 10)] : List (ℝ × ℝ)).insertionSort (fun a b => a.1 ≤ b.1) = [(0, 0), (10, 10)] by simp]
  unfold interpSorted
  rw [if_pos h1.le]
  congr 1
  norm_num

theorem exThetaIndex (p : ℝ) (h0 : 0 < p) (h1 : p < 10) : thetaIndex (some p) calExProf = some (if p ≤ 5 then 0 else 1) := by
  have a : nanmin (calExProf.map Level.ptmp) = some 0 := by simp [calExProf, nanmin]
  have b : nanmax (calExProf.map Level.ptmp) = some 10 := by simp [calExProf, nanmax]
  unfold thetaIndex
  rw [a, b]
  simp only
  rw [if_pos ⟨h1, h0⟩]
  simp only [calExProf, List.map_cons, List.map_nil, Option.map_some, nanArgmin]
  rw [abs_of_neg (by linarith : 0 - p < 0), abs_of_pos (by linarith : 0 < 10 - p)]
  simp only [nanArgminFrom]
  split_ifs <;> simp <;> linarith

theorem calExSal (p : ℝ) (h0 : 0 < p) (h1 : p < 10) : salOn (some p) calExProf = .ok (some 35) := by
  have n0 : neighbours 0 2 = [0, 1] := by decide
  have n1 : neighbours 1 2 = [0, 1] := by decide
  unfold salOn
  rw [exThetaIndex p h0 h1]
  by_cases h5 : p ≤ 5
  · rw [if_pos h5]
    have hk : kIndex calExProf 0 0 p = [1] := by
      unfold kIndex
      rw [show calExProf.length = 2 from rfl, n0]
      simp [calExProf, h0, not_lt.2 h0.le]
    simp only [show calExProf[0]? = some ⟨some 0, some 35, some 0, some 0⟩ from rfl, hk]
    simp [calExProf]
  · rw [if_neg h5]
    have hk : kIndex calExProf 1 10 p = [0] := by
      unfold kIndex
      rw [show calExProf.length = 2 from rfl, n1]
      simp [calExProf, h1]
    simp only [show calExProf[1]? = some ⟨some 10, some 35, some 10, some 10⟩ from rfl, hk]
    simp [calExProf]

def exSalRow (i : ℕ) : List (Option ℝ) := if i = 0 then [none, none] else [some 35, some 35]
noncomputable def calExTheta (i : ℕ) : Option ℝ := if i = 0 then none else some i

theorem exThetaLevel (i : ℕ) (hi : i < 10) : thetaLevel [calExProf, calExProf] (i : ℝ) = calExTheta i := by
  unfold thetaLevel calExTheta
  by_cases h : i = 0
  · subst h
    have : interpT ((0 : ℕ) : ℝ) calExProf = none := by
      unfold interpT
      have hg : goodPT calExProf = [(0, 0), (10, 10)] := by simp [goodPT, calExProf]
      rw [hg]
      simp
    simp only [List.map_cons, List.map_nil, this, nanmean]
    simp
  · have h0 : (0 : ℝ) < i := by exact_mod_cast Nat.pos_of_ne_zero h
    have h1 : (i : ℝ) < 10 := by exact_mod_cast hi
    rw [if_neg h]
    simp only [List.map_cons, List.map_nil, calExInterp _ h0 h1, nanmean]
    simp

theorem exSalRow_eq (i : ℕ) (hi : i < 10) : salRow [calExProf, calExProf] (calExTheta i) = .ok (exSalRow i) := by
  unfold calExTheta exSalRow
  by_cases h : i = 0
  · subst h; rfl
  · have h0 : (0 : ℝ) < i := by exact_mod_cast Nat.pos_of_ne_zero h
    have h1 : (i : ℝ) < 10 := by exact_mod_cast hi
    rw [if_neg h, if_neg h]
    unfold salRow
    simp only [List.mapM_cons, List.mapM_nil, calExSal _ h0 h1]
    rfl

theorem calExVar : filteredVar (1 / 2 : ℝ) ((List.range 10).map exSalRow) = (List.range 10).map fun i => if i = 0 then none else some 0 := by
  have hz : nanvar1 ([some 35, some 35] : List (Option ℝ)) = some 0 := by
    have : ([some 35, some 35] : List (Option ℝ)).filterMap id = [35, 35] := rfl
    unfold nanvar1
    rw [this]
    norm_num
  unfold filteredVar
  simp [List.range_succ, exSalRow, List.zipIdx, hz]
  norm_num

theorem calSelect : select 10 ((List.range 10).map fun i => if i = 0 then none else some (0 : ℝ)) = [1, 2, 3, 4, 5, 6, 7, 8, 9] := by
  simp [select, nanArgmin, nanArgminFrom, List.range_succ]

noncomputable def calExIndex : List (List (Option ℕ)) :=
  [1, 2, 3, 4, 5, 6, 7, 8, 9].map fun (i : ℕ) => [calExProf, calExProf].map (thetaIndex (((List.range 10).map calExTheta)[i]?).join)

theorem exThetas : ∃ th, find10thetas calExBounds (1 / 2) [calExProf, calExProf] = .ok th ∧ th.index = calExIndex := by
  have hmask : [calExProf, calExProf].map (fun prof => prof.map (mask calExBounds)) = [calExProf, calExProf] := by
    simp only [List.map_cons, List.map_nil, exProf_mask]
  have htl : ((List.range 10).map fun (i : ℕ) => (i : ℝ)).map (thetaLevel [calExProf, calExProf]) = (List.range 10).map calExTheta := by
    rw [List.map_map]
    apply List.map_congr_left
    intro i hi
    exact exThetaLevel i (List.mem_range.1 hi)
  have hrows : ((List.range 10).map calExTheta).mapM (salRow [calExProf, calExProf]) = .ok ((List.range 10).map exSalRow) := by
    apply mapM_ok_of_map
    rw [List.map_map]
    apply List.map_congr_left
    intro i hi
    exact exSalRow_eq i (List.mem_range.1 hi)
  unfold find10thetas
  rw [hmask]
  dsimp only
  rw [calExLevels]
  dsimp only [bind, Except.bind]
  rw [htl, hrows]
  dsimp only [pure, Except.pure]
  rw [calExVar, calSelect]
  exact ⟨_, rfl, rfl⟩

def exColumn (n : ℝ) : Column := ⟨n, [exCellA, exCellB]⟩
open Classical in
noncomputable def calExGsw : Gsw := ⟨fun s _ => Real.exp s, fun c _ => if 0 < c then some (Real.log c) else none⟩
noncomputable def exCalEnv : Env := ⟨calExGsw, ⟨4, 2, 1, false⟩, fun _ => ⟨fun _ => (fun _ => 0, fun _ => 0), fun _ _ => 0⟩⟩
noncomputable def calSettings : Settings := ⟨[1, 1, 0, 2, 2], [[0]], [], calExBounds, 1 / 2⟩
/-- Five profiles in two segments, the third in none; the numbers of the first segment descend. -/
def calData : List Column := [exColumn 2, exColumn 1, exColumn 3, exColumn 4, exColumn 5]
def exDataSorted : List Column := [exColumn 1, exColumn 2, exColumn 3, exColumn 4, exColumn 5]
def calExCoords : List Coord := [⟨10, 50, 4000⟩, ⟨11, 50, 4000⟩, ⟨12, 50, 4000⟩, ⟨13, 50, 4000⟩, ⟨14, 50, 4000⟩]

theorem exColumn_cells (n : ℝ) : (exColumn n).cells.map toLevel = calExProf := rfl

theorem exCalibratable (S : Settings) (hb : S.bounds = calExBounds) (hp : S.percent = 1 / 2) (a b : ℝ) : LineCalibratable S [exColumn a, exColumn b] := by
  obtain ⟨th, h1, h2⟩ := exThetas
  refine ⟨th, ?_, ?_⟩
  · simp only [List.map_cons, List.map_nil, exColumn_cells, hb, hp]
    exact h1
  · rw [h2]
    have hrow : [calExProf, calExProf].map (thetaIndex (((List.range 10).map calExTheta)[1]?).join) = [some 0, some 0] := by
      have : (((List.range 10).map calExTheta)[1]?).join = some 1 := by simp [calExTheta]
      rw [this]
      simp only [List.map_cons, List.map_nil, exThetaIndex 1 (by norm_num) (by norm_num)]
      norm_num
    have hmem : [some 0, some 0] ∈ calExIndex := by
      unfold calExIndex
      rw [← hrow]
      exact List.mem_map_of_mem (by simp)
    refine ⟨0, 1, zero_ne_one, ?_⟩
    rintro q (rfl | rfl)
    · exact ⟨[some 0, some 0], hmem, 0, exColumn a, exCellA, rfl, rfl, rfl, ⟨rfl, rfl, rfl⟩⟩
    · exact ⟨[some 0, some 0], hmem, 0, exColumn b, exCellA, rfl, rfl, rfl, ⟨rfl, rfl, rfl⟩⟩

theorem lineCalibratable_offset {S : Settings} {cols : List Column} (h : LineCalibratable S cols) : Calibratable S cols := by
  obtain ⟨th, hth, p, p', -, h⟩ := h
  obtain ⟨row, hrow, lev, c, x, hx⟩ := h p (Or.inl rfl)
  exact ⟨th, hth, row, hrow, p, lev, c, x, hx⟩

theorem calSound : SoundConductivity calExGsw := ⟨fun s _ => Real.exp_pos s, fun _ _ _ h => Real.exp_lt_exp.2 h⟩

theorem exSoundCell (n : ℝ) (x : Cell) (hx : x ∈ (exColumn n).cells) : SoundCell x := by
  simp only [exColumn, List.mem_cons, List.not_mem_nil, or_false] at hx
  rcases hx with rfl | rfl <;> refine ⟨fun t ht => ?_, fun s e he => ?_⟩
  · obtain rfl := Option.some.inj ht; norm_num
  · obtain ⟨-, rfl⟩ := Prod.mk.inj (Option.some.inj he); norm_num
  · obtain rfl := Option.some.inj ht; norm_num
  · obtain ⟨-, rfl⟩ := Prod.mk.inj (Option.some.inj he); norm_num

theorem calRun (a b : ℝ) (hab : [a, b, 3, 4, 5].Nodup) :
    ∃ out, calibrate exCalEnv calSettings [exColumn a, exColumn b, exColumn 3, exColumn 4, exColumn 5] (some calExCoords) = .ok out := by
  refine calibration_completes exCalEnv calSettings _ calExCoords 0 ⟨?_, ?_, rfl⟩ calSound rfl rfl rfl rfl hab ?_ (Or.inr ⟨rfl, ?_⟩)
  · norm_num [exCalEnv]
  · norm_num [exCalEnv]
  · intro c hc x hx
    simp only [List.mem_cons, List.not_mem_nil, or_false] at hc
    rcases hc with rfl | rfl | rfl | rfl | rfl <;> exact exSoundCell _ x hx
  · intro v hv
    have hv' : v = 1 ∨ v = 2 := by
      simp [segmentValues, calSettings] at hv
      tauto
    rcases hv' with rfl | rfl
    · have : segmentColumns calSettings [exColumn a, exColumn b, exColumn 3, exColumn 4, exColumn 5] 1 = [exColumn a, exColumn b] := by
        norm_num [segmentColumns, calSettings]
      rw [this]
      exact exCalibratable _ rfl rfl _ _
    · have : segmentColumns calSettings [exColumn a, exColumn b, exColumn 3, exColumn 4, exColumn 5] 2 = [exColumn 4, exColumn 5] := by
        norm_num [segmentColumns, calSettings]
      rw [this]
      exact exCalibratable _ rfl rfl _ _

/-- The mapped conductivity of the example is e times the measured one. -/
theorem exOffset (c : Column) (n : ℝ) (hc : c = exColumn n) : ∀ x ∈ c.cells, ∀ s t ms me, x.sal = some s → x.ptmp = some t → x.mapped = some (ms, me) →
    exCalEnv.gsw.cFromSP ms t = Real.exp 1 * exCalEnv.gsw.cFromSP s t := by
  subst hc
  intro x hx s t ms me hs ht hm
  have h35 : Real.exp 36 = Real.exp 1 * Real.exp 35 := by rw [← Real.exp_add]; norm_num
  simp only [exColumn, List.mem_cons, List.not_mem_nil, or_false] at hx
  rcases hx with rfl | rfl
  all_goals
    obtain rfl := Option.some.inj hs
    obtain ⟨rfl, -⟩ := Prod.mk.inj (Option.some.inj hm)
    exact h35

/-- Two profiles and a third one that is not used: the calibration completes, with an offset or a line, and finds the factor e. -/
theorem exFirst (k : ℤ) (hk : k = -1 ∨ k = 0) (c : Column) (hc : ∃ n : ℝ, [1, 2, n].Nodup ∧ c.no = n ∧ ∀ x ∈ c.cells, SoundCell x) (cs : List Coord) (hcs : cs.length = 3) :
    ∃ out, calibrate exCalEnv ⟨[1, 1, 0], [[k]], [], calExBounds, 1 / 2⟩ [exColumn 1, exColumn 2, c] (some cs) = .ok out ∧
      ∀ j < 2, ∃ o, out.columns[j]? = some o ∧ o.factor = some (Real.exp 1) := by
  obtain ⟨n, hn, rfl, hsc⟩ := hc
  have hE : exCalEnv.cov.long ≠ 0 ∧ exCalEnv.cov.lat ≠ 0 ∧ exCalEnv.cov.usePv = false := ⟨by norm_num [exCalEnv], by norm_num [exCalEnv], rfl⟩
  have hs : ∀ d ∈ [exColumn 1, exColumn 2, c], ∀ x ∈ d.cells, SoundCell x := by
    intro d hd x hx
    simp only [List.mem_cons, List.not_mem_nil, or_false] at hd
    rcases hd with rfl | rfl | rfl
    · exact exSoundCell _ x hx
    · exact exSoundCell _ x hx
    · exact hsc x hx
  have hcal : ∀ v ∈ segmentValues ⟨[1, 1, 0], [[k]], [], calExBounds, 1 / 2⟩,
      LineCalibratable ⟨[1, 1, 0], [[k]], [], calExBounds, 1 / 2⟩ (segmentColumns ⟨[1, 1, 0], [[k]], [], calExBounds, 1 / 2⟩ [exColumn 1, exColumn 2, c] v) := by
    intro v hv
    have hv' : v = 1 := by
      simp [segmentValues] at hv
      tauto
    subst hv'
    have : segmentColumns ⟨[1, 1, 0], [[k]], [], calExBounds, 1 / 2⟩ [exColumn 1, exColumn 2, c] 1 = [exColumn 1, exColumn 2] := by
      norm_num [segmentColumns]
    rw [this]
    exact exCalibratable _ rfl rfl _ _
  obtain ⟨out, hout⟩ := calibration_completes exCalEnv ⟨[1, 1, 0], [[k]], [], calExBounds, 1 / 2⟩ [exColumn 1, exColumn 2, c] cs k hE calSound rfl rfl rfl hcs hn hs
    (hk.imp (fun h => ⟨h, fun v hv => lineCalibratable_offset (hcal v hv)⟩) fun h => ⟨h, hcal⟩)
  have h2 := constant_offset_recovered exCalEnv ⟨[1, 1, 0], [[k]], [], calExBounds, 1 / 2⟩ [exColumn 1, exColumn 2, c] cs k (by omega)
    (fun _ => Real.exp 1) hE calSound rfl rfl rfl hs (by
      intro j d v hd hv hv0
      match j with
      | 0 => exact exOffset d 1 (Option.some.inj hd).symm
      | 1 => exact exOffset d 2 (Option.some.inj hd).symm
      | 2 => exact absurd (Option.some.inj hv).symm hv0
      | j + 3 => simp at hd) out hout
  refine ⟨out, hout, fun j hj => ?_⟩
  match j with
  | 0 => obtain ⟨o, ho, hf, -⟩ := h2 0 _ 1 rfl rfl one_ne_zero; exact ⟨o, ho, hf⟩
  | 1 => obtain ⟨o, ho, hf, -⟩ := h2 1 _ 1 rfl rfl one_ne_zero; exact ⟨o, ho, hf⟩
  | j + 2 => omega

/-- C132 on these data. -/
example : ∃ out, calibrate exCalEnv ⟨[1, 1, 0], [[0]], [], calExBounds, 1 / 2⟩ [exColumn 1, exColumn 2, exColumn 3] (some [⟨10, 50, 4000⟩, ⟨11, 50, 4000⟩, ⟨12, 50, 4000⟩]) = .ok out ∧
      ∀ j < 2, ∃ o, out.columns[j]? = some o ∧ o.factor = some (Real.exp 1) :=
  exFirst 0 (Or.inr rfl) (exColumn 3) ⟨3, by norm_num, rfl, exSoundCell 3⟩ _ rfl

/-- A profile that can be compared at its second level only, and one that cannot be compared. -/
def fewColumn (n : ℝ) : Column := ⟨n, [⟨some 35, some 0, some 0, some 0, none⟩, exCellB]⟩
def noneColumn (n : ℝ) : Column := ⟨n, [⟨some 35, some 0, some 0, some 0, none⟩, ⟨some 35, some 10, some 10, some 10, none⟩]⟩

theorem fewIndex : calExIndex = [[some 0, some 0], [some 0, some 0], [some 0, some 0], [some 0, some 0], [some 0, some 0], [some 1, some 1], [some 1, some 1],
    [some 1, some 1], [some 1, some 1]] := by
  unfold calExIndex
  have h : ∀ i : ℕ, 0 < i → i < 10 → (((List.range 10).map calExTheta)[i]?).join = some (i : ℝ) := by
    intro i h0 h1
    rw [List.getElem?_map, List.getElem?_range h1]
    simp [calExTheta, h0.ne']
  simp only [List.map_cons, List.map_nil]
  rw [h 1 (by norm_num) (by norm_num), h 2 (by norm_num) (by norm_num), h 3 (by norm_num) (by norm_num), h 4 (by norm_num) (by norm_num), h 5 (by norm_num) (by norm_num),
    h 6 (by norm_num) (by norm_num), h 7 (by norm_num) (by norm_num), h 8 (by norm_num) (by norm_num), h 9 (by norm_num) (by norm_num)]
  rw [exThetaIndex _ (by norm_num) (by norm_num), exThetaIndex _ (by norm_num) (by norm_num), exThetaIndex _ (by norm_num) (by norm_num), exThetaIndex _ (by norm_num) (by norm_num),
    exThetaIndex _ (by norm_num) (by norm_num), exThetaIndex _ (by norm_num) (by norm_num), exThetaIndex _ (by norm_num) (by norm_num), exThetaIndex _ (by norm_num) (by norm_num),
    exThetaIndex _ (by norm_num) (by norm_num)]
  norm_num

/-- With the settings of the first run of `set_calseries`, where up to four break points are allowed, the calibration of these data completes. -/
theorem exFew (c : Column) (hc : ∃ n : ℝ, [1, 2, n].Nodup ∧ c.no = n) (cs : List Coord) (hcs : cs.length = 3) :
    ∃ out, calibrate exCalEnv ⟨[1, 1, 0], [[4]], [], calExBounds, 1 / 2⟩ [fewColumn 1, noneColumn 2, c] (some cs) = .ok out := by
  obtain ⟨n, hn, rfl⟩ := hc
  have hE : exCalEnv.cov.long ≠ 0 ∧ exCalEnv.cov.lat ≠ 0 ∧ exCalEnv.cov.usePv = false := ⟨by norm_num [exCalEnv], by norm_num [exCalEnv], rfl⟩
  refine calibrate_of_fits _ _ _ cs 4 rfl rfl rfl hcs hn ?_
  intro i v sub hv
  have hv' : v = 1 := by
    simp [segmentValues] at hv
    tauto
  subst hv'
  have : segmentColumns ⟨[1, 1, 0], [[4]], [], calExBounds, 1 / 2⟩ [fewColumn 1, noneColumn 2, c] 1 = [fewColumn 1, noneColumn 2] := by
    norm_num [segmentColumns]
  rw [this]
  obtain ⟨th, h1, h2⟩ := exThetas
  have hg : GoodTen exCalEnv [fewColumn 1, noneColumn 2] th.index := goodTen_of calSound (by
    intro d hd x hx
    simp only [List.mem_cons, List.not_mem_nil, or_false] at hd
    rcases hd with rfl | rfl
    · simp only [fewColumn, List.mem_cons, List.not_mem_nil, or_false] at hx
      rcases hx with rfl | rfl
      · exact ⟨fun t ht => by obtain rfl := Option.some.inj ht; norm_num, fun s e he => by cases he⟩
      · exact exSoundCell 1 _ (by simp [exColumn])
    · simp only [noneColumn, List.mem_cons, List.not_mem_nil, or_false] at hx
      rcases hx with rfl | rfl
      · exact ⟨fun t ht => by obtain rfl := Option.some.inj ht; norm_num, fun s e he => by cases he⟩
      · exact ⟨fun t ht => by obtain rfl := Option.some.inj ht; norm_num, fun s e he => by cases he⟩)
  obtain ⟨lvcov, g1, g2, g3⟩ := fitSegment_of exCalEnv ⟨[1, 1, 0], [[4]], [], calExBounds, 1 / 2⟩ i [fewColumn 1, noneColumn 2] sub
    [.str "max_no_breaks", .int 4] hE th h1 hg
  rw [g3]
  refine fitCond_returns _ lvcov 4 _ (Or.inr (Or.inr ⟨by norm_num, ?_, ?_⟩)) hg.err g1 g2
  · obtain ⟨o, ho, hy, -⟩ := good_observation (E := exCalEnv) (cols := [fewColumn 1, noneColumn 2]) (index := th.index) (row := [some 1, some 1]) (p := 0) (lev := 1) (c := fewColumn 1)
      (x := exCellB) calSound (by rw [h2, fewIndex]; simp) rfl rfl rfl ⟨rfl, rfl, rfl⟩
    exact ⟨o, ho, hy⟩
  · rw [h2, fewIndex]
    simp [observations, tenOf, tenCells, fewColumn, noneColumn, observation, goodObs, exCellB, Verif.Mapping.npDiv, exCalEnv, calExGsw]

theorem exAccepted : Accepted calSettings := ⟨rfl, Or.inr (Or.inl rfl)⟩

/-- A completed calibration with ascending numbers: the hypotheses of C56, C100 - C102, C104 and C107 hold. -/
example : ∃ out, calibrate exCalEnv calSettings exDataSorted (some calExCoords) = .ok out ∧ Accepted calSettings ∧ (exDataSorted.map Column.no).Pairwise (· < ·) := by
  obtain ⟨out, h⟩ := calRun 1 2 (by norm_num)
  exact ⟨out, h, exAccepted, by norm_num [exDataSorted, exColumn]⟩

/-- The conversions of the example meet the hypotheses of C101. -/
example : (∀ s t, calExGsw.spFromC (calExGsw.cFromSP s t) t = some s) ∧ (∀ s t, 0 < calExGsw.cFromSP s t) ∧
    ∀ a b t u w, a < b → calExGsw.spFromC a t = some u → calExGsw.spFromC b t = some w → u < w := by
  refine ⟨fun s t => ?_, fun s t => Real.exp_pos s, fun a b t u w hab hu hw => ?_⟩
  · simp [calExGsw, Real.exp_pos]
  · simp only [calExGsw] at hu hw
    split_ifs at hu with ha
    split_ifs at hw with hb
    obtain rfl := Option.some.inj hu
    obtain rfl := Option.some.inj hw
    exact Real.log_lt_log ha hab

/-- The segment 1 of the example with descending numbers meets the hypotheses of C103. -/
example : ∃ out, calibrate exCalEnv calSettings calData (some calExCoords) = .ok out ∧
    (∀ j : ℕ, calSettings.calseries[j]? = some 1 ↔ j = 0 ∨ j = 1) ∧ (exColumn 1).no < (exColumn 2).no := by
  obtain ⟨out, h⟩ := calRun 2 1 (by norm_num)
  refine ⟨out, h, fun j => ?_, by norm_num [exColumn]⟩
  match j with
  | 0 => simp [calSettings]
  | 1 => simp [calSettings]
  | 2 => simp [calSettings]
  | 3 => simp [calSettings]
  | 4 => simp [calSettings]
  | n + 5 => simp [calSettings]

/-- Two segments and three limits: not accepted (C105). -/
example : ¬ Accepted { calSettings with maxBreaks := [[1], [2], [3]] } := by
  rintro ⟨-, h⟩
  have hc : (segmentValues { calSettings with maxBreaks := [[1], [2], [3]] }).card = 2 := by
    have : segmentValues { calSettings with maxBreaks := [[1], [2], [3]] } = {1, 2} := by
      ext v
      simp [segmentValues, calSettings]
      constructor
      · tauto
      · rintro (rfl | rfl) <;> norm_num
    rw [this]
    norm_num
  rw [hc] at h
  simp at h

/-- Positions of a float that crosses 180 degrees, as C57 supposes. -/
example : (∃ x ∈ ([179.5, 180.5] : List ℝ), 180 < x) ∧ ∀ x ∈ ([179.5, 180.5] : List ℝ), 1 ≤ x ∧ x ≤ 360 := by
  constructor
  · exact ⟨180.5, by simp, by norm_num⟩
  · intro x hx
    simp at hx
    rcases hx with rfl | rfl <;> norm_num

end Verif.Props
