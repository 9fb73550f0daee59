import Verif.Spec.Rename
import Verif.Props.Piecewise
import Verif.Props.FitOrder
import Verif.Props.Utilities

/-!
# Profile numbers moved by a constant, and other labels of segments
-/

set_option linter.unusedSectionVars false

namespace Verif.Lemmas.Rename

open Verif.Np Verif.Utilities Verif.FitCond Verif.BreakFit Verif.Piecewise Verif.Spec Verif.Props Matrix

theorem uniqueReal_map (g : ℝ → ℝ) (hg : StrictMono g) (l : List ℝ) : uniqueReal (l.map g) = (uniqueReal l).map g := by
  rw [← uniqueReal_of_sorted ((uniqueReal l).map g) (List.pairwise_map.2 ((uniqueReal_strict l).imp fun h => hg h))]
  apply uniqueReal_congr
  intro v
  simp [List.mem_map, uniqueReal_mem]

theorem insertionSort_shift (β : ℝ) (l : List ℝ) : (l.map (· + β)).insertionSort (· ≤ ·) = (l.insertionSort (· ≤ ·)).map (· + β) := by
  apply List.Perm.eq_of_pairwise' (r := (· ≤ ·))
  · exact List.pairwise_insertionSort _ _
  · exact List.pairwise_map.2 ((List.pairwise_insertionSort (· ≤ ·) l).imp fun h => by simpa using h)
  · exact (List.perm_insertionSort _ _).trans ((List.perm_insertionSort (· ≤ ·) l).symm.map _)

theorem sorter_shift (β : ℝ) (ms xs : List ℝ) : sorter (ms.map (· + β)) (xs.map (· + β)) = sorter ms xs := by
  rw [sorter_counts_boundaries, sorter_counts_boundaries, insertionSort_shift, List.map_map]
  apply List.map_congr_left
  intro x _
  simp [List.countP_map, Function.comp_def]

/-! ### The fit -/

theorem xCentre_shift {n : ℕ} (β : ℝ) (x : Fin (n + 1) → ℝ) : xCentre (fun i => x i + β) = xCentre x + β := by unfold xCentre; ring

theorem xScale_shift {n : ℕ} (β : ℝ) (x : Fin (n + 1) → ℝ) : xScale (fun i => x i + β) = xScale x := by
  unfold xScale
  by_cases h : x 0 = x (Fin.last n)
  · rw [if_neg (by simpa using h), if_neg (by simpa using h)]
  · rw [if_pos (by simpa using h), if_pos h]; ring

theorem scaled_shift {n : ℕ} (β : ℝ) (x y err : Fin (n + 1) → ℝ) : scaled (fun i => x i + β) y err = scaled x y err := by
  unfold scaled
  simp only [xCentre_shift, xScale_shift, add_sub_add_right_eq_sub]

theorem finish_shift {n m : ℕ} (β : ℝ) (loops : ℤ) (opt : Externals) (x y : Fin (n + 1) → ℝ) (d : Scaled n) (cov : Matrix (Fin (n + 1)) (Fin (n + 1)) ℝ)
    (xfit : Fin (m + 1) → ℝ) (f : Fitted) :
    finish loops opt (fun i => x i + β) y d cov (fun i => xfit i + β) f = moveFit β (finish loops opt x y d cov xfit f) := by
  have hp : ∀ {b : ℕ} (breaks : Fin b → ℝ) (i : Fin (m + 1)),
      (sorter (((xfit 0 - xCentre x) / xScale x * xScale x + (xCentre x + β)) :: List.ofFn fun j => breaks j * xScale x + (xCentre x + β))
        (List.ofFn fun i => (xfit i - xCentre x) / xScale x * xScale x + (xCentre x + β))).getD i.val 0 =
      (sorter (((xfit 0 - xCentre x) / xScale x * xScale x + xCentre x) :: List.ofFn fun j => breaks j * xScale x + xCentre x)
        (List.ofFn fun i => (xfit i - xCentre x) / xScale x * xScale x + xCentre x)).getD i.val 0 := by
    intro b breaks i
    conv_rhs => rw [← sorter_shift β]
    simp only [List.map_cons, List.map_ofFn, Function.comp_def, add_assoc]
  unfold finish moveFit
  simp only [xCentre_shift, xScale_shift, add_sub_add_right_eq_sub, hp]
  congr 1
  · funext i; ring
  · cases f with
    | offset a r => rfl
    | line b br co r =>
      simp only [List.map_ofFn]
      congr 1
      funext j
      simp only [Function.comp]
      ring

/-- The options with break points moved. -/
def moveOpts (β : ℝ) (o : Opts) : Opts :=
  { o with maxBrkIn := o.maxBrkIn.map (moveArg β), nloops := moveArg β o.nloops, breaks := o.breaks.map (List.map (· + β)) }

theorem parseStep_shift (β : ℝ) (o : Opts) (p v : Arg) : parseStep (moveOpts β o) (moveArg β p) (moveArg β v) = (parseStep o p v).map (moveOpts β) := by
  cases p with
  | int k => rfl
  | arr l => rfl
  | str s =>
    unfold parseStep moveArg
    dsimp only
    by_cases h1 : s.toLower = "initial_breaks"
    · simp only [if_pos h1]
      cases v <;> simp [moveArg, moveOpts, Except.map]
    simp only [if_neg h1]
    by_cases h2 : s.toLower = "max_no_breaks"
    · simp only [if_pos h2]
      cases v <;> rfl
    simp only [if_neg h2]
    by_cases h3 : s.toLower = "number_breaks"
    · simp only [if_pos h3]
      cases v <;> rfl
    simp only [if_neg h3]
    by_cases h4 : s.toLower = "nloops"
    · simp only [if_pos h4]
      cases v <;> rfl
    simp only [if_neg h4]
    by_cases h5 : s.toLower = "breaks"
    · simp only [if_pos h5]
      cases v with
      | int k => rfl
      | str t => dsimp only; split_ifs <;> rfl
      | arr l =>
        simp only [List.length_map]
        split_ifs <;> rfl
    · simp only [if_neg h5]; rfl

theorem parsePairs_shift (β : ℝ) : ∀ (args : List Arg) (o : Opts), parsePairs (moveOpts β o) (args.map (moveArg β)) = (parsePairs o args).map (moveOpts β)
  | [], o => rfl
  | [a], o => rfl
  | p :: v :: rest, o => by
    rw [List.map_cons, List.map_cons, parsePairs, parsePairs, parseStep_shift]
    cases parseStep o p v with
    | error e => rfl
    | ok o' => exact parsePairs_shift β rest o'

theorem parseArgs_shift (β : ℝ) (args : List Arg) : parseArgs (args.map (moveArg β)) = (parseArgs args).map (moveOpts β) := by
  unfold parseArgs
  rw [List.length_map]
  split_ifs
  · rfl
  · exact parsePairs_shift β args {}

theorem maxBreaks_shift (β : ℝ) (o : Opts) (bs : Option (List ℝ)) : maxBreaks { moveOpts β o with breaks := bs } = maxBreaks { o with breaks := bs } := by
  unfold maxBreaks moveOpts
  dsimp only
  cases o.maxBrkIn with
  | none => rfl
  | some a => cases a <;> rfl

theorem errorLoop_shift (β : ℝ) (free : Bool) (a : Arg) : errorLoop free (moveArg β a) = errorLoop free a := by cases a <;> rfl

theorem loopsOf_shift (β : ℝ) (a : Arg) : loopsOf (moveArg β a) = loopsOf a := by cases a <;> rfl

/-- The fit does not look at the fields that are moved. -/
theorem tryModel_opts {n : ℕ} (d : Scaled n) (lo hi : ℝ) (o o' : Opts) (h1 : o'.initLen = o.initLen) (h2 : o'.breaks = o.breaks) (maxIn : ℤ) (p : Plan) (opt : Externals) :
    tryModel d lo hi o' maxIn p opt = tryModel d lo hi o maxIn p opt := by
  funext nbr
  unfold tryModel
  rw [h1, h2]

theorem fitCore_shift {n m : ℕ} (β : ℝ) (xfit : Fin (m + 1) → ℝ) (x y err : Fin (n + 1) → ℝ) (cov : Matrix (Fin (n + 1)) (Fin (n + 1)) ℝ) (args : List Arg) (opt : Externals) :
    fitCore (fun i => xfit i + β) (fun i => x i + β) y err cov (args.map (moveArg β)) opt = (fitCore xfit x y err cov args opt).map (moveFit β) := by
  unfold fitCore
  rw [parseArgs_shift, scaled_shift]
  simp only [bind, Except.bind, Except.map, pure, Except.pure]
  cases parseArgs args with
  | error e => rfl
  | ok o0 =>
    simp only
    have hb : ((moveOpts β o0).breaks.map fun l => l.map fun v => (v - xCentre fun i => x i + β) / xScale fun i => x i + β) =
        o0.breaks.map fun l => l.map fun v => (v - xCentre x) / xScale x := by
      simp only [xCentre_shift, xScale_shift, moveOpts, Option.map_map]
      congr 1
      funext l
      simp [Function.comp_def]
    rw [hb, maxBreaks_shift]
    generalize (o0.breaks.map fun l => l.map fun v => (v - xCentre x) / xScale x) = bs
    cases maxBreaks { o0 with breaks := bs } with
    | error e => rfl
    | ok maxIn =>
      simp only
      have hpf : presetFails (scaled x y err) { moveOpts β o0 with breaks := bs } maxIn ↔ presetFails (scaled x y err) { o0 with breaks := bs } maxIn := Iff.rfl
      rw [tryModel_opts (scaled x y err) _ _ { o0 with breaks := bs } { moveOpts β o0 with breaks := bs } rfl rfl]
      by_cases h : presetFails (scaled x y err) { o0 with breaks := bs } maxIn
      · rw [if_pos h, if_pos (hpf.2 h)]
      rw [if_neg h, if_neg (fun k => h (hpf.1 k))]
      simp only [show (moveOpts β o0).nbr1 = o0.nbr1 from rfl]
      generalize (List.mapM _ _ : Except PyErr (List Fitted)) = t
      cases t with
      | error e => rfl
      | ok tried =>
        simp only
        generalize chooseModel _ _ _ _ _ = cm
        cases cm with
        | error e => rfl
        | ok f =>
          simp only
          split_ifs with hdet
          · rfl
          · cases f with
            | offset a r => simp only [finish_shift, show (moveOpts β o0).nloops = moveArg β o0.nloops from rfl, loopsOf_shift]
            | line b br co r =>
              simp only [show (moveOpts β o0).nloops = moveArg β o0.nloops from rfl, errorLoop_shift, loopsOf_shift]
              generalize errorLoop _ _ = el
              cases el with
              | error e => rfl
              | ok u => simp only [finish_shift]

/-- An observation with its profile number moved. -/
def moveObs (β : ℝ) (o : Obs) : Obs := { o with x := o.x + β }

theorem argwhere_map {α γ : Type} (g : α → γ) (p : γ → Bool) (l : List α) : argwhere p (l.map g) = argwhere (fun a => p (g a)) l := by
  unfold argwhere
  generalize 0 = s
  induction l generalizing s with
  | nil => rfl
  | cons a l ih => simp only [List.map_cons, argwhereFrom, ih]

theorem fitCond_shift (β : ℝ) (obs : List Obs) (lvcov : ℕ → ℕ → ℝ) (args : List Arg) (opt : Externals) :
    fitCond (obs.map (moveObs β)) lvcov (args.map (moveArg β)) opt = (fitCond obs lvcov args opt).map (Option.map fun f => ⟨f.1, moveFit β f.2⟩) := by
  have hg : argwhere (fun o : Obs => o.y.isSome) (obs.map (moveObs β)) = argwhere (fun o : Obs => o.y.isSome) obs := by
    rw [argwhere_map]; rfl
  have hfit : uniqueReal ((obs.map (moveObs β)).map Obs.x) = (uniqueReal (obs.map Obs.x)).map (· + β) := by
    rw [← uniqueReal_map (· + β) (fun a b h => by simpa using h), List.map_map, List.map_map]; rfl
  have hx0 : (argwhere (fun o : Obs => o.y.isSome) obs).map (fun i => (((obs.map (moveObs β))[i]?).map Obs.x).getD 0) =
      ((argwhere (fun o : Obs => o.y.isSome) obs).map fun i => ((obs[i]?).map Obs.x).getD 0).map (· + β) := by
    rw [List.map_map]
    apply List.map_congr_left
    intro i hi
    have hl : i < obs.length := by
      obtain ⟨o, ho, _⟩ := (argwhere_mem _ _ _).1 hi
      exact (List.getElem?_eq_some_iff.1 ho).1
    simp [List.getElem?_eq_getElem hl, moveObs]
  have hy0 : (argwhere (fun o : Obs => o.y.isSome) obs).map (fun i => (((obs.map (moveObs β))[i]?).bind Obs.y).getD 0) =
      (argwhere (fun o : Obs => o.y.isSome) obs).map fun i => ((obs[i]?).bind Obs.y).getD 0 := by
    apply List.map_congr_left
    intro i _
    rw [List.getElem?_map]
    cases obs[i]? <;> rfl
  have he0 : (argwhere (fun o : Obs => o.y.isSome) obs).map (fun i => (((obs.map (moveObs β))[i]?).map Obs.err).getD 0) =
      (argwhere (fun o : Obs => o.y.isSome) obs).map fun i => ((obs[i]?).map Obs.err).getD 0 := by
    apply List.map_congr_left
    intro i _
    rw [List.getElem?_map]
    cases obs[i]? <;> rfl
  unfold fitCond
  simp only [hg, hfit, hx0, hy0, he0, insertionSort_shift]
  rw [stableArgsort_sorted _ (List.pairwise_insertionSort _ _),
    stableArgsort_sorted (List.map (· + β) _) (List.pairwise_map.2 ((List.pairwise_insertionSort _ _).imp fun h => by simpa using h))]
  simp only [List.length_map, List.length_insertionSort]
  have hgd : ∀ (U : List ℝ) (k : ℕ), U.length = k + 1 → (fun i : Fin (k + 1) => (U.map (· + β)).getD i.val 0) = fun i => U.getD i.val 0 + β := by
    intro U k hk
    funext i
    have hi : i.val < U.length := by omega
    simp [List.getD_eq_getElem?_getD, List.getElem?_eq_getElem hi]
  generalize hX : ((argwhere (fun o : Obs => o.y.isSome) obs).map fun i => ((obs[i]?).map Obs.x).getD 0).insertionSort (· ≤ ·) = X
  have hXl : X.length = (argwhere (fun o : Obs => o.y.isSome) obs).length := by rw [← hX]; simp
  generalize hU : uniqueReal (obs.map Obs.x) = U
  generalize argwhere (fun o : Obs => o.y.isSome) obs = good at hXl ⊢
  cases hn : good.length with
  | zero => rfl
  | succ n =>
    cases hm : U.length with
    | zero => rfl
    | succ m =>
      dsimp only
      rw [hgd U m hm, hgd X n (by omega), fitCore_shift]
      generalize fitCore _ _ _ _ _ _ _ = r
      cases r <;> rfl

/-! ### The calibration -/

theorem exmap_map {α γ δ : Type} (f : α → γ) (g : γ → δ) (x : Except PyErr α) : (x.map f).map g = x.map fun a => g (f a) := by cases x <;> rfl

theorem zipIdx_map_cols (index : List (List (Option ℕ))) (β : ℝ) (cols : List Column) : tenOf index (cols.map (renumber β)) = tenOf index cols := by
  unfold tenOf
  rw [List.zipIdx_map, List.map_map]
  rfl

theorem observations_shift (G : Gsw) (β : ℝ) (cols : List Column) (ten : List (List (Option Piecewise.Cell))) :
    observations G (cols.map (renumber β)) ten = (observations G cols ten).map (moveObs β) := by
  have ho : ∀ (no : ℝ) (o : Option Piecewise.Cell), observation G (no + β) o = moveObs β (observation G no o) := by
    intro no o
    unfold observation
    rcases o with _ | ⟨s, t, p, mp, m⟩
    · rfl
    · cases s <;> cases t <;> rcases m with _ | ⟨ms, me⟩ <;> rfl
  unfold observations
  rw [List.map_flatten]
  congr 1
  induction cols generalizing ten with
  | nil => rfl
  | cons c cols ih =>
    cases ten with
    | nil => rfl
    | cons l ten =>
      simp only [List.map_cons, List.zipWith_cons_cons, ih, List.map_map]
      congr 1
      apply List.map_congr_left
      intro o _
      exact ho c.no o

/-- The covariances of a segment, by position. -/
noncomputable def covOf (E : Piecewise.Env) (ten : List (List (Option Piecewise.Cell))) (coords : List Stats.Coord) (k : ℕ) : Except PyErr (ℕ → ℕ → ℝ) :=
  (Stats.buildCov (n := k) (m := 10) (fun p j => ((ten.getD p []).getD j none).bind Piecewise.Cell.ptmp)
    (fun p => coords.getD p ⟨0, 0, 0⟩) E.cov.long E.cov.lat E.cov.phi E.cov.usePv).map flatCov

theorem fitSegment_eq (E : Piecewise.Env) (S : Settings) (i : ℕ) (cols : List Column) (coords : List Stats.Coord) (args : List Arg) :
    fitSegment E S i cols coords args = (Thetas.find10thetas S.bounds S.percent (cols.map fun c => c.cells.map toLevel)).bind fun th =>
      (covOf E (tenOf th.index cols) coords cols.length).bind fun cov => fitCond (observations E.gsw cols (tenOf th.index cols)) cov args (E.opt i) := by
  unfold fitSegment covOf
  cases Thetas.find10thetas S.bounds S.percent (cols.map fun c => c.cells.map toLevel) with
  | error e => rfl
  | ok th =>
    simp only [bind, Except.bind]
    cases Stats.buildCov (n := cols.length) (m := 10) (fun p j => (((tenOf th.index cols).getD p []).getD j none).bind Piecewise.Cell.ptmp)
      (fun p => coords.getD p ⟨0, 0, 0⟩) E.cov.long E.cov.lat E.cov.phi E.cov.usePv <;> rfl

theorem fitSegment_shift (β : ℝ) (E : Piecewise.Env) (S : Settings) (i : ℕ) (cols : List Column) (coords : List Stats.Coord) (args : List Arg) :
    fitSegment E (moveBreaks β S) i (cols.map (renumber β)) coords (args.map (moveArg β)) =
      (fitSegment E S i cols coords args).map (Option.map fun f => ⟨f.1, moveFit β f.2⟩) := by
  rw [fitSegment_eq, fitSegment_eq, List.map_map,
    show ((fun c : Column => c.cells.map toLevel) ∘ renumber β) = fun c => c.cells.map toLevel from rfl]
  simp only [zipIdx_map_cols, observations_shift, List.length_map, fitCond_shift]
  change (Thetas.find10thetas S.bounds S.percent (cols.map fun c => c.cells.map toLevel)).bind _ = _
  cases Thetas.find10thetas S.bounds S.percent (cols.map fun c => c.cells.map toLevel) with
  | error e => rfl
  | ok th =>
    simp only [Except.bind]
    cases covOf E (tenOf th.index cols) coords cols.length <;> rfl

theorem fitArgs_shift (β : ℝ) (mb : List (List ℤ)) (breaks : List (List (Option ℝ))) (i : ℕ) :
    fitArgs mb (breaks.map (List.map (Option.map (· + β)))) i = (fitArgs mb breaks i).map (List.map (moveArg β)) := by
  have hf : ∀ row : List (Option ℝ), (row.map (Option.map (· + β))).filterMap id = (row.filterMap id).map (· + β) := by
    intro row
    induction row with
    | nil => rfl
    | cons o row ih => cases o <;> simp_all
  unfold fitArgs
  rw [List.length_map, List.getElem?_map]
  by_cases h : breaks.length = 0
  · rw [if_pos h, if_pos h]
    cases (mb[i]?).bind List.head? <;> rfl
  · rw [if_neg h, if_neg h]
    cases breaks[i]? with
    | none => cases mb[i]? <;> rfl
    | some row =>
      cases mb[i]? with
      | none => rfl
      | some r =>
        rcases r with _ | ⟨k, _ | ⟨k', r⟩⟩
        · rfl
        · simp only [Option.map_some, hf]
          split_ifs <;> rfl
        · rfl

theorem segmentOut_shift (β : ℝ) (G : Gsw) (cols : List Column) {m : ℕ} (f : Fit m) : segmentOut G (cols.map (renumber β)) (moveFit β f) = segmentOut G cols f := by
  unfold segmentOut
  rw [List.length_map]
  simp only [moveFit]
  generalize spread cols.length _ = r
  cases r with
  | error e => rfl
  | ok fac =>
    simp only [bind, Except.bind, pure, Except.pure, Except.ok.injEq]
    rw [List.zipWith_map_left]
    rfl

theorem gather_cols (β : ℝ) (data : List Column) (idx : List ℕ) : gather (data.map (renumber β)) idx = (gather data idx).map (List.map (renumber β)) := by
  unfold gather
  induction idx with
  | nil => rfl
  | cons i idx ih =>
    rw [List.mapM_cons, List.mapM_cons, ih, List.getElem?_map]
    generalize List.mapM (m := Except PyErr) _ idx = r
    cases data[i]? with
    | none => rfl
    | some c => cases r <;> rfl

/-- What a segment contributes, with break points moved. -/
def moveSegment (β : ℝ) (r : SegmentOut) : SegmentOut := { r with breaks := r.breaks.map (· + β) }

theorem segmentWork_shift (β : ℝ) (E : Piecewise.Env) (S : Settings) (mb : List (List ℤ)) (data : List Column) (coords : Option (List Stats.Coord)) (iv : ℕ × ℝ) :
    segmentWork E (moveBreaks β S) mb (data.map (renumber β)) coords iv = (segmentWork E S mb data coords iv).map (moveSegment β) := by
  unfold segmentWork
  simp only [show (moveBreaks β S).calseries = S.calseries from rfl, show (moveBreaks β S).breaks = S.breaks.map (List.map (Option.map (· + β))) from rfl,
    List.length_map, gather_cols, fitArgs_shift]
  cases coords with
  | none => rfl
  | some cs =>
    dsimp only
    cases gather cs (argwhere (fun c : ℝ => decide (c = iv.2)) S.calseries) with
    | error e => rfl
    | ok sub =>
      cases gather data (argwhere (fun c : ℝ => decide (c = iv.2)) S.calseries) with
      | error e => rfl
      | ok cols =>
        cases fitArgs mb S.breaks iv.1 with
        | error e => rfl
        | ok args =>
          simp only [Except.map, bind, Except.bind]
          rw [fitSegment_shift]
          cases fitSegment E S iv.1 cols sub args with
          | error e => rfl
          | ok fit =>
            cases fit with
            | none =>
              simp only [Except.map, Option.map_none]
              split_ifs <;> rfl
            | some f =>
              obtain ⟨m, f⟩ := f
              simp only [Except.map, Option.map_some, segmentOut_shift]
              cases segmentOut E.gsw cols f with
              | error e => rfl
              | ok res =>
                dsimp only
                split_ifs <;> rfl

theorem applySegment_shift (β : ℝ) (out : CalibFile) (r : SegmentOut) : applySegment (moveFile β out) (moveSegment β r) = moveFile β (applySegment out r) := by
  unfold applySegment moveFile moveSegment
  simp only [List.length_map, List.map_append]
  split_ifs <;> rfl

theorem checkBreaks_shift (β : ℝ) (n : ℕ) (mb : List (List ℤ)) (breaks : List (List (Option ℝ))) :
    checkBreaks n mb (breaks.map (List.map (Option.map (· + β)))) = checkBreaks n mb breaks := by
  have h : checkBreaksOf mb (breaks.map (List.map (Option.map (· + β)))) = checkBreaksOf mb breaks := by
    funext k
    unfold checkBreaksOf
    rw [List.getElem?_map]
    cases breaks[k]? with
    | none => rfl
    | some row =>
      have : ((row.map (Option.map (· + β))).filter Option.isSome).length = (row.filter Option.isSome).length := by
        rw [List.filter_map, List.length_map]
        congr 2
        funext o
        cases o <;> rfl
      simp only [Option.map_some, this]
  unfold checkBreaks
  rw [List.length_map, h]

theorem calibrate_shift (β : ℝ) (E : Piecewise.Env) (S : Settings) (data : List Column) (coords : Option (List Stats.Coord)) :
    calibrate E (moveBreaks β S) (data.map (renumber β)) coords = (calibrate E S data coords).map (moveFile β) := by
  have hstep : ∀ (mb : List (List ℤ)) (l : List (ℕ × ℝ)) (out : CalibFile),
      l.foldlM (segmentStep E (moveBreaks β S) mb (data.map (renumber β)) coords) (moveFile β out) = (l.foldlM (segmentStep E S mb data coords) out).map (moveFile β) := by
    intro mb l
    induction l with
    | nil => intro out; rfl
    | cons iv l ih =>
      intro out
      rw [List.foldlM_cons, List.foldlM_cons]
      unfold segmentStep
      rw [segmentWork_shift]
      cases segmentWork E S mb data coords iv with
      | error e => rfl
      | ok r =>
        simp only [Except.map, bind, Except.bind, pure, Except.pure, applySegment_shift]
        exact ih _
  have hb : (⟨(data.map (renumber β)).map blankColumn, [], []⟩ : CalibFile) = moveFile β ⟨data.map blankColumn, [], []⟩ := by
    unfold moveFile
    rw [List.map_map]
    rfl
  unfold calibrate
  dsimp only
  rw [hb, show segments (moveBreaks β S) = segments S from rfl, show (moveBreaks β S).maxBreaks = S.maxBreaks from rfl,
    show (moveBreaks β S).breaks = S.breaks.map (List.map (Option.map (· + β))) from rfl, checkBreaks_shift]
  cases checkBreaks (segments S).length (checkMaxBreaks (segments S).length S.maxBreaks).1 S.breaks with
  | error e => rfl
  | ok ok =>
    simp only [bind, Except.bind]
    split_ifs
    · exact hstep _ _ _
    · rfl

/-! ### Labels -/

theorem segments_relabel (g : ℝ → ℝ) (hg : StrictMono g) (h0 : g 0 = 0) (S : Settings) : segments (relabel g S) = (segments S).map g := by
  unfold segments relabel
  dsimp only
  rw [uniqueReal_map g hg, List.filter_map]
  congr 1
  apply List.filter_congr
  intro v _
  simp only [Function.comp, decide_eq_decide]
  rw [not_iff_not]
  conv_lhs => rw [← h0]
  exact hg.injective.eq_iff

theorem segmentWork_relabel (g : ℝ → ℝ) (hg : StrictMono g) (E : Piecewise.Env) (S : Settings) (mb : List (List ℤ)) (data : List Column)
    (coords : Option (List Stats.Coord)) (i : ℕ) (v : ℝ) : segmentWork E (relabel g S) mb data coords (i, g v) = segmentWork E S mb data coords (i, v) := by
  have h : argwhere (fun c : ℝ => decide (c = g v)) (S.calseries.map g) = argwhere (fun c : ℝ => decide (c = v)) S.calseries := by
    rw [argwhere_map]
    congr 1
    funext c
    simp [hg.injective.eq_iff]
  unfold segmentWork
  dsimp only
  rw [show (relabel g S).calseries = S.calseries.map g from rfl, h]
  rfl

theorem calibrate_relabel (g : ℝ → ℝ) (hg : StrictMono g) (h0 : g 0 = 0) (E : Piecewise.Env) (S : Settings) (data : List Column) (coords : Option (List Stats.Coord)) :
    calibrate E (relabel g S) data coords = calibrate E S data coords := by
  unfold calibrate
  dsimp only
  rw [segments_relabel g hg h0, List.length_map, show (relabel g S).maxBreaks = S.maxBreaks from rfl, show (relabel g S).breaks = S.breaks from rfl]
  congr 1
  funext ok
  split_ifs
  · rw [List.zipIdx_map, List.map_map]
    generalize (⟨data.map blankColumn, [], []⟩ : CalibFile) = out
    induction (segments S).zipIdx generalizing out with
    | nil => rfl
    | cons a l ih =>
      rw [List.map_cons, List.map_cons, List.foldlM_cons, List.foldlM_cons]
      have : ∀ o, segmentStep E (relabel g S) (checkMaxBreaks (segments S).length S.maxBreaks).1 data coords o (a.2, g a.1) =
          segmentStep E S (checkMaxBreaks (segments S).length S.maxBreaks).1 data coords o (a.2, a.1) := by
        intro o
        unfold segmentStep
        rw [segmentWork_relabel g hg]
      change (segmentStep E (relabel g S) _ data coords out (a.2, g a.1) >>= _) = _
      rw [this]
      congr 1
      funext o
      exact ih o
  · rfl

end Verif.Lemmas.Rename
