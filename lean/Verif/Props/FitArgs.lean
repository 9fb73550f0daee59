import Verif.Props.FitMore

/-!
# Properties of `fit_cond`: its extra arguments, fixed and free break points, order of the observations
-/

set_option linter.unusedSectionVars false

namespace Verif.Props

open Verif.Np Verif.Spec Verif.BreakFit Verif.FitCond Matrix

/-! ## C30: arguments -/

/-- The names `fit_cond` knows. -/
def knownNames : List String := ["initial_breaks", "max_no_breaks", "number_breaks", "nloops", "breaks"]

/-- A (name, value) pair `fit_cond` can use: the name is a text that is known up to case; break points are arrays. -/
def GoodPair (p : Arg × Arg) : Prop :=
  ∃ s, p.1 = .str s ∧ s.toLower ∈ knownNames ∧ (s.toLower = "breaks" → ∃ l, p.2 = .arr l) ∧
    (s.toLower = "initial_breaks" → ∀ t, p.2 ≠ .str t)

/-- The argument list `name, value, name, value, …`. -/
def flatArgs (l : List (Arg × Arg)) : List Arg := l.flatMap fun p => [p.1, p.2]

/-- The value given to one of the names, if this is one of them. -/
def valueOf (names : List String) (p v : Arg) : Option Arg :=
  match p with
  | .str s => if s.toLower ∈ names then some v else none
  | _ => none

/-- The non-empty fixed break points given. -/
def breaksOf (p v : Arg) : Option (List ℝ) :=
  match p, v with
  | .str s, .arr l => if s.toLower = "breaks" ∧ l ≠ [] then some l else none
  | _, _ => none

/-- The name and value that set the number of break points. -/
def numberOf (p v : Arg) : Option (Bool × Arg) :=
  match p with
  | .str s => if s.toLower = "max_no_breaks" then some (false, v) else if s.toLower = "number_breaks" then some (true, v) else none
  | _ => none

/-- The smallest number of break points tried. -/
def leastOf : Option (Bool × Arg) → ℤ
  | some (true, .int k) => k
  | _ => -1

theorem flatArgs_length (l : List (Arg × Arg)) : (flatArgs l).length = 2 * l.length := by
  induction l with
  | nil => rfl
  | cons p l ih => simp [flatArgs] at ih ⊢; omega

theorem lastOf_cons {α β γ : Type} (pick : α → β → Option γ) (p : α × β) (l : List (α × β)) :
    lastOf pick (p :: l) = (lastOf pick l).or (pick p.1 p.2) := by
  unfold lastOf
  rw [List.filterMap_cons]
  cases h : pick p.1 p.2 with
  | none => simp
  | some v =>
    simp only [List.getLast?_cons]
    cases (List.filterMap (fun p => pick p.1 p.2) l).getLast? <;> simp

theorem parsePairs_spec (l : List (Arg × Arg)) (h : ∀ p ∈ l, GoodPair p) (o : Opts) :
    ∃ o', parsePairs o (flatArgs l) = .ok o' ∧
      o'.maxBrkIn = (lastOf (valueOf ["max_no_breaks", "number_breaks"]) l).or o.maxBrkIn ∧
      o'.nbr1 = (match lastOf numberOf l with | some q => leastOf (some q) | none => o.nbr1) ∧
      o'.nloops = (lastOf (valueOf ["nloops"]) l).getD o.nloops ∧
      o'.breaks = (lastOf breaksOf l).or o.breaks := by
  induction l generalizing o with
  | nil => exact ⟨o, rfl, by simp [lastOf], by simp [lastOf], by simp [lastOf], by simp [lastOf]⟩
  | cons p l ih =>
    obtain ⟨q, v⟩ := p
    obtain ⟨s, hs, hmem, hbr, hin⟩ := h _ List.mem_cons_self
    simp only at hs hbr hin
    subst hs
    have ih := ih (fun p hp => h p (List.mem_cons_of_mem _ hp))
    rw [show flatArgs ((.str s, v) :: l) = .str s :: v :: flatArgs l from rfl]
    simp only [parsePairs, lastOf_cons]
    simp only [knownNames, List.mem_cons, List.not_mem_nil, or_false] at hmem
    have fin : ∀ o1, parseStep o (.str s) v = .ok o1 →
        o1.maxBrkIn = (valueOf ["max_no_breaks", "number_breaks"] (.str s) v).or o.maxBrkIn →
        o1.nbr1 = (match numberOf (.str s) v with | some q => leastOf (some q) | none => o.nbr1) →
        o1.nloops = (valueOf ["nloops"] (.str s) v).getD o.nloops →
        o1.breaks = (breaksOf (.str s) v).or o.breaks →
        ∃ o', (do let o' ← parseStep o (.str s) v; parsePairs o' (flatArgs l)) = .ok o' ∧
          o'.maxBrkIn = ((lastOf (valueOf ["max_no_breaks", "number_breaks"]) l).or
            (valueOf ["max_no_breaks", "number_breaks"] (.str s) v)).or o.maxBrkIn ∧
          o'.nbr1 = (match (lastOf numberOf l).or (numberOf (.str s) v) with | some q => leastOf (some q) | none => o.nbr1) ∧
          o'.nloops = ((lastOf (valueOf ["nloops"]) l).or (valueOf ["nloops"] (.str s) v)).getD o.nloops ∧
          o'.breaks = ((lastOf breaksOf l).or (breaksOf (.str s) v)).or o.breaks := by
      intro o1 h0 h1 h2 h3 h4
      obtain ⟨o', g0, g1, g2, g3, g4⟩ := ih o1
      refine ⟨o', by rw [h0]; exact g0, ?_, ?_, ?_, ?_⟩
      · rw [g1, h1, Option.or_assoc]
      · rw [g2, h2]
        cases lastOf numberOf l <;> simp
      · rw [g3, h3]
        cases lastOf (valueOf ["nloops"]) l <;> simp
      · rw [g4, h4, Option.or_assoc]
    rcases hmem with e | e | e | e | e
    · cases v with
      | str t => exact absurd rfl (hin e t)
      | int k =>
        refine fin { o with initLen := 1 } ?_ ?_ ?_ ?_ ?_
        · simp [parseStep, e]
        all_goals simp [valueOf, numberOf, breaksOf, e]
      | arr a =>
        refine fin { o with initLen := a.length } ?_ ?_ ?_ ?_ ?_
        · simp [parseStep, e]
        all_goals simp [valueOf, numberOf, breaksOf, e]
    · refine fin { o with maxBrkIn := some v, nbr1 := -1 } ?_ ?_ ?_ ?_ ?_
      · simp [parseStep, e]
      · simp [valueOf, e]
      · simp [numberOf, leastOf, e]
      · simp [valueOf, e]
      · cases v <;> simp [breaksOf, e]
    · refine fin { o with maxBrkIn := some v, nbr1 := match v with | .int k => k | _ => -1 } ?_ ?_ ?_ ?_ ?_
      · cases v <;> simp [parseStep, e]
      · simp [valueOf, e]
      · cases v <;> simp [numberOf, leastOf, e]
      · simp [valueOf, e]
      · cases v <;> simp [breaksOf, e]
    · refine fin { o with nloops := v } ?_ ?_ ?_ ?_ ?_
      · simp [parseStep, e]
      · simp [valueOf, e]
      · simp [numberOf, e]
      · simp [valueOf, e]
      · cases v <;> simp [breaksOf, e]
    · obtain ⟨a, ha⟩ := hbr e
      subst ha
      by_cases hz : a = []
      · refine fin o ?_ ?_ ?_ ?_ ?_
        · simp [parseStep, e, hz]
        all_goals simp [valueOf, numberOf, breaksOf, e, hz]
      · refine fin { o with breaks := some a } ?_ ?_ ?_ ?_ ?_
        · simp [parseStep, e, List.length_pos_iff, hz]
        all_goals simp [valueOf, numberOf, breaksOf, e, hz]

/-- C30. Usable pairs in any order and number are accepted, names in any case; for every option the last value wins. -/
theorem args_last_wins (l : List (Arg × Arg)) (h : ∀ p ∈ l, GoodPair p) :
    ∃ o, parseArgs (flatArgs l) = .ok o ∧
      o.maxBrkIn = lastOf (valueOf ["max_no_breaks", "number_breaks"]) l ∧
      o.nbr1 = leastOf (lastOf numberOf l) ∧
      o.nloops = (lastOf (valueOf ["nloops"]) l).getD (.int 200) ∧
      o.breaks = lastOf breaksOf l := by
  obtain ⟨o, h0, h1, h2, h3, h4⟩ := parsePairs_spec l h {}
  refine ⟨o, ?_, by simpa using h1, ?_, h3, by simpa using h4⟩
  · unfold parseArgs
    rw [if_neg (by rw [flatArgs_length]; omega)]
    exact h0
  · rw [h2]
    cases lastOf numberOf l <;> rfl

/-- C30. After usable pairs, a name that is not a text, or is not known, is a `ValueError`. -/
theorem args_bad_name (l : List (Arg × Arg)) (h : ∀ p ∈ l, GoodPair p) (p v : Arg) (rest : List (Arg × Arg))
    (hp : ∀ s, p = .str s → s.toLower ∉ knownNames) :
    parseArgs (flatArgs (l ++ (p, v) :: rest)) = .error .valueError := by
  unfold parseArgs
  rw [if_neg (by rw [flatArgs_length]; omega)]
  have key : ∀ (l : List (Arg × Arg)) (o : Opts), (∀ p ∈ l, GoodPair p) →
      parsePairs o (flatArgs (l ++ (p, v) :: rest)) = .error .valueError := by
    intro l
    induction l with
    | nil =>
      intro o _
      rw [List.nil_append, show flatArgs ((p, v) :: rest) = p :: v :: flatArgs rest from rfl]
      have : parseStep o p v = .error .valueError := by
        cases p with
        | str s =>
          have hs := hp s rfl
          simp only [knownNames, List.mem_cons, List.not_mem_nil, or_false, not_or] at hs
          simp [parseStep, hs]
        | int k => rfl
        | arr a => rfl
      simp only [parsePairs, this]
      rfl
    | cons q l ih =>
      intro o hl
      have h1 := hl q List.mem_cons_self
      obtain ⟨o', ho', _⟩ := parsePairs_spec [q] (fun p hp => by rw [List.mem_singleton.1 hp]; exact h1) o
      rw [List.cons_append, show flatArgs (q :: (l ++ (p, v) :: rest)) = q.1 :: q.2 :: flatArgs (l ++ (p, v) :: rest) from rfl]
      have hstep : ∃ o1, parseStep o q.1 q.2 = .ok o1 := by
        rw [show flatArgs [q] = q.1 :: q.2 :: [] from rfl] at ho'
        simp only [parsePairs] at ho'
        cases hq : parseStep o q.1 q.2 with
        | ok o1 => exact ⟨o1, rfl⟩
        | error e => rw [hq] at ho'; simp [bind, Except.bind] at ho'
      obtain ⟨o1, hstep⟩ := hstep
      simp only [parsePairs, hstep]
      exact ih o1 (fun p hp => hl p (List.mem_cons_of_mem _ hp))
  exact key l {} h

/-- C30. An odd number of arguments is a `ValueError`. -/
theorem args_odd (args : List Arg) (h : args.length % 2 = 1) : parseArgs args = .error .valueError := by
  unfold parseArgs; rw [if_pos (by omega)]

/-- C30. These errors are those of `fit_cond`, if there is a good observation. -/
theorem fit_args_error (obs : List Obs) (hgood : ∃ o ∈ obs, o.y.isSome) (lvcov : ℕ → ℕ → ℝ) (args : List Arg) (opt : Externals) (e : PyErr)
    (h : parseArgs args = .error e) : fitCond obs lvcov args opt = .error e := by
  obtain ⟨o, ho, hy⟩ := hgood
  unfold fitCond
  simp only
  have h1 : (argwhere (fun o : Obs => o.y.isSome) obs).length ≠ 0 := by
    rw [argwhere_length]
    exact (List.countP_pos_iff.2 ⟨o, ho, hy⟩).ne'
  have h2 : (uniqueReal (obs.map Obs.x)).length ≠ 0 := by
    intro hc
    have : o.x ∈ uniqueReal (obs.map Obs.x) := (uniqueReal_mem _ _).2 (List.mem_map_of_mem ho)
    rw [List.length_eq_zero_iff.1 hc] at this
    simp at this
  obtain ⟨n, hn⟩ := Nat.exists_eq_succ_of_ne_zero h1
  obtain ⟨m, hm⟩ := Nat.exists_eq_succ_of_ne_zero h2
  rw [hn, hm]
  simp only [fitCore, h, bind, Except.bind, Except.map]

/-- C30, finding. Without good observations any arguments are accepted. -/
theorem fit_args_unchecked (obs : List Obs) (h : ∀ o ∈ obs, o.y = none) (lvcov : ℕ → ℕ → ℝ) (args : List Arg) (opt : Externals) :
    fitCond obs lvcov args opt = .ok none := by
  unfold fitCond
  simp only
  have h1 : (argwhere (fun o : Obs => o.y.isSome) obs).length = 0 := by
    rw [argwhere_length, List.countP_eq_zero]
    intro o ho; simp [h o ho]
  rw [h1]

example : ∀ p ∈ [((.str "Breaks", .arr [3, 5]) : Arg × Arg), (.str "MAX_NO_BREAKS", .int 2)], GoodPair p := by
  intro p hp
  simp only [List.mem_cons, List.not_mem_nil, or_false] at hp
  have h1 : "Breaks".toLower = "breaks" := by decide +kernel
  have h2 : "MAX_NO_BREAKS".toLower = "max_no_breaks" := by decide +kernel
  rcases hp with rfl | rfl
  · exact ⟨"Breaks", rfl, by rw [h1]; simp [knownNames], fun _ => ⟨_, rfl⟩, by rw [h1]; simp⟩
  · exact ⟨"MAX_NO_BREAKS", rfl, by rw [h2]; simp [knownNames], by rw [h2]; simp, by rw [h2]; simp⟩

/-! ## Free break points -/

/-- Data that determine a broken line give a regular scaled problem. -/
theorem scaled_det {n b : ℕ} (x y err : Fin (n + 1) → ℝ) (l : Fin b → ℝ) (hx : Monotone x) (he : ∀ i, 0 < err i)
    (hk : Monotone (Fin.cons (x 0) l : Fin (b + 1) → ℝ)) (hD : Determined (Fin.cons (x 0) l : Fin (b + 1) → ℝ) (fun _ => 1) x) :
    ((trends (scaled x y err).xf (sc x l))ᵀ * diagonal (scaled x y err).w * trends (scaled x y err).xf (sc x l)).det ≠ 0 := by
  have hxs := xScale_pos x hx
  refine (determined_iff _ (xf_mono x y err hx) _ _ rfl (knots_mono x y err hx _ hk) _ (fun i => (scaled_w_pos x y err he i).le)).1 ?_
  intro slope f hf hz
  obtain ⟨h0, hs⟩ := hD (fun j => slope j / xScale x) (fun t => f ((t - xCentre x) / xScale x)) (by
    intro j t ht ht'
    rw [cons_scale] at hf
    have := hf j ((t - xCentre x) / xScale x) (by simp only; gcongr) (fun h => by have := ht' h; simp only; gcongr)
    show f ((t - xCentre x) / xScale x) = f (((Fin.cons (x 0) l : Fin (b + 1) → ℝ) j - xCentre x) / xScale x) +
      slope j / xScale x * (t - (Fin.cons (x 0) l : Fin (b + 1) → ℝ) j)
    rw [this]
    field_simp
    ring) (fun i _ => hz i (scaled_w_pos x y err he i).ne')
  refine ⟨?_, ?_⟩
  · rw [cons_scale]; exact h0
  · ext j
    have := congrFun hs j
    simp only [Pi.zero_apply] at this ⊢
    rcases div_eq_zero_iff.1 this with h | h
    · exact h
    · exact absurd h hxs.ne'

theorem deviation_eq_zero {n : ℕ} (x y err : Fin n → ℝ) (he : ∀ i, 0 < err i) (g : ℝ → ℝ) :
    deviation (fun i => 1 / err i ^ 2) x y g = 0 ↔ ∀ i, y i = g (x i) := by
  unfold deviation
  rw [Finset.sum_eq_zero_iff_of_nonneg (fun i _ => by have := he i; positivity)]
  constructor
  · intro h i
    have := h i (Finset.mem_univ i)
    have hp : 0 < 1 / err i ^ 2 := by have := he i; positivity
    rcases mul_eq_zero.1 this with h | h
    · exact absurd h hp.ne'
    · have := pow_eq_zero_iff (by norm_num) |>.1 h; linarith
  · intro h i _
    rw [h i]; ring

/-! ## Fixed break points -/

/-- The options after `'breaks', l, 'max_no_breaks', k`. -/
theorem parse_fixed (l : List ℝ) (hl : l ≠ []) (k : ℤ) :
    parseArgs [.str "breaks", .arr l, .str "max_no_breaks", .int k] =
      .ok { maxBrkIn := some (.int k), breaks := some l } := by
  have h1 : "breaks".toLower = "breaks" := by decide +kernel
  have h2 : "max_no_breaks".toLower = "max_no_breaks" := by decide +kernel
  simp [parseArgs, parsePairs, parseStep, h1, h2, bind, Except.bind, List.length_pos_iff, hl]

section

variable {n m : ℕ} (xfit : Fin (m + 1) → ℝ) (x y err : Fin (n + 1) → ℝ) (cov : Matrix (Fin (n + 1)) (Fin (n + 1)) ℝ) (opt : Externals)

/-- C76, finding. Fixed break points without `max_no_breaks` always fail. -/
theorem fit_breaks_alone_fail (l : List ℝ) (hl : l ≠ []) :
    fitCore xfit x y err cov [.str "breaks", .arr l] opt = .error .typeError := by
  have h1 : "breaks".toLower = "breaks" := by decide +kernel
  have h2 : parseArgs [.str "breaks", .arr l] = .ok { breaks := some l } := by
    simp [parseArgs, parsePairs, parseStep, h1, bind, Except.bind, List.length_pos_iff, hl]
  unfold fitCore
  rw [h2]
  simp [bind, Except.bind, maxBreaks]

/-- C76, finding. Fixed break points are fitted only if `max_no_breaks` is their number, or if it is greater and the degrees of
freedom are too few for one more break point; in all other cases `fit_cond` fails. -/
theorem fit_fixed_fails (l : List ℝ) (hl : l ≠ []) (k : ℤ)
    (h : ¬ (k = l.length ∨ (k > l.length ∧ effectiveNumber cov ≤ 2 * (l.length : ℝ) + 7))) :
    ∃ e, fitCore xfit x y err cov [.str "breaks", .arr l, .str "max_no_breaks", .int k] opt = .error e := by
  rw [show effectiveNumber cov = ndfOf cov from rfl] at h
  have hb : 1 ≤ l.length := List.length_pos_iff.2 hl
  unfold fitCore
  rw [parse_fixed l hl k]
  simp only [bind, Except.bind, Option.map_some, List.length_map, Option.isSome_some, Option.isNone_some]
  have hmb : maxBreaks { maxBrkIn := some (.int k), breaks := some (l.map fun v => (v - xCentre x) / xScale x) } =
      if k < -1 then .error .valueError else .ok k := rfl
  rw [hmb]
  by_cases hk : k < -1
  · rw [if_pos hk]; exact ⟨_, rfl⟩
  rw [if_neg hk]
  simp only
  set o : Opts := { maxBrkIn := some (.int k), breaks := some (l.map fun v => (v - xCentre x) / xScale x) } with ho
  have hob : o.breaks = some (l.map fun v => (v - xCentre x) / xScale x) := rfl
  have hoi : o.initLen = 0 := rfl
  set d := scaled x y err
  set lo := (limits d.xf).1
  set hi := (limits d.xf).2
  have hbr : (0 : ℝ) < (l.length : ℝ) := by exact_mod_cast hb
  set b := l.length with hbdef
  by_cases hpf : presetFails d o k
  · rw [if_pos hpf]; exact ⟨_, rfl⟩
  rw [if_neg hpf]
  simp only [pure, Except.pure]
  -- a plan whose list starts with a model that fails
  have bad : ∀ (p : Plan) (a : ℤ) (rest : List ℤ), p.pbrk = a :: rest → (∃ e, tryModel d lo hi o k p opt a = .error e) →
      ∃ e, p.pbrk.mapM (tryModel d lo hi o k p opt) = .error e := by
    rintro p a rest hp ⟨e, he⟩
    refine ⟨e, ?_⟩
    rw [hp, List.mapM_cons, he]; rfl
  have head : ∀ a c : ℤ, a < c → ∃ rest, irange a c = a :: rest := by
    intro a c hac
    unfold irange
    obtain ⟨q, hq⟩ : ∃ q, (c - a).toNat = q + 1 := ⟨(c - a).toNat - 1, by omega⟩
    rw [hq, List.range_succ_eq_map]
    simp
  have one : ∀ (p : Plan) (a : ℤ), 1 ≤ a → (p.nbr1 ≠ p.maxBrk ∨ a > k ∨ (b : ℤ) ≠ a) → ∃ e, tryModel d lo hi o k p opt a = .error e := by
    intro p a ha hcase
    unfold tryModel
    rw [if_neg (by omega), if_neg (by omega), if_neg (by rw [hoi]; push_cast; omega)]
    simp only [hob]
    by_cases h1 : p.nbr1 = p.maxBrk
    · rw [if_pos h1]
      by_cases h2 : a > k
      · rw [if_pos h2]; exact ⟨_, rfl⟩
      · rw [if_neg h2, if_pos (by
          rcases hcase with h | h | h
          · exact absurd h1 h
          · exact absurd h h2
          · simpa [← hbdef] using h)]
        exact ⟨_, rfl⟩
    · rw [if_neg h1]; exact ⟨_, rfl⟩
  push Not at h
  obtain ⟨hne, hgt⟩ := h
  rcases lt_trichotomy k (b : ℤ) with hlt | heq | hgt'
  · by_cases hk0 : k = 0
    · -- storage too small
      subst hk0
      have hplan : ∃ p : Plan, plan (some b) 0 (-1) (ndfOf cov) = p ∧ p.pbrk = [(b : ℤ)] := by
        refine ⟨_, rfl, ?_⟩
        unfold plan
        simp only [if_true]
        have e1 : ((b : ℤ) : ℝ) = (b : ℝ) := by push_cast; rfl
        split_ifs with h1 h2
        · exfalso; linarith
        · rfl
        · simp [irange]
      obtain ⟨p, hp, hpb⟩ := hplan
      obtain ⟨e, he⟩ := bad p b [] hpb (one p b (by omega) (Or.inr (Or.inl (by omega))))
      rw [hp, he]
      exact ⟨e, rfl⟩
    · -- fewer allowed than given
      have hplan : ∃ p : Plan, plan (some b) k (-1) (ndfOf cov) = p ∧ (p.pbrk = [(b : ℤ)] ∨ (p.pbrk = [] ∧ p.nbr1 = b ∧ p.maxBrk = k)) := by
        refine ⟨_, rfl, ?_⟩
        unfold plan
        simp only [if_neg hk0, if_neg (not_lt.2 hlt.le)]
        have e2 : (k : ℝ) < (b : ℝ) := by exact_mod_cast hlt
        split_ifs with h1 h2
        · exfalso; push_cast at h2; linarith
        · exact Or.inl rfl
        · refine Or.inr ⟨?_, rfl, rfl⟩
          unfold irange
          rw [show (k + 1 - (b : ℤ)).toNat = 0 by omega]; rfl
      obtain ⟨p, hp, hpb | ⟨hpb, hp1, hp2⟩⟩ := hplan
      · obtain ⟨e, he⟩ := bad p b [] hpb (one p b (by omega) (Or.inr (Or.inl (by omega))))
        rw [hp, he]
        exact ⟨e, rfl⟩
      · rw [hp, hpb]
        rw [show List.mapM (tryModel d lo hi o k p opt) [] = (.ok [] : Except PyErr (List Fitted)) from rfl]
        simp only
        have : ∃ e, chooseModel (ndfOf cov) (n + 1) true p [] = .error e := by
          unfold chooseModel
          rw [if_neg (by rw [hp1, hp2]; simp; omega)]
          split_ifs
          · exact ⟨_, rfl⟩
          · exact ⟨_, rfl⟩
          · exact ⟨_, rfl⟩
        obtain ⟨e, he⟩ := this
        exact ⟨e, by rw [he]⟩
  · exact absurd heq hne
  · -- more allowed than given
    have hn := hgt hgt'
    have hplan : ∃ p : Plan, plan (some b) k (-1) (ndfOf cov) = p ∧ ∃ rest, p.pbrk = ((b : ℤ) + 1) :: rest := by
      refine ⟨_, rfl, ?_⟩
      unfold plan
      simp only [if_neg (show ¬ k = 0 by omega), if_pos hgt']
      split_ifs with h1 h2
      · apply head
        rw [Int.lt_add_one_iff, Int.le_floor]
        push_cast at h2 ⊢
        linarith
      · exfalso
        push_cast at h2
        linarith
      · exact head _ _ (by omega)
    obtain ⟨p, hp, rest, hpb⟩ := hplan
    obtain ⟨e, he⟩ := bad p _ rest hpb (one p _ (by omega) (Or.inr (Or.inr (by omega))))
    rw [hp, he]
    exact ⟨e, rfl⟩

/-- C76. If `max_no_breaks` is the number of fixed break points and the data determine a broken line with them, `fit_cond` returns the
given break points and, for the profiles, the values of a broken line that has the least sum of squared deviations weighted by the
inverse error variances; in particular data on such a line are reproduced. -/
theorem fit_fixed {l : List ℝ} (hl : l ≠ []) (hx : Monotone x) (he : ∀ i, 0 < err i)
    (hk : Monotone (Fin.cons (x 0) (fun i : Fin l.length => l[i]) : Fin (l.length + 1) → ℝ))
    (hD : Determined (Fin.cons (x 0) (fun i : Fin l.length => l[i]) : Fin (l.length + 1) → ℝ) (fun _ => 1) x)
    (hxm : Monotone xfit) (hfirst : xfit 0 = x 0) :
    ∃ fit f slope, fitCore xfit x y err cov [.str "breaks", .arr l, .str "max_no_breaks", .int l.length] opt = .ok fit ∧
      fit.breaks = l ∧ IsBrokenLine (Fin.cons (x 0) (fun i : Fin l.length => l[i]) : Fin (l.length + 1) → ℝ) slope f ∧
      (∀ i, fit.condslope i = f (xfit i)) ∧ fit.coef = f (x 0) :: List.ofFn slope ∧
      ∀ slope' g, IsBrokenLine (Fin.cons (x 0) (fun i : Fin l.length => l[i]) : Fin (l.length + 1) → ℝ) slope' g →
        deviation (fun i => 1 / err i ^ 2) x y f ≤ deviation (fun i => 1 / err i ^ 2) x y g := by
  have hb : 1 ≤ l.length := List.length_pos_iff.2 hl
  have hxs := xScale_pos x hx
  have hdet := scaled_det x y err (fun i : Fin l.length => l[i]) hx he hk hD
  obtain ⟨a, r, hfit, hrss, hmin⟩ := fit_back x y err hx he (fun i : Fin l.length => l[i]) hk hdet
  set l' := l.map (fun v => (v - xCentre x) / xScale x) with hl'
  have hlen : l'.length = l.length := by simp [hl']
  -- the model in the form the code stores it
  have hcast : ∃ a' : Fin (l'.length + 2) → ℝ, (∀ j : Fin (l.length + 2), a' (j.cast (by rw [hlen])) = a j) ∧
      brkPtFit (scaled x y err).xf (scaled x y err).yf (some (diagonal (scaled x y err).w)) (fun i : Fin l'.length => l'[i]) = .ok (a', r) := by
    have key : ∀ (q : ℕ) (hq : q = l.length) (z : Fin q → ℝ), (∀ i : Fin q, z i = (l[i.val]'(by omega) - xCentre x) / xScale x) →
        ∃ a' : Fin (q + 2) → ℝ, (∀ j : Fin (l.length + 2), a' (j.cast (by rw [hq])) = a j) ∧
        brkPtFit (scaled x y err).xf (scaled x y err).yf (some (diagonal (scaled x y err).w)) z = .ok (a', r) := by
      rintro q rfl z hz
      refine ⟨a, fun j => rfl, ?_⟩
      rw [show z = sc x (fun i : Fin l.length => l[i]) from funext fun i => hz i]
      exact hfit
    exact key l'.length hlen (fun i => l'[i]) (fun i => by simp [hl'])
  obtain ⟨a', haa, hfit'⟩ := hcast
  have hcoef : fitCore xfit x y err cov [.str "breaks", .arr l, .str "max_no_breaks", .int l.length] opt =
      .ok (finish 200 opt x y (scaled x y err) cov xfit (.line l'.length (fun i => l'[i]) a' (rssOf (scaled x y err) r))) := by
    unfold fitCore
    rw [parse_fixed l hl]
    simp only [bind, Except.bind, Option.map_some, List.length_map, Option.isSome_some, Option.isNone_some]
    have hmb : maxBreaks { maxBrkIn := some (.int l.length), breaks := some l' } = .ok (l.length : ℤ) := by
      simp only [maxBreaks]; rw [if_neg (by omega)]
    simp only [hl'] at hmb
    rw [hmb]
    simp only
    have hplan : ∃ p : Plan, plan (some l.length) l.length (-1) (ndfOf cov) = p ∧ p.pbrk = [(l.length : ℤ)] ∧ p.nbr1 = p.maxBrk := by
      refine ⟨_, rfl, ?_⟩
      unfold plan
      simp only [if_neg (show ¬ ((l.length : ℤ) = 0) by omega), if_neg (lt_irrefl (l.length : ℤ))]
      split_ifs with h1 h2
      · exfalso; linarith
      · exact ⟨rfl, rfl⟩
      · refine ⟨?_, rfl⟩
        simp [irange]
    obtain ⟨p, hp, hpb, hp1⟩ := hplan
    have hnd : normalDet (scaled x y err) (.line l'.length (fun i => l'[i]) a' (rssOf (scaled x y err) r)) ≠ 0 := by
      show ((trends (scaled x y err).xf (fun i : Fin l'.length => l'[i]))ᵀ * diagonal (scaled x y err).w *
        trends (scaled x y err).xf (fun i : Fin l'.length => l'[i])).det ≠ 0
      have key : ∀ (q : ℕ) (hq : q = l.length) (z : Fin q → ℝ), (∀ i : Fin q, z i = (l[i.val]'(by omega) - xCentre x) / xScale x) →
          ((trends (scaled x y err).xf z)ᵀ * diagonal (scaled x y err).w * trends (scaled x y err).xf z).det ≠ 0 := by
        rintro q rfl z hz
        rw [show z = sc x (fun i : Fin l.length => l[i]) from funext fun i => hz i]
        exact hdet
      exact key l'.length hlen _ (fun i => by simp [hl'])
    rw [if_neg (show ¬ presetFails (scaled x y err) { maxBrkIn := some (.int l.length), breaks := some l' } l.length from
      fun h => absurd h.1 (by rw [hlen]; exact lt_irrefl _))]
    simp only [pure, Except.pure]
    rw [hp, hpb]
    have htry : tryModel (scaled x y err) (limits (scaled x y err).xf).1 (limits (scaled x y err).xf).2
        { maxBrkIn := some (.int l.length), breaks := some l' } l.length p opt (l.length : ℤ) =
        .ok (.line l'.length (fun i => l'[i]) a' (rssOf (scaled x y err) r)) := by
      unfold tryModel
      rw [if_neg (by omega), if_neg (by omega), if_neg (by simp; omega)]
      simp only
      rw [if_pos hp1, if_neg (lt_irrefl _), if_neg (by rw [hlen]; simp), hfit']
      simp only [bind, Except.bind]
      rw [if_neg (show ¬ singular (scaled x y err) (fun i : Fin l'.length => l'[i]) from hnd)]
      rfl
    rw [show List.mapM (tryModel (scaled x y err) (limits (scaled x y err).xf).1 (limits (scaled x y err).xf).2
        { maxBrkIn := some (.int l.length), breaks := some l' } l.length p opt) [(l.length : ℤ)] =
        .ok [.line l'.length (fun i => l'[i]) a' (rssOf (scaled x y err) r)] by
      rw [List.mapM_cons, htry]; rfl]
    simp only
    have hch : chooseModel (ndfOf cov) (n + 1) true p [.line l'.length (fun i => l'[i]) a' (rssOf (scaled x y err) r)] =
        .ok (.line l'.length (fun i => l'[i]) a' (rssOf (scaled x y err) r)) := by
      unfold chooseModel
      rw [if_pos ⟨rfl, hp1⟩]; rfl
    rw [hch]
    simp only
    rw [if_neg hnd]
    simp [errorLoop]
    rfl
  set F := lineOf (Fin.cons (x 0) (fun i : Fin l.length => l[i]) : Fin (l.length + 1) → ℝ)
    (back (xCentre x) (xScale x) (mean y) (yScale y) a) with hF
  have hF0 : F (x 0) = a 0 * yScale y + mean y := by
    have := lineOf_start _ hk (back (xCentre x) (xScale x) (mean y) (yScale y) a)
    rw [Fin.cons_zero] at this
    rw [hF, this]; rfl
  refine ⟨_, F, _, hcoef, ?_, lineOf_isBroken _ hk _, ?_, ?_, hmin⟩
  · show List.ofFn (fun j : Fin l'.length => l'[j] * xScale x + xCentre x) = l
    apply List.ext_getElem
    · simp [hlen]
    · intro i h1 h2
      rw [List.getElem_ofFn]
      simp [hl']
      field_simp
      ring
  · intro i
    show (trends (fun i => (xfit i - xCentre x) / xScale x) (fun i : Fin l'.length => l'[i]) *ᵥ a') i * yScale y + mean y = _
    have key : ∀ (q : ℕ) (hq : q = l.length) (z : Fin q → ℝ) (c : Fin (q + 2) → ℝ),
        (∀ i : Fin q, z i = (l[i.val]'(by omega) - xCentre x) / xScale x) →
        (∀ j : Fin (l.length + 2), c (j.cast (by rw [hq])) = a j) →
        (trends (fun i => (xfit i - xCentre x) / xScale x) z *ᵥ c) i * yScale y + mean y = F (xfit i) := by
      rintro q rfl z c hz hc
      obtain rfl : c = a := funext hc
      rw [show z = sc x (fun i : Fin l.length => l[i]) from funext fun i => hz i]
      have hcons : (Fin.cons ((xfit 0 - xCentre x) / xScale x) (sc x fun i : Fin l.length => l[i]) : Fin (l.length + 1) → ℝ) =
          fun i => ((Fin.cons (x 0) (fun i : Fin l.length => l[i]) : Fin (l.length + 1) → ℝ) i - xCentre x) / xScale x := by
        rw [hfirst]; exact cons_scale x y err _
      have hmono : Monotone (Fin.cons ((xfit 0 - xCentre x) / xScale x) (sc x fun i : Fin l.length => l[i]) : Fin (l.length + 1) → ℝ) := by
        rw [hfirst]; exact knots_mono x y err hx _ hk
      rw [trends_apply _ (fun i j hij => by
        have := hxm hij
        show (xfit i - xCentre x) / xScale x ≤ (xfit j - xCentre x) / xScale x
        gcongr) _ hmono, hcons, hF]
      exact lineOf_back _ _ _ _ _ _ _ hxs
    exact key l'.length hlen _ a' (fun i => by simp [hl']) haa
  · rw [hF0]
    show (a' 0 * yScale y + mean y) :: List.ofFn (fun j : Fin (l'.length + 1) => a' j.succ * yScale y / xScale x) = _
    have key : ∀ (q : ℕ) (hq : q = l.length) (c : Fin (q + 2) → ℝ),
        (∀ j : Fin (l.length + 2), c (j.cast (by rw [hq])) = a j) →
        (c 0 * yScale y + mean y) :: List.ofFn (fun j : Fin (q + 1) => c j.succ * yScale y / xScale x) =
        (a 0 * yScale y + mean y) :: List.ofFn (fun j : Fin (l.length + 1) => back (xCentre x) (xScale x) (mean y) (yScale y) a j.succ) := by
      rintro q rfl c hc
      obtain rfl : c = a := funext hc
      simp [back, -List.ofFn_succ]
    exact key l'.length hlen a' haa

end

end Verif.Props
