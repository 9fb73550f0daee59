import Verif.Spec.NoEffect
import Verif.Props.Ends

/-!
# C172: settings without effect
-/

set_option linter.unusedSectionVars false

namespace Verif.Props

open Verif.Np Verif.Helper Verif.Region Verif.Profile Verif.Update Verif.Spec Verif.Spec.Profile Verif.Level Verif.Finders
open Verif.Lemmas.Profile Verif.Utilities Verif.Saf Verif.Topo

/-! ## What is recorded of the configuration -/

/-- Data that differ in the recorded settings only. -/
structure SameData (d d' : Mapped ℝ) : Prop where
  rest : d' = { d with settings := d'.settings }
  len : ∀ s, (d'.settings s).length = (d.settings s).length

/-- The same exception, or related results. -/
def BothEnd {α : Type} (Q : α → α → Prop) : Except PyErr α → Except PyErr α → Prop
  | .ok a, .ok b => Q a b
  | .error e, .error e' => e = e'
  | _, _ => False

theorem storeLevel_record (c c' : Setting → ℝ) (k n : ℕ) (d d' : Mapped ℝ) (o : LevelOut ℝ) (h : SameData d d') :
    BothEnd SameData (storeLevel c k n d o) (storeLevel c' k n d' o) := by
  obtain ⟨h1, h2⟩ := h
  obtain ⟨st, hst⟩ : ∃ st, st = d'.settings := ⟨_, rfl⟩
  rw [← hst] at h1 h2
  subst h1
  unfold storeLevel
  simp only [bind, Except.bind]
  cases setEntry (d.mats .ptmp) n k (o.values .ptmp) with
  | error e => rfl
  | ok x1 =>
  cases setEntry (d.mats .mappedSal) n k (o.values .mappedSal) with
  | error e => rfl
  | ok x2 =>
  cases setEntry (d.mats .mapErrors) n k (o.values .mapErrors) with
  | error e => rfl
  | ok x3 =>
  cases setEntry (d.mats .noise) n k (o.values .noise) with
  | error e => rfl
  | ok x4 =>
  cases setEntry (d.mats .signal) n k (o.values .signal) with
  | error e => rfl
  | ok x5 =>
  cases item d.profileNo k with
  | error e => rfl
  | ok x6 =>
  dsimp only
  cases selectedHistoricalPoints x6 d.selected o.points with
  | error e => rfl
  | ok x7 => exact ⟨rfl, fun s => by simpa using h2 s⟩

theorem levelLoop_record (c c' : Setting → ℝ) (k : ℕ) (f : ℕ → Except PyErr (Option (LevelOut ℝ))) (ns : List ℕ) (d d' : Mapped ℝ) (h : SameData d d') :
    BothEnd SameData (levelLoop c k f ns d) (levelLoop c' k f ns d') := by
  induction ns generalizing d d' with
  | nil => exact h
  | cons n ns ih =>
    unfold levelLoop
    simp only [bind, Except.bind]
    cases f n with
    | error e => rfl
    | ok q =>
      cases q with
      | none => exact ih d d' h
      | some o =>
        have := storeLevel_record c c' k n d d' o h
        dsimp only
        cases e1 : storeLevel c k n d o with
        | error e => rw [e1] at this; cases e2 : storeLevel c' k n d' o with
          | error e' => rw [e2] at this; exact this
          | ok d2 => rw [e2] at this; exact this.elim
        | ok d1 => rw [e1] at this; cases e2 : storeLevel c' k n d' o with
          | error e' => rw [e2] at this; exact this.elim
          | ok d2 => rw [e2] at this; exact ih d1 d2 this

theorem processProfile_record (c c' : Setting → ℝ) (P : Update.Profile ℝ) (no : List ℝ) (levels : ℕ) (d d' : Mapped ℝ) (k i : ℕ) (h : SameData d d') :
    BothEnd SameData (processProfile c P no levels d k i) (processProfile c' P no levels d' k i) := by
  obtain ⟨h1, h2⟩ := h
  obtain ⟨st, hst⟩ : ∃ st, st = d'.settings := ⟨_, rfl⟩
  rw [← hst] at h1 h2
  subst h1
  unfold processProfile
  simp only [bind, Except.bind]
  cases item no i with
  | error e => rfl
  | ok v =>
  dsimp only
  cases npInsert d.profileNo k v with
  | error e => rfl
  | ok nos =>
  dsimp only
  by_cases hl : d.lists = true
  · simp only [if_pos hl]
    have key : BothEnd SameData (laVariables levels k { d with profileNo := nos, settings := fun s => d.settings s ++ [none] })
        (laVariables levels k { d with profileNo := nos, settings := fun s => st s ++ [none] }) := by
      unfold laVariables
      dsimp only
      split_ifs
      · exact ⟨rfl, fun s => by simpa using h2 s⟩
      · exact ⟨rfl, fun s => by simpa using h2 s⟩
      · rfl
    cases e1 : laVariables levels k { d with profileNo := nos, settings := fun s => d.settings s ++ [none] } with
    | error e => rw [e1] at key; cases e2 : laVariables levels k { d with profileNo := nos, settings := fun s => st s ++ [none] } with
      | error e' => rw [e2] at key; exact key
      | ok d2 => rw [e2] at key; exact key.elim
    | ok d1 => rw [e1] at key; cases e2 : laVariables levels k { d with profileNo := nos, settings := fun s => st s ++ [none] } with
      | error e' => rw [e2] at key; exact key.elim
      | ok d2 =>
        rw [e2] at key
        dsimp only
        cases P i with
        | error e => rfl
        | ok r =>
          cases r with
          | none => exact key
          | some f => exact levelLoop_record c c' k f _ d1 d2 key
  · simp only [if_neg hl]
    rfl

theorem profileLoop_record (c c' : Setting → ℝ) (P : Update.Profile ℝ) (no : List ℝ) (levels : ℕ) (is : List ℕ) (k : ℕ) (d d' : Mapped ℝ) (h : SameData d d') :
    (profileLoop c' P no levels is k d').1 = (profileLoop c P no levels is k d).1 ∧
      BothEnd SameData (profileLoop c P no levels is k d).2 (profileLoop c' P no levels is k d').2 := by
  induction is generalizing k d d' with
  | nil => exact ⟨rfl, h⟩
  | cons i is ih =>
    have key := processProfile_record c c' P no levels d d' k i h
    unfold profileLoop
    cases e1 : processProfile c P no levels d k i with
    | error e => rw [e1] at key; cases e2 : processProfile c' P no levels d' k i with
      | error e' => rw [e2] at key; exact ⟨rfl, key⟩
      | ok d2 => rw [e2] at key; exact key.elim
    | ok d1 => rw [e1] at key; cases e2 : processProfile c' P no levels d' k i with
      | error e' => rw [e2] at key; exact key.elim
      | ok d2 =>
        rw [e2] at key
        obtain ⟨a, b⟩ := ih (k + 1) d1 d2 key
        exact ⟨by dsimp only; rw [a], b⟩

theorem sortAndCollect_record (argsort : List (Option ℝ) → List ℕ) (d d' : Mapped ℝ) (h : SameData d d') :
    BothEnd SameButRecord (sortAndCollect argsort d) (sortAndCollect argsort d') := by
  obtain ⟨h1, h2⟩ := h
  obtain ⟨st, hst⟩ : ∃ st, st = d'.settings := ⟨_, rfl⟩
  rw [← hst] at h1 h2
  subst h1
  unfold sortAndCollect
  simp only [bind, Except.bind]
  cases gatherAll Mat.all (fun m => if m = .mappedSal then (d.mats m).map (fun c => c.map checkSal) else d.mats m) (argsort (d.profileNo.map some)) with
  | error e => rfl
  | ok m1 =>
  dsimp only
  cases (if d.rows * d.profileNo.length > 1 then gatherAll Mat.all m1 (argsort (d.profileNo.map some)) else Except.ok m1) with
  | error e => rfl
  | ok m2 =>
  dsimp only
  cases (if d.profileNo.length > 1 then gather d.profileNo (argsort (d.profileNo.map some)) else Except.ok d.profileNo) with
  | error e => rfl
  | ok nos =>
  dsimp only
  have key : ∀ idx, BothEnd (fun _ _ => True) (if d.profileNo.length > 1 then gatherAll Setting.all d.settings idx else Except.ok d.settings)
      (if d.profileNo.length > 1 then gatherAll Setting.all st idx else Except.ok st) := by
    intro idx
    by_cases hl : d.profileNo.length > 1
    · rw [if_pos hl, if_pos hl]
      unfold gatherAll
      simp only [h2]
      split_ifs
      · trivial
      · rfl
    · rw [if_neg hl, if_neg hl]; trivial
  have key := key (argsort (d.profileNo.map some))
  cases e1 : (if d.profileNo.length > 1 then gatherAll Setting.all d.settings (argsort (d.profileNo.map some)) else Except.ok d.settings) with
  | error e =>
    rw [e1] at key
    cases e2 : (if d.profileNo.length > 1 then gatherAll Setting.all st (argsort (d.profileNo.map some)) else Except.ok st) with
    | error e' => rw [e2] at key; exact key
    | ok x => rw [e2] at key; exact key.elim
  | ok s1 =>
    rw [e1] at key
    cases e2 : (if d.profileNo.length > 1 then gatherAll Setting.all st (argsort (d.profileNo.map some)) else Except.ok st) with
    | error e' => rw [e2] at key; exact key.elim
    | ok s2 =>
      dsimp only
      split_ifs
      · exact ⟨rfl, rfl, rfl, rfl, rfl⟩
      · rfl

/-- What is recorded of the configuration has no influence on anything else. -/
theorem record_no_effect (A : RunArgs ℝ) (st : Setting → ℝ) (fs : Fs ℝ) :
    (updateMapping { A with cfg := st } fs).1 = (updateMapping A fs).1 ∧
      ((finalFs { A with cfg := st } fs = fs ∧ finalFs A fs = fs) ∨ ∃ file file' : MapFile ℝ, finalFs A fs = Function.update fs A.savePath (some (.whole file)) ∧
        finalFs { A with cfg := st } fs = Function.update fs A.savePath (some (.whole file')) ∧ SameButRecord file file') := by
  have last : ∀ k, ((fs :: List.replicate k fs).getLast?).getD fs = fs := by
    intro k
    rw [← List.replicate_succ, List.getLast?_replicate]
    simp
  unfold finalFs updateMapping
  dsimp only
  cases loadVariables (fs A.loadPath) A.levels with
  | error e => exact ⟨rfl, Or.inl ⟨rfl, rfl⟩⟩
  | ok d =>
    dsimp only
    obtain ⟨h1, h2⟩ := profileLoop_record A.cfg st A.P A.no A.levels (missingProfiles d.profileNo A.no) d.profileIndex d d ⟨rfl, fun _ => rfl⟩
    generalize profileLoop A.cfg A.P A.no A.levels (missingProfiles d.profileNo A.no) d.profileIndex d = r at h1 h2
    generalize profileLoop st A.P A.no A.levels (missingProfiles d.profileNo A.no) d.profileIndex d = r' at h1 h2
    obtain ⟨k, r⟩ := r
    obtain ⟨k', r'⟩ := r'
    dsimp only at h1 h2
    subst h1
    cases r with
    | error e => cases r' with
      | error e' =>
        obtain rfl : e = e' := h2
        exact ⟨rfl, Or.inl ⟨last _, last _⟩⟩
      | ok d2 => exact h2.elim
    | ok d1 => cases r' with
      | error e' => exact h2.elim
      | ok d2 =>
        have key := sortAndCollect_record A.argsort d1 d2 h2
        dsimp only
        cases e1 : sortAndCollect A.argsort d1 with
        | error e => rw [e1] at key; cases e2 : sortAndCollect A.argsort d2 with
          | error e' =>
            rw [e2] at key
            obtain rfl : e = e' := key
            exact ⟨rfl, Or.inl ⟨last _, last _⟩⟩
          | ok f2 => rw [e2] at key; exact key.elim
        | ok f1 => rw [e1] at key; cases e2 : sortAndCollect A.argsort d2 with
          | error e' => rw [e2] at key; exact key.elim
          | ok f2 =>
            rw [e2] at key
            have tail : ∀ (g g' : Fs ℝ), ((fs :: (List.replicate k' fs ++ [g, g'])).getLast?).getD fs = g' := by
              intro g g'
              rw [show fs :: (List.replicate k' fs ++ [g, g']) = (fs :: (List.replicate k' fs ++ [g])) ++ [g'] by simp, List.getLast?_concat]
              rfl
            exact ⟨rfl, Or.inr ⟨f1, f2, tail _ _, tail _ _, key⟩⟩

/-! ## The scales of the potential vorticity -/

/-- A configuration with other scales of the potential vorticity. -/
def otherPhi (c : MapConfig) (a b : ℝ) : MapConfig := { c with phiLarge := a, phiSmall := b }

theorem covarXytPv_phi {m n : ℕ} (p1 : Fin m → Stats.Pos) (p2 : Fin n → Stats.Pos) (S : Stats.Scales) (x : ℝ) (h : S.pvUse ≠ 1) :
    Stats.covarXytPv p1 p2 { S with phi := x } = Stats.covarXytPv p1 p2 S := by
  unfold Stats.covarXytPv Stats.covarEntry Stats.pvTerm
  simp only [h, false_and, if_false]

theorem mapDataGrid_phi {n : ℕ} (sal : Fin n → ℝ) (g : Stats.Pos) (data : Fin n → Stats.Pos) (S : Stats.Scales) (x signal noise : ℝ) (h : S.pvUse ≠ 1) :
    Mapping.mapDataGrid sal g data { S with phi := x } signal noise = Mapping.mapDataGrid sal g data S signal noise := by
  unfold Mapping.mapDataGrid
  simp only [covarXytPv_phi _ _ S x h]

theorem mapStages_phi (c : MapConfig) (a b : ℝ) (g : Stats.Pos) {n : ℕ} (sal : Fin n → ℝ) (data : Fin n → Stats.Pos) (signal noise : ℝ) (h : c.usePv ≠ 1) :
    mapStages (otherPhi c a b) g sal data signal noise = mapStages c g sal data signal noise := by
  have h1 : ∀ s : Fin n → ℝ, Mapping.mapDataGrid s g data (largeScales (otherPhi c a b)) signal noise = Mapping.mapDataGrid s g data (largeScales c) signal noise :=
    fun s => mapDataGrid_phi s g data (largeScales c) a signal noise h
  have h2 : ∀ (s : Fin n → ℝ) (v : ℝ), Mapping.mapDataGrid s g data (smallScales (otherPhi c a b)) v noise = Mapping.mapDataGrid s g data (smallScales c) v noise :=
    fun s v => mapDataGrid_phi s g data (smallScales c) b v noise h
  unfold mapStages
  simp only [h1, h2]

theorem mapLevel_phi (c : MapConfig) (a b : ℝ) (f : FloatPos) (g : GridData ℝ) (sal pres : List (Option ℝ)) (is ip : List (List (Option ℝ))) (n : ℕ)
    (h : c.usePv ≠ 1) : mapLevel (otherPhi c a b) f g sal pres is ip n = mapLevel c f g sal pres is ip n := by
  have key : ∀ hd, mapCasts (otherPhi c a b) f hd = mapCasts c f hd := by
    intro hd
    unfold mapCasts
    simp only [mapStages_phi c a b _ _ _ _ _ h]
  unfold mapLevel
  simp only [key]
  rfl

theorem findBesthist_phi (A : BesthistArgs) (a b : ℝ) (argsort : List (Option ℝ) → List ℕ) (rand : ℕ → ℕ → List ℝ) (casts : List Cast) (h : A.mapPvUse ≠ 1) :
    findBesthist { A with phiLarge := a, phiSmall := b } argsort rand casts = findBesthist A argsort rand casts := by
  have e0 : ∀ c, ellipseOf { A with phiLarge := a, phiSmall := b } c = ellipseOf A c := by
    intro c
    unfold ellipseOf pvFloat pvHist findEllipse
    simp [if_neg h]
  have e1 : corrLarge { A with phiLarge := a, phiSmall := b } = corrLarge A := by
    funext c
    unfold corrLarge pvFloat pvHist spatialCorrelation
    simp [if_neg h]
  have e2 : corrSmall { A with phiLarge := a, phiSmall := b } = corrSmall A := by
    funext c
    unfold corrSmall pvFloat pvHist spatialCorrelation
    simp [if_neg h]
  have e3 : indexEllipse { A with phiLarge := a, phiSmall := b } casts = indexEllipse A casts := by
    unfold indexEllipse inside
    simp only [e0]
  have e4 : ∀ hist idx us, selectBest { A with phiLarge := a, phiSmall := b } argsort hist idx us = selectBest A argsort hist idx us := by
    intro hist idx us
    unfold selectBest
    simp only [e1, e2]
  unfold findBesthist
  simp only [e3, e4]
  rfl

/-! ## The number of casts -/

theorem findBesthist_max (A : BesthistArgs) (k : ℕ) (argsort : List (Option ℝ) → List ℕ) (rand : ℕ → ℕ → List ℝ) (casts : List Cast)
    (h : numInside A casts ≤ A.maxCasts) (hk : numInside A casts ≤ k) :
    findBesthist { A with maxCasts := k } argsort rand casts = findBesthist A argsort rand casts := by
  rw [numInside_eq] at h hk
  have e : indexEllipse { A with maxCasts := k } casts = indexEllipse A casts := rfl
  unfold findBesthist
  simp only [e, if_neg (show ¬ (indexEllipse A casts).length > A.maxCasts by omega), if_neg (show ¬ (indexEllipse A casts).length > k by omega)]
  rfl

/-- The ellipse holds at most the casts in reach. -/
theorem numInside_le (R : FloatRun) (hpv : R.env.cfg.usePv ≠ 1) (casts : List (RefCast ℝ)) (lat long date z : ℝ) (gz : List ℝ) :
    numInside (besthistArgs R.env lat (matchLongitude (wrapLongitude (casts.map (·.long))) long) date z)
      (Verif.Profile.castsOf (casts.map (·.lat)) (wrapLongitude (casts.map (·.long))) (casts.map decimalDate) gz) ≤
      (nearCasts R.env.cfg lat long casts).length := by
  classical
  obtain ⟨view, hview⟩ : ∃ view, view = Verif.Profile.castsOf (casts.map (·.lat)) (wrapLongitude (casts.map (·.long))) (casts.map decimalDate) gz := ⟨_, rfl⟩
  obtain ⟨A, hA⟩ : ∃ A, A = besthistArgs R.env lat (matchLongitude (wrapLongitude (casts.map (·.long))) long) date z := ⟨_, rfl⟩
  rw [← hview, ← hA]
  have hvl : view.length = min casts.length gz.length := by
    rw [hview]
    simp only [Verif.Profile.castsOf, List.length_map, List.length_zip, wrapLongitude_len]
    omega
  have at_ : ∀ (n : ℕ) (c : RefCast ℝ), n < gz.length → casts[n]? = some c → ∃ v, view[n]? = some v ∧ (InEllipse A v ↔ Near R.env.cfg lat long casts c) := by
    intro n c hzn hc
    refine ⟨⟨c.long.map (amongCasts casts), c.lat, some (decimalDate c), some gz[n]⟩, ?_, ?_⟩
    · rw [hview, wrapLongitude_among]
      unfold Verif.Profile.castsOf
      rw [List.getElem?_map]
      have : ((casts.map (·.lat)).zip ((casts.map fun c => c.long.map (amongCasts casts)).zip ((casts.map decimalDate).zip gz)))[n]? =
          some (c.lat, c.long.map (amongCasts casts), decimalDate c, gz[n]) := by
        simp [List.getElem?_zip_eq_some, hc, List.getElem?_eq_getElem hzn]
      rw [this]
      rfl
    · rw [hA, wrapLongitude_among, matchLongitude_among]
      unfold InEllipse Near besthistArgs
      simp only [if_neg hpv, Option.map_eq_some_iff]
      constructor
      · rintro ⟨_, y, ⟨x, hx, rfl⟩, hy, h⟩
        exact ⟨x, y, hx, hy, h⟩
      · rintro ⟨x, y, hx, hy, h⟩
        exact ⟨_, y, ⟨x, hx, rfl⟩, hy, h⟩
  unfold numInside nearCasts
  rw [← List.countP_eq_length_filter]
  have key : view.map (fun v => decide (InEllipse A v)) = (casts.take gz.length).map fun c => decide (Near R.env.cfg lat long casts c) := by
    apply List.ext_getElem
    · simp [hvl, min_comm]
    · intro n h1 h2
      have hn : n < gz.length ∧ n < casts.length := by simpa using h2
      obtain ⟨v, hv, e⟩ := at_ n _ hn.1 (List.getElem?_eq_getElem hn.2)
      obtain ⟨_, rfl⟩ := List.getElem?_eq_some_iff.1 hv
      simp [e]
  have := congrArg (List.countP id) key
  rw [List.countP_map, List.countP_map] at this
  have t := (List.take_sublist gz.length casts).countP_le (p := fun c => decide (Near R.env.cfg lat long casts c))
  exact (show List.countP (fun c => decide (InEllipse A c)) view = _ from this).le.trans t

/-! ## A run -/

theorem chosenCasts_congr (E E' : Env) (f : FloatProfile) (lat long z : ℝ) (h1 : boxesAt E' long lat = boxesAt E long lat) (h2 : E'.disk = E.disk)
    (h3 : E'.name = E.name) (h4 : gridDepths E' = gridDepths E) (h5 : E'.cfg.pDelta = E.cfg.pDelta) (h6 : E'.interp = E.interp)
    (h7 : E'.temperature = E.temperature) (h8 : E'.saf = E.saf) (h9 : E'.useSaf = E.useSaf)
    (h : ∀ boxes h gz, boxesAt E long lat = .ok boxes → histLocations E.disk E.name boxes = .ok h →
      findBesthist (besthistArgs E' lat (matchLongitude h.2.1 long) f.date z) E'.argsort E'.rand (Verif.Profile.castsOf h.1 h.2.1 h.2.2 gz) =
        findBesthist (besthistArgs E lat (matchLongitude h.2.1 long) f.date z) E.argsort E.rand (Verif.Profile.castsOf h.1 h.2.1 h.2.2 gz)) :
    chosenCasts E' f lat long z = chosenCasts E f lat long z := by
  unfold chosenCasts
  rw [h1, h2, h3, h4, h5, h6, h7, h8, h9]
  cases hb : boxesAt E long lat with
  | error e => rfl
  | ok boxes =>
    simp only [bind, Except.bind]
    cases hh : histLocations E.disk E.name boxes with
    | error e => rfl
    | ok x =>
      dsimp only
      cases gridDepths E x.1 x.2.1 with
      | error e => rfl
      | ok gz => dsimp only; rw [h boxes x gz hb hh]

theorem chosenCasts_idle (R : FloatRun) (hw : WellFormedDisk R.env.disk) (hpv : R.env.cfg.usePv ≠ 1) (k : ℕ) (a b : ℝ) (st : Setting → ℝ) (f : FloatProfile)
    (lat long z : ℝ) (hk : k = R.env.maxCasts ∨ (inReach R lat long).length ≤ R.env.maxCasts ∧ (inReach R lat long).length ≤ k) :
    chosenCasts (withIdle R k a b st).env f lat long z = chosenCasts R.env f lat long z := by
  refine chosenCasts_congr R.env (withIdle R k a b st).env f lat long z rfl rfl rfl rfl rfl rfl rfl rfl rfl ?_
  intro boxes h gz hbox hh
  have e1 : besthistArgs (withIdle R k a b st).env lat (matchLongitude h.2.1 long) f.date z =
      { { besthistArgs R.env lat (matchLongitude h.2.1 long) f.date z with maxCasts := k } with phiLarge := a, phiSmall := b } := rfl
  rw [e1, findBesthist_phi { besthistArgs R.env lat (matchLongitude h.2.1 long) f.date z with maxCasts := k } a b _ _ _ hpv,
    show (withIdle R k a b st).env.argsort = R.env.argsort from rfl, show (withIdle R k a b st).env.rand = R.env.rand from rfl]
  rcases hk with rfl | ⟨h1, h2⟩
  · rfl
  · have hne : refCasts R.env.disk R.env.name boxes ≠ [] := by
      intro h0
      have := (hist_locations_spec R.env.disk hw R.env.name boxes).1 h0
      rw [hh] at this
      exact absurd this (by simp)
    have hs := (hist_locations_spec R.env.disk hw R.env.name boxes).2 hne
    rw [hh] at hs
    obtain rfl := Except.ok.inj hs
    have hsur : surrounding R.env long lat = refCasts R.env.disk R.env.name boxes := by
      unfold surrounding
      rw [hbox]
    unfold inReach at h1 h2
    rw [hsur] at h1 h2
    have le := numInside_le R hpv (refCasts R.env.disk R.env.name boxes) lat long f.date z gz
    exact findBesthist_max _ k _ _ _ (le.trans h1) (le.trans h2)

theorem prepare_congr (E E' : Env) (f : FloatProfile) (lat long : ℝ) (h1 : floatDepth E' = floatDepth E)
    (h2 : ∀ z, chosenCasts E' f lat long z = chosenCasts E f lat long z) : prepare E' f lat long = prepare E f lat long := by
  unfold prepare
  rw [h1]
  simp only [h2]

theorem profileOf_congr (E E' : Env) (f : FloatProfile) (h1 : ∀ lat long, f.lat = some lat → f.long = some long → prepare E' f lat long = prepare E f lat long)
    (h2 : levelOf E' f = levelOf E f) : profileOf E' f = profileOf E f := by
  unfold profileOf
  cases hlat : f.lat with
  | none => rfl
  | some lat =>
    cases hlong : f.long with
    | none => rfl
    | some long => dsimp only; rw [h1 lat long hlat hlong, h2]

theorem profilesOf_congr (E E' : Env) (source : List FloatProfile) (h : ∀ f ∈ source, profileOf E' f = profileOf E f) : profilesOf E' source = profilesOf E source := by
  funext i
  unfold profilesOf item
  cases hi : source[i]? with
  | none => rfl
  | some f => exact h f (List.mem_of_getElem? hi)

theorem profileOf_idle (R : FloatRun) (hw : WellFormedDisk R.env.disk) (hpv : R.env.cfg.usePv ≠ 1) (k : ℕ) (a b : ℝ) (st : Setting → ℝ) (f : FloatProfile)
    (hk : k = R.env.maxCasts ∨ ∀ lat long, f.lat = some lat → f.long = some long →
      (inReach R lat long).length ≤ R.env.maxCasts ∧ (inReach R lat long).length ≤ k) :
    profileOf (withIdle R k a b st).env f = profileOf R.env f := by
  refine profileOf_congr R.env (withIdle R k a b st).env f ?_ ?_
  · intro lat long hlat hlong
    exact prepare_congr R.env (withIdle R k a b st).env f lat long rfl fun z =>
      chosenCasts_idle R hw hpv k a b st f lat long z (hk.imp id fun h => h lat long hlat hlong)
  · funext p n
    unfold levelOf
    rw [show (withIdle R k a b st).env.cfg = otherPhi R.env.cfg a b from rfl, mapLevel_phi _ a b _ _ _ _ _ _ _ hpv]

/-- C172: without `MAP_USE_PV`, a run does the same whatever the two scales of the potential vorticity, and, as long as it is not less than the number of casts
in reach of any profile, whatever `MAX_CASTS`: it ends with the same exception or ends normally in both cases, and what it stores differs at most in the
recorded settings. -/
theorem idle_settings (R : FloatRun) (fs : Fs ℝ) (hw : WellFormedDisk R.env.disk) (hpv : R.env.cfg.usePv ≠ 1) (k : ℕ) (a b : ℝ) (st : Setting → ℝ)
    (hk : k = R.env.maxCasts ∨ ∀ f ∈ R.source, ∀ lat long, f.lat = some lat → f.long = some long →
      (inReach R lat long).length ≤ R.env.maxCasts ∧ (inReach R lat long).length ≤ k) :
    (updateMapping (withIdle R k a b st).args fs).1 = (updateMapping R.args fs).1 ∧
      ((finalFs (withIdle R k a b st).args fs = fs ∧ finalFs R.args fs = fs) ∨
        ∃ file file' : MapFile ℝ, finalFs R.args fs = Function.update fs R.args.savePath (some (.whole file)) ∧
          finalFs (withIdle R k a b st).args fs = Function.update fs R.args.savePath (some (.whole file')) ∧ SameButRecord file file') := by
  have e : (withIdle R k a b st).args = { R.args with cfg := st } := by
    have := profilesOf_congr R.env (withIdle R k a b st).env R.source fun f hm => profileOf_idle R hw hpv k a b st f (hk.imp id fun h => h f hm)
    unfold FloatRun.args
    rw [show (withIdle R k a b st).source = R.source from rfl, this]
    rfl
  rw [e]
  exact record_no_effect R.args st fs

end Verif.Props
