import Verif.Props.Ends
import Verif.Props.Boxes
import Verif.Spec.Failure

/-!
# C168: the exception a run without a mapped file ends with
-/

set_option linter.unusedSectionVars false

namespace Verif.Props

open Verif.Np Verif.Utilities Verif.Helper Verif.Region Verif.Profile Verif.Spec Verif.Spec.Profile Verif.Topo Verif.Finders Verif.Saf Verif.Level Verif.Update
open Verif.Lemmas.Profile

/-! ## The first exception -/

section
variable {K : Type} [Field K] [LinearOrder K] [IsStrictOrderedRing K]

theorem levelLoop_first (cfg : Setting → K) (k : ℕ) (f f' : ℕ → Except PyErr (Option (LevelOut K))) (as bs : List ℕ) (n : ℕ) (e : PyErr) (d d' : Mapped K)
    (h : levelLoop cfg k f' (as ++ n :: bs) d = .ok d') (hsame : ∀ m ∈ as, f' m = f m) (he : f n = .error e) :
    levelLoop cfg k f (as ++ n :: bs) d = .error e := by
  induction as generalizing d with
  | nil =>
    rw [List.nil_append]
    unfold levelLoop
    rw [he]
    rfl
  | cons a as ih =>
    rw [List.cons_append] at h ⊢
    unfold levelLoop at h ⊢
    rw [hsame a (List.mem_cons_self ..)] at h
    cases hf : f a with
    | error e' => rw [hf] at h; cases h
    | ok q =>
      rw [hf] at h
      dsimp only [bind, Except.bind] at h ⊢
      cases q with
      | none => exact ih d h fun m hm => hsame m (List.mem_cons_of_mem _ hm)
      | some o =>
        dsimp only at h ⊢
        cases hst : storeLevel cfg k a d o with
        | error e' => rw [hst] at h; cases h
        | ok d1 =>
          rw [hst] at h
          exact ih d1 h fun m hm => hsame m (List.mem_cons_of_mem _ hm)

/-- Two ways to process a profile differ only in what the profile gives. -/
theorem processProfile_first (cfg : Setting → K) (P P' : Update.Profile K) (no : List K) (levels : ℕ) (d d' : Mapped K) (k i : ℕ) (e : PyErr)
    (h : processProfile cfg P' no levels d k i = .ok d')
    (he : P i = .error e ∨ ∃ f f' as n bs, List.range levels = as ++ n :: bs ∧ P i = .ok (some f) ∧ P' i = .ok (some f') ∧ (∀ m ∈ as, f' m = f m) ∧ f n = .error e) :
    processProfile cfg P no levels d k i = .error e := by
  unfold processProfile at h ⊢
  cases hv : item no i with
  | error e' => rw [hv] at h; cases h
  | ok v =>
    rw [hv] at h
    dsimp only [bind, Except.bind] at h ⊢
    cases hn : npInsert d.profileNo k v with
    | error e' => rw [hn] at h; cases h
    | ok nos =>
      rw [hn] at h
      dsimp only at h ⊢
      by_cases hl : d.lists = true
      swap
      · rw [if_neg hl] at h; cases h
      rw [if_pos hl] at h ⊢
      cases hla : laVariables levels k { d with profileNo := nos, settings := fun s => d.settings s ++ [none] } with
      | error e' => rw [hla] at h; cases h
      | ok d1 =>
        rw [hla] at h
        dsimp only at h ⊢
        rcases he with he | ⟨f, f', as, n, bs, hr, h1, h2, h3, h4⟩
        · rw [he]
        · rw [h1]
          rw [h2] at h
          dsimp only at h ⊢
          rw [hr] at h ⊢
          exact levelLoop_first cfg k f f' as bs n e d1 d' h h3 h4

theorem profileLoop_first (cfg : Setting → K) (P P' : Update.Profile K) (no : List K) (levels : ℕ) (as bs : List ℕ) (i : ℕ) (e : PyErr) (k : ℕ) (d d' : Mapped K)
    (h : (profileLoop cfg P' no levels (as ++ i :: bs) k d).2 = .ok d') (hsame : ∀ j ∈ as, P' j = P j)
    (he : P i = .error e ∨ ∃ f f' ms n ns, List.range levels = ms ++ n :: ns ∧ P i = .ok (some f) ∧ P' i = .ok (some f') ∧ (∀ m ∈ ms, f' m = f m) ∧ f n = .error e) :
    (profileLoop cfg P no levels (as ++ i :: bs) k d).2 = .error e := by
  induction as generalizing k d with
  | nil =>
    rw [List.nil_append] at h ⊢
    unfold profileLoop at h ⊢
    cases hp : processProfile cfg P' no levels d k i with
    | error e' => rw [hp] at h; cases h
    | ok d1 => rw [processProfile_first cfg P P' no levels d d1 k i e hp he]
  | cons a as ih =>
    rw [List.cons_append] at h ⊢
    unfold profileLoop at h ⊢
    have hsw : processProfile cfg P' no levels d k a = processProfile cfg P no levels d k a := by
      unfold processProfile
      rw [hsame a (List.mem_cons_self ..)]
    rw [hsw] at h
    cases hp : processProfile cfg P no levels d k a with
    | error e' => rw [hp] at h; cases h
    | ok d1 =>
      rw [hp] at h
      exact ih (k + 1) d1 h fun j hj => hsame j (List.mem_cons_of_mem _ hj)

/-- A profile that can be processed. -/
def Processable (P : Update.Profile K) (levels i : ℕ) : Prop :=
  (∃ r, P i = .ok r ∧ ∀ f, r = some f → ∀ n < levels, ∃ q, f n = .ok q) ∧
  ∀ n < levels, ∀ o, levelOut P i n = some o → o.points.long ≠ [] ∧ o.points.lat.length = o.points.long.length

/-- A run without a mapped file ends with the exception of the first profile that raises one. -/
theorem fresh_first (A : RunArgs K) (fs : Fs K) (hload : fs A.loadPath = none) (i : ℕ) (hi : i < A.no.length) (e : PyErr)
    (hbefore : ∀ j < i, Processable A.P A.levels j)
    (he : A.P i = .error e ∨ ∃ f n, n < A.levels ∧ A.P i = .ok (some f) ∧ f n = .error e ∧ (∀ m < n, ∃ q, f m = .ok q) ∧
      ∀ m < n, ∀ o, f m = .ok (some o) → o.points.long ≠ [] ∧ o.points.lat.length = o.points.long.length) :
    (updateMapping A fs).1 = some e := by
  classical
  obtain ⟨P', hbef, hP', hcase⟩ : ∃ P' : Update.Profile K, (∀ j < i, P' j = A.P j) ∧ Computable P' A.no.length A.levels ∧
      (A.P i = .error e ∨ ∃ f f' ms n ns, List.range A.levels = ms ++ n :: ns ∧ A.P i = .ok (some f) ∧ P' i = .ok (some f') ∧ (∀ m ∈ ms, f' m = f m) ∧
        f n = .error e) := by
    rcases he with he | ⟨f, n, hn, h1, h2, h3, h4⟩
    · refine ⟨fun j => if j < i then A.P j else .ok none, fun j hj => if_pos hj, ⟨?_, ?_⟩, .inl he⟩
      · intro j _
        by_cases hj : j < i
        · obtain ⟨r, hr, hr'⟩ := (hbefore j hj).1
          exact ⟨r, (if_pos hj).trans hr, hr'⟩
        · exact ⟨none, if_neg hj, fun f hf => by cases hf⟩
      · intro j _ n hn o ho
        by_cases hj : j < i
        · refine (hbefore j hj).2 n hn o ?_
          rw [← ho]
          unfold levelOut
          dsimp only
          rw [if_pos hj]
        · unfold levelOut at ho
          dsimp only at ho
          rw [if_neg hj] at ho
          cases ho
    · obtain ⟨f', hf'⟩ : ∃ f' : ℕ → Except PyErr (Option (LevelOut K)), f' = fun m => if m < n then f m else .ok none := ⟨_, rfl⟩
      refine ⟨fun j => if j < i then A.P j else if j = i then .ok (some f') else .ok none, fun j hj => if_pos hj, ⟨?_, ?_⟩,
        .inr ⟨f, f', List.range n, n, List.range' (n + 1) (A.levels - (n + 1)), ?_, h1, ?_, ?_, h2⟩⟩
      · intro j _
        by_cases hj : j < i
        · obtain ⟨r, hr, hr'⟩ := (hbefore j hj).1
          exact ⟨r, (if_pos hj).trans hr, hr'⟩
        · by_cases hj' : j = i
          · refine ⟨some f', by rw [if_neg hj, if_pos hj'], ?_⟩
            intro g hg m _
            obtain rfl := Option.some.inj hg
            rw [hf']
            dsimp only
            by_cases hm : m < n
            · rw [if_pos hm]; exact h3 m hm
            · rw [if_neg hm]; exact ⟨none, rfl⟩
          · exact ⟨none, by rw [if_neg hj, if_neg hj'], fun f hf => by cases hf⟩
      · intro j _ m hm o ho
        by_cases hj : j < i
        · refine (hbefore j hj).2 m hm o ?_
          rw [← ho]
          unfold levelOut
          dsimp only
          rw [if_pos hj]
        · unfold levelOut at ho
          dsimp only at ho
          rw [if_neg hj] at ho
          by_cases hj' : j = i
          · rw [if_pos hj'] at ho
            dsimp only at ho
            rw [hf'] at ho
            dsimp only at ho
            by_cases hm' : m < n
            · rw [if_pos hm'] at ho
              cases hfm : f m with
              | error e' => rw [hfm] at ho; cases ho
              | ok q =>
                rw [hfm] at ho
                cases q with
                | none => cases ho
                | some o' =>
                  obtain rfl := Option.some.inj ho
                  exact h4 m hm' _ hfm
            · rw [if_neg hm'] at ho
              cases ho
          · rw [if_neg hj'] at ho
            cases ho
      · rw [List.range_eq_range', List.range_eq_range', ← List.range'_succ]
        have := List.range'_append_1 (s := 0) (m := n) (n := A.levels - (n + 1) + 1)
        rw [zero_add] at this
        rw [this]
        congr 1
        omega
      · dsimp only
        rw [if_neg (lt_irrefl i), if_pos rfl]
      · intro m hm
        rw [hf']
        exact if_pos (List.mem_range.1 hm)
  obtain ⟨sel, h1, -⟩ := profileLoop_done P' A.cfg A.no A.levels hP' A.no.length 0 (by omega) []
  have hsplit : List.range' 0 A.no.length = List.range' 0 i ++ i :: List.range' (i + 1) (A.no.length - (i + 1)) := by
    rw [← List.range'_succ]
    have := List.range'_append_1 (s := 0) (m := i) (n := A.no.length - (i + 1) + 1)
    rw [zero_add] at this
    rw [this]
    congr 1
    omega
  have h2 : (profileLoop A.cfg P' A.no A.levels (List.range' 0 i ++ i :: List.range' (i + 1) (A.no.length - (i + 1))) 0 (doneData P' A.cfg A.no A.levels 0 [])).2 =
      .ok (doneData P' A.cfg A.no A.levels A.no.length sel) := by
    rw [← hsplit, h1]
  have h3 := profileLoop_first A.cfg A.P P' A.no A.levels _ _ i e 0 _ _ h2 (by
    intro j hj
    refine hbef j ?_
    rw [List.mem_range'_1] at hj
    omega) hcase
  have hstart : (⟨[], A.levels, fun _ => [], fun _ => [], [], 0, true⟩ : Mapped K) = doneData P' A.cfg A.no A.levels 0 [] := rfl
  unfold updateMapping loadVariables
  rw [hload]
  dsimp only
  rw [missing_fresh, hstart, hsplit]
  generalize profileLoop A.cfg A.P A.no A.levels _ 0 _ = r at h3 ⊢
  obtain ⟨a, b⟩ := r
  dsimp only at h3
  rw [h3]

end

/-! ## The exceptions of a profile -/

theorem interp_sel_error (limit : Option ℝ) (sel : List (RefCast ℝ)) (f : FloatProfile) (e : PyErr)
    (h : Interp.interpClimatology (toGrid (regionResult limit sel).sal) (toGrid (regionResult limit sel).ptmp) (toGrid (regionResult limit sel).pres)
      (floatLevels f) = .error e) : e = .valueError := by
  classical
  obtain ⟨e1, e2, e3⟩ := regionResult_columns limit sel
  rw [e1, e2, e3] at h
  obtain ⟨hshape, -⟩ := station_column limit (depthOf limit sel) (sel.filter fun c => decide (HasData limit c))
    fun c hc => le_depthOf limit sel c (List.mem_filter.1 hc).1
  exact ((interp_fails_iff _ _ _ hshape (floatLevels f) e).1 h).1

theorem prepare_fails (R : FloatRun) (hi : IsInterp2d R.env.interp2) (hf : R.env.topo.length = 2160 * 4320) (htab : R.env.table.length = 648)
    (hw : WellFormedDisk R.env.disk) (hs : R.env.useSaf ≠ 1) (hpv : R.env.cfg.usePv ≠ 1) (f : FloatProfile) (lat long : ℝ) (hW : Within R lat long)
    (hx : -10 ≤ long ∧ long ≤ 370) (e : PyErr) (h : Fails R f lat long (pressureLimit f.pres R.env.cfg.pDelta) e) (hne : e ≠ .linAlgError) :
    prepare R.env f lat long = .error e := by
  obtain ⟨z, hz⟩ := float_depth_defined R.env hf lat long hW.latitude.1 hW.latitude.2 hW.longitude.1 hW.longitude.2
  have hch : ∀ e, chosenCasts R.env f lat long z = .error e → prepare R.env f lat long = .error e := by
    intro e h
    unfold prepare
    simp only [bind, Except.bind, hz, h]
  obtain ⟨boxes, hbox⟩ : ∃ boxes, boxesAt R.env long lat = .ok boxes := by
    obtain ⟨rows, hr, -⟩ := boxes_in_range R.env.table htab long lat hx
    unfold boxesAt
    rw [hr]
    exact ⟨_, rfl⟩
  have hsur : surrounding R.env long lat = refCasts R.env.disk R.env.name boxes := by unfold surrounding; rw [hbox]
  -- an exception after the choice
  have hlate : AllKnown R lat long → inReach R lat long ≠ [] → (¬ ∃ p, prepare R.env f lat long = .ok p) → prepare R.env f lat long = .error .valueError := by
    intro hk hr hno
    have hsne : surrounding R.env long lat ≠ [] := by
      intro h0
      apply hr
      unfold inReach
      rw [h0]
      rfl
    obtain ⟨boxes, index, bz, k1, k2, k3⟩ := chosenCasts_few R hf hw hs hpv f lat long z hW hsne hk
    obtain ⟨c0, l0, hsel⟩ : ∃ c0 l0, inReach R lat long = c0 :: l0 := by
      cases h0 : inReach R lat long with
      | nil => exact absurd h0 hr
      | cons c l => exact ⟨c, l, rfl⟩
    unfold prepare at hno ⊢
    simp only [bind, Except.bind, hz] at hno ⊢
    by_cases h0 : usableLevels (pressureLimit f.pres R.env.cfg.pDelta) c0 = []
    · rw [region_data_first_cast_empty _ hw _ _ _ _ _ c0 l0 (k2.trans hsel) h0] at k3
      have := (interp_fails_iff (toGrid []) (toGrid []) (toGrid []) ⟨rfl, rfl, rfl, rfl⟩ (floatLevels f) .valueError).2 ⟨rfl, Or.inl rfl⟩
      simp only [k3, Except.map]
      rw [this]
    · rw [region_data_spec _ hw _ _ _ _ _ c0 l0 (k2.trans hsel) h0, k2] at k3
      simp only [k3, Except.map] at hno ⊢
      cases hI : Interp.interpClimatology (toGrid (regionResult (pressureLimit f.pres R.env.cfg.pDelta) (inReach R lat long)).sal)
          (toGrid (regionResult (pressureLimit f.pres R.env.cfg.pDelta) (inReach R lat long)).ptmp)
          (toGrid (regionResult (pressureLimit f.pres R.env.cfg.pDelta) (inReach R lat long)).pres) (floatLevels f) with
      | ok SP =>
        rw [hI] at hno
        exact absurd ⟨_, rfl⟩ hno
      | error e =>
        have : e = .valueError := interp_sel_error _ _ f e hI
        rw [this]
  have hall := prepare_iff R hi hf hw hs hpv f lat long hW
  cases h with
  | nothing h =>
    refine hch _ ?_
    unfold chosenCasts
    simp only [bind, Except.bind, hbox, (hist_locations_spec R.env.disk hw R.env.name boxes).1 (hsur ▸ h)]
  | position c hc h =>
    refine hch _ ?_
    have hh := (hist_locations_spec R.env.disk hw R.env.name boxes).2 (hsur ▸ List.ne_nil_of_mem hc)
    rw [← hsur] at hh
    unfold chosenCasts
    simp only [bind, Except.bind, hbox, hh]
    have hg : gridDepths R.env ((surrounding R.env long lat).map (·.lat)) (wrapLongitude ((surrounding R.env long lat).map (·.long))) = .error .valueError := by
      unfold gridDepths
      rcases h with h | h
      · have : ((surrounding R.env long lat).map (·.lat)).mapM id = none := mapM_id_none _ (List.mem_map.2 ⟨c, hc, h⟩)
        rw [this]
      · have : (wrapLongitude ((surrounding R.env long lat).map (·.long))).mapM id = none := by
          refine mapM_id_none _ ?_
          rw [wrapLongitude_among]
          exact List.mem_map.2 ⟨c, hc, by rw [h]; rfl⟩
        rw [this]
        cases ((surrounding R.env long lat).map (·.lat)).mapM id <;> rfl
    rw [hg]
  | reach h hk hr =>
    refine hch _ ?_
    obtain ⟨boxes, index, bz, k1, k2, k3⟩ := chosenCasts_few R hf hw hs hpv f lat long z hW h hk
    rw [k3, region_data_none _ hw _ _ _ _ _ (k2.trans hr)]
    rfl
  | first hk c cs hr h =>
    refine hlate hk (by rw [hr]; simp) fun hp => ?_
    obtain ⟨-, ⟨c', cs', h1, h2⟩, -⟩ := hall.1 hp
    rw [hr] at h1
    obtain ⟨rfl, -⟩ := List.cons.inj h1
    exact h2 h
  | data hk hr h =>
    refine hlate hk hr fun hp => ?_
    obtain ⟨-, -, ⟨c, hc, hd⟩, -⟩ := hall.1 hp
    exact h c hc hd
  | temperatures hk hr n s v q h1 h2 h3 h =>
    refine hlate hk hr fun hp => ?_
    obtain ⟨-, -, -, ht⟩ := hall.1 hp
    obtain ⟨⟨c, hc, g1⟩, g2⟩ := ht n s v q h1 h2 h3
    rcases h with h | ⟨c', hc', h4, h5⟩
    · exact absurd (h c hc) (by omega)
    · obtain ⟨a, ha, hav⟩ := g2 c' hc' h4
      exact hav (h5 a ha)
  | noise => exact absurd rfl hne

/-- If the surroundings do not suffice, there is a reason. -/
theorem fails_of_not_suffices (R : FloatRun) (f : FloatProfile) (lat long : ℝ) (limit : Option ℝ) (h : ¬ Suffices R f lat long limit) :
    ∃ e, Fails R f lat long limit e := by
  by_contra hno
  push Not at hno
  apply h
  have hk : AllKnown R lat long := by
    intro c hc
    by_contra hc'
    exact hno _ (.position c hc (by by_contra h2; push Not at h2; exact hc' h2))
  have hsne : surrounding R.env long lat ≠ [] := fun h0 => hno _ (.nothing h0)
  have hr : inReach R lat long ≠ [] := fun h0 => hno _ (.reach hsne hk h0)
  obtain ⟨c0, l0, hsel⟩ : ∃ c0 l0, inReach R lat long = c0 :: l0 := by
    cases h0 : inReach R lat long with
    | nil => exact absurd h0 hr
    | cons c l => exact ⟨c, l, rfl⟩
  have h1 : ∃ c cs, inReach R lat long = c :: cs ∧ usableLevels limit c ≠ [] := ⟨c0, l0, hsel, fun h0 => hno _ (.first hk c0 l0 hsel h0)⟩
  have h2 : ∃ c ∈ inReach R lat long, HasData limit c := by
    by_contra h0
    push Not at h0
    exact hno _ (.data hk hr h0)
  have h3 : ∀ (n : ℕ) (s v q : ℝ), f.sal[n]? = some (some s) → f.ptmp[n]? = some (some v) → f.pres[n]? = some (some q) →
      (∃ c ∈ inReach R lat long, 2 ≤ (completeLevels limit c).length) ∧
      ∀ c ∈ inReach R lat long, 2 ≤ (completeLevels limit c).length → ∃ a ∈ completeLevels limit c, a.theta ≠ v := by
    intro n s v q hs hv hq
    by_contra h0
    refine hno _ (.temperatures hk hr n s v q hs hv hq ?_)
    by_contra h4
    push Not at h4
    exact h0 h4
  exact ⟨hk, h1, h2, h3, fun n q hm h0 => hno _ (.noise hk h1 h2 h3 n q hm h0)⟩

/-! ## The run -/

/-- C168. The exception a run without a mapped file ends with, in the situation of C163 and with the complete table of boxes: the one of the first profile, in
the order of the file, for which the reference data do not suffice, or `NameError` if they suffice for all and no level is mapped. -/
theorem run_fails_iff (R : FloatRun) (fs : Fs ℝ) (hi : IsInterp2d R.env.interp2) (hf : R.env.topo.length = 2160 * 4320) (htab : R.env.table.length = 648)
    (hw : WellFormedDisk R.env.disk) (hs : R.env.useSaf ≠ 1) (hpv : R.env.cfg.usePv ≠ 1) (hsort : IsArgsort R.env.argsort) (hrand : ValidRand R.env.rand)
    (hcfg : ProperConfig R.env.cfg) (hmax : 1 ≤ R.env.maxCasts) (hlen : R.no.length = R.source.length) (hload : fs R.loadPath = none)
    (hshape : ∀ f ∈ R.source, f.sal.length = R.levels ∧ f.ptmp.length = R.levels ∧ f.pres.length = R.levels)
    (hwithin : ∀ f ∈ R.source, Placed f → ∀ lat long, f.lat = some lat → f.long = some long → Within R lat long ∧ -10 ≤ long ∧ long ≤ 370) (e : PyErr) :
    (updateMapping R.args fs).1 = some e ↔
      (∃ (i : ℕ) (f : FloatProfile) (lat long : ℝ), R.source[i]? = some f ∧ Placed f ∧ f.lat = some lat ∧ f.long = some long ∧
        Fails R f lat long (pressureLimit f.pres R.env.cfg.pDelta) e ∧
        ∀ (j : ℕ) (g : FloatProfile) (lat' long' : ℝ), j < i → R.source[j]? = some g → Placed g → g.lat = some lat' → g.long = some long' →
          Suffices R g lat' long' (pressureLimit g.pres R.env.cfg.pDelta)) ∨
      e = .nameError ∧ ∀ f ∈ R.source, Placed f → ∀ lat long, f.lat = some lat → f.long = some long →
        Suffices R f lat long (pressureLimit f.pres R.env.cfg.pDelta) ∧ ∀ n q, ¬ Mappable R f lat long n q := by
  have hends := run_ends_iff R fs hi hf hw hs hpv hsort hrand hcfg hmax hlen hload hshape fun f hfm hpl lat long hla hlo => (hwithin f hfm hpl lat long hla hlo).1
  have hP : ∀ i f, R.source[i]? = some f → R.args.P i = profileOf R.env f := by
    intro i f h
    change profilesOf R.env R.source i = _
    unfold profilesOf item
    rw [h]
    rfl
  have hunplaced : ∀ f, ¬ Placed f → profileOf R.env f = .ok none := by
    intro f h
    unfold profileOf
    rw [if_neg fun h' => h ((usable_iff f).1 h')]
    rfl
  have hplaced : ∀ f lat long, Placed f → f.lat = some lat → f.long = some long →
      profileOf R.env f = (prepare R.env f lat long).map fun p => some (levelOf R.env f p) := by
    intro f lat long h h1 h2
    unfold profileOf
    rw [if_pos ((usable_iff f).2 h), h1, h2]
    dsimp only [bind, Except.bind]
    cases prepare R.env f lat long <;> rfl
  have hlev := fun (f : FloatProfile) (hfm : f ∈ R.source) (lat long : ℝ) (hW : Within R lat long) (p : Prepared) (hp : prepare R.env f lat long = .ok p) (n : ℕ)
    (hn : n < R.levels) => level_ends R hi hf hw hs hpv hsort hrand hcfg hmax f lat long hW ((hshape f hfm).2.1.trans (hshape f hfm).1.symm)
      ((hshape f hfm).2.2.trans (hshape f hfm).1.symm) p hp n ((hshape f hfm).1 ▸ hn)
  have hin : ∀ f ∈ R.source, ∀ lat long n q, Mappable R f lat long n q → n < R.levels := by
    rintro f hfm lat long n q ⟨⟨s, h⟩, -⟩
    rw [← (hshape f hfm).1]
    exact (List.getElem?_eq_some_iff.1 h).1
  have hpoints : ∀ i n o, levelOut R.args.P i n = some o → o.points.long ≠ [] ∧ o.points.lat.length = o.points.long.length := by
    intro i n o ho
    obtain ⟨f, lat, long, p, -, -, -, -, -, hl⟩ := levelOut_cases R.env R.source i n o ho
    exact levelOf_points R.env f p n o hl
  -- a profile for which the data suffice can be processed
  have hproc : ∀ i f, R.source[i]? = some f → (∀ lat long, Placed f → f.lat = some lat → f.long = some long →
      Suffices R f lat long (pressureLimit f.pres R.env.cfg.pDelta)) → Processable R.args.P R.args.levels i := by
    intro i f hfi hsuf
    have hfm := List.mem_of_getElem? hfi
    refine ⟨?_, fun n _ o ho => hpoints i n o ho⟩
    rw [hP i f hfi]
    by_cases hpl : Placed f
    swap
    · exact ⟨none, hunplaced f hpl, fun g hg => by cases hg⟩
    obtain ⟨lat, hla⟩ := Option.ne_none_iff_exists'.1 hpl.1
    obtain ⟨long, hlo⟩ := Option.ne_none_iff_exists'.1 hpl.2.1
    have h := hsuf lat long hpl hla hlo
    have hW := (hwithin f hfm hpl lat long hla hlo).1
    obtain ⟨p, hp⟩ := (prepare_iff R hi hf hw hs hpv f lat long hW).2 ⟨h.known, h.first, h.data, h.temperatures⟩
    rw [hplaced f lat long hpl hla hlo, hp]
    refine ⟨_, rfl, ?_⟩
    intro g hg n hn
    obtain rfl := Option.some.inj hg
    obtain ⟨l1, l2⟩ := hlev f hfm lat long hW p hp n hn
    by_cases hm : ∃ q, Mappable R f lat long n q
    · obtain ⟨q, hm⟩ := hm
      obtain ⟨o, ho⟩ := (l2 q hm).2.1 (h.noise n q hm)
      exact ⟨_, ho⟩
    · exact ⟨_, l1 fun q hq => hm ⟨q, hq⟩⟩
  -- the first profile that fails
  have hfirst : ∀ (e : PyErr) (i : ℕ) (f : FloatProfile) (lat long : ℝ), R.source[i]? = some f → Placed f → f.lat = some lat → f.long = some long →
      Fails R f lat long (pressureLimit f.pres R.env.cfg.pDelta) e →
      (∀ (j : ℕ) (g : FloatProfile) (lat' long' : ℝ), j < i → R.source[j]? = some g → Placed g → g.lat = some lat' → g.long = some long' →
        Suffices R g lat' long' (pressureLimit g.pres R.env.cfg.pDelta)) → (updateMapping R.args fs).1 = some e := by
    intro e i f lat long hfi hpl hla hlo hfail hbefore
    have hfm := List.mem_of_getElem? hfi
    obtain ⟨hW, hx⟩ := hwithin f hfm hpl lat long hla hlo
    have hlt : i < R.args.no.length := by
      rw [show R.args.no = R.no from rfl, hlen]
      exact (List.getElem?_eq_some_iff.1 hfi).1
    refine fresh_first R.args fs hload i hlt e ?_ ?_
    · intro j hj
      have hjl : j < R.source.length := by have := (List.getElem?_eq_some_iff.1 hfi).1; omega
      exact hproc j _ (List.getElem?_eq_getElem hjl) fun lat' long' hpl' hla' hlo' => hbefore j _ lat' long' hj (List.getElem?_eq_getElem hjl) hpl' hla' hlo'
    · rw [hP i f hfi, hplaced f lat long hpl hla hlo]
      by_cases he : e = .linAlgError
      swap
      · left
        rw [prepare_fails R hi hf htab hw hs hpv f lat long hW hx e hfail he]
        rfl
      right
      subst he
      cases hfail with
      | noise hk h1 h2 h3 n0 q hm h0 =>
        obtain ⟨p, hp⟩ := (prepare_iff R hi hf hw hs hpv f lat long hW).2 ⟨hk, h1, h2, h3⟩
        rw [hp]
        have hn0 := hin f hfm lat long n0 q hm
        have hex : ∃ n, n < R.levels ∧ ∃ e, levelOf R.env f p n = .error e := ⟨n0, hn0, _, ((hlev f hfm lat long hW p hp n0 hn0).2 q hm).1 h0⟩
        classical
        obtain ⟨hn, e', he'⟩ := Nat.find_spec hex
        have hmin : ∀ m < Nat.find hex, ∃ q, levelOf R.env f p m = .ok q := by
          intro m hm'
          have := Nat.find_min hex hm'
          cases hl : levelOf R.env f p m with
          | ok q => exact ⟨q, rfl⟩
          | error e'' => exact absurd ⟨hm'.trans hn, e'', hl⟩ this
        refine ⟨levelOf R.env f p, Nat.find hex, hn, rfl, ?_, hmin, fun m _ o ho => levelOf_points R.env f p m o ho⟩
        rw [he']
        obtain ⟨l1, l2⟩ := hlev f hfm lat long hW p hp _ hn
        by_cases hm' : ∃ q, Mappable R f lat long (Nat.find hex) q
        · obtain ⟨q', hm'⟩ := hm'
          by_cases h00 : IsNoiseVariance (sampleObs (inliers (contributions R f lat long (Nat.find hex) q'))) 0
          · rw [← he', (l2 q' hm').1 h00]
          · obtain ⟨o, ho⟩ := (l2 q' hm').2.1 h00
            rw [he'] at ho
            cases ho
        · rw [l1 fun q hq => hm' ⟨q, hq⟩] at he'
          cases he'
  -- no profile fails and none is mapped
  have hname : (∀ f ∈ R.source, Placed f → ∀ lat long, f.lat = some lat → f.long = some long →
        Suffices R f lat long (pressureLimit f.pres R.env.cfg.pDelta) ∧ ∀ n q, ¬ Mappable R f lat long n q) → (updateMapping R.args fs).1 = some .nameError := by
    intro hall
    refine (run_without_mapped_level_fails R.args fs hload hsort ⟨?_, fun i _ n _ o ho => hpoints i n o ho⟩ ?_).1
    · intro i hi'
      have hlt : i < R.source.length := by rw [← hlen]; exact hi'
      exact (hproc i _ (List.getElem?_eq_getElem hlt) fun lat long hpl hla hlo => (hall _ (List.getElem_mem hlt) hpl lat long hla hlo).1).1
    · rintro ⟨i, hi', n, hn, ho⟩
      obtain ⟨o, ho⟩ := Option.isSome_iff_exists.1 ho
      obtain ⟨f, lat, long, p, h1, h2, h3, h4, h5, h6⟩ := levelOut_cases R.env R.source i n o ho
      have hfm := List.mem_of_getElem? h1
      have hpl := (usable_iff f).1 h2
      rw [(hlev f hfm lat long (hwithin f hfm hpl lat long h3 h4).1 p h5 n hn).1 ((hall f hfm hpl lat long h3 h4).2 n)] at h6
      cases h6
  constructor
  · intro hrun
    by_cases hall : ∀ f ∈ R.source, Placed f → ∀ lat long, f.lat = some lat → f.long = some long → Suffices R f lat long (pressureLimit f.pres R.env.cfg.pDelta)
    · right
      have hno : ∀ f ∈ R.source, Placed f → ∀ lat long, f.lat = some lat → f.long = some long →
          Suffices R f lat long (pressureLimit f.pres R.env.cfg.pDelta) ∧ ∀ n q, ¬ Mappable R f lat long n q := by
        intro f hfm hpl lat long hla hlo
        refine ⟨hall f hfm hpl lat long hla hlo, fun n q hm => ?_⟩
        rw [hends.2 ⟨hall, f, hfm, hpl, lat, long, hla, hlo, n, q, hm⟩] at hrun
        cases hrun
      rw [hname hno] at hrun
      exact ⟨(Option.some.inj hrun).symm, hno⟩
    · left
      have hex : ∃ i : ℕ, ∃ f lat long, R.source[i]? = some f ∧ Placed f ∧ f.lat = some lat ∧ f.long = some long ∧
          ¬ Suffices R f lat long (pressureLimit f.pres R.env.cfg.pDelta) := by
        push Not at hall
        obtain ⟨f, hfm, hpl, lat, long, hla, hlo, h⟩ := hall
        obtain ⟨i, hi'⟩ := List.mem_iff_getElem?.1 hfm
        exact ⟨i, f, lat, long, hi', hpl, hla, hlo, h⟩
      classical
      obtain ⟨f, lat, long, h1, h2, h3, h4, h5⟩ := Nat.find_spec hex
      obtain ⟨e', he'⟩ := fails_of_not_suffices R f lat long _ h5
      have hbefore : ∀ (j : ℕ) (g : FloatProfile) (lat' long' : ℝ), j < Nat.find hex → R.source[j]? = some g → Placed g → g.lat = some lat' →
          g.long = some long' → Suffices R g lat' long' (pressureLimit g.pres R.env.cfg.pDelta) := by
        intro j g lat' long' hj g1 g2 g3 g4
        by_contra hc
        exact Nat.find_min hex hj ⟨g, lat', long', g1, g2, g3, g4, hc⟩
      rw [hfirst e' _ f lat long h1 h2 h3 h4 he' hbefore] at hrun
      obtain rfl := Option.some.inj hrun
      exact ⟨_, f, lat, long, h1, h2, h3, h4, he', hbefore⟩
  · rintro (⟨i, f, lat, long, h1, h2, h3, h4, h5, h6⟩ | ⟨rfl, h⟩)
    · exact hfirst e i f lat long h1 h2 h3 h4 h5 h6
    · exact hname h

end Verif.Props
