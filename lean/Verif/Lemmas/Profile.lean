import Verif.Spec.Profile
import Verif.Lemmas.Np
import Verif.Props.Update
import Verif.Props.Level

/-!
# Lemmas about a run over the profiles of a float
-/

set_option linter.unusedSectionVars false

namespace Verif.Lemmas.Profile

open Verif.Np Verif.Helper Verif.Region Verif.Profile Verif.Update Verif.Spec Verif.Spec.Profile Verif.Level

section
variable {K : Type} [Field K] [LinearOrder K] [IsStrictOrderedRing K]

theorem levelLoop_all (cfg : Setting → K) (k : ℕ) (f : ℕ → Except PyErr (Option (LevelOut K))) (ns : List ℕ) (d d' : Mapped K)
    (h : levelLoop cfg k f ns d = .ok d') : ∀ n ∈ ns, ∃ q, f n = .ok q := by
  induction ns generalizing d with
  | nil => intro n hn; cases hn
  | cons a ns ih =>
    intro n hn
    rw [levelLoop] at h
    cases hf : f a with
    | error e => rw [hf] at h; cases h
    | ok q =>
      rw [hf] at h
      rcases List.mem_cons.1 hn with rfl | hn
      · exact ⟨q, hf⟩
      · cases q with
        | none => exact ih _ h n hn
        | some o =>
          simp only [bind, Except.bind] at h
          cases hs : storeLevel cfg k a d o with
          | error e => rw [hs] at h; cases h
          | ok d2 => rw [hs] at h; exact ih _ h n hn

theorem processProfile_all (cfg : Setting → K) (P : Profile K) (no : List K) (levels : ℕ) (d d' : Mapped K) (k i : ℕ)
    (h : processProfile cfg P no levels d k i = .ok d') :
    ∃ r, P i = .ok r ∧ ∀ f, r = some f → ∀ n < levels, ∃ q, f n = .ok q := by
  unfold processProfile at h
  cases hv : item no i with
  | error e => rw [hv] at h; cases h
  | ok v =>
    rw [hv] at h
    simp only [bind, Except.bind] at h
    cases hn : npInsert d.profileNo k v with
    | error e => rw [hn] at h; cases h
    | ok nos =>
      rw [hn] at h
      dsimp only at h
      by_cases hl : d.lists = true
      · rw [if_pos hl] at h
        cases hla : laVariables levels k { d with profileNo := nos, settings := fun s => d.settings s ++ [none] } with
        | error e => rw [hla] at h; cases h
        | ok d2 =>
          rw [hla] at h
          dsimp only at h
          cases hP : P i with
          | error e => rw [hP] at h; cases h
          | ok r =>
            refine ⟨r, rfl, ?_⟩
            intro f hf n hn'
            subst hf
            rw [hP] at h
            exact levelLoop_all cfg k f _ _ _ h n (List.mem_range.2 hn')
      · rw [if_neg hl] at h; cases h

theorem profileLoop_all (cfg : Setting → K) (P : Profile K) (no : List K) (levels : ℕ) (is : List ℕ) (k : ℕ) (d d' : Mapped K)
    (h : (profileLoop cfg P no levels is k d).2 = .ok d') :
    ∀ i ∈ is, ∃ r, P i = .ok r ∧ ∀ f, r = some f → ∀ n < levels, ∃ q, f n = .ok q := by
  induction is generalizing k d with
  | nil => intro i hi; cases hi
  | cons a is ih =>
    intro i hi
    rw [profileLoop] at h
    cases hp : processProfile cfg P no levels d k a with
    | error e => rw [hp] at h; cases h
    | ok d2 =>
      rw [hp] at h
      rcases List.mem_cons.1 hi with rfl | hi
      · exact processProfile_all cfg P no levels d d2 k i hp
      · exact ih _ _ h i hi

/-- If a run without a mapped file ends without exception, no computation raised one. -/
theorem fresh_ok_all (A : RunArgs K) (fs : Fs K) (hload : fs A.loadPath = none) (h : (updateMapping A fs).1 = none) :
    ∀ i < A.no.length, ∃ r, A.P i = .ok r ∧ ∀ f, r = some f → ∀ n < A.levels, ∃ q, f n = .ok q := by
  unfold updateMapping at h
  rw [hload] at h
  unfold loadVariables at h
  dsimp only at h
  rw [missing_fresh] at h
  intro i hi
  match hp : profileLoop A.cfg A.P A.no A.levels (List.range' 0 A.no.length) 0 ⟨[], A.levels, fun _ => [], fun _ => [], [], 0, true⟩ with
  | (k, .error e) => rw [hp] at h; simp at h
  | (k, .ok d) =>
    refine profileLoop_all A.cfg A.P A.no A.levels (List.range' 0 A.no.length) 0 _ d (by rw [hp]) i ?_
    rw [← List.range_eq_range']
    exact List.mem_range.2 hi

/-- The first computation that raises ends the run. -/
theorem profileLoop_error (cfg : Setting → K) (P : Profile K) (no : List K) (levels : ℕ) (is : List ℕ) (k : ℕ) (d : Mapped K) (i : ℕ)
    (hi : i ∈ is) (h : ∀ r, P i ≠ .ok r) : ∃ e, (profileLoop cfg P no levels is k d).2 = .error e := by
  cases hp : (profileLoop cfg P no levels is k d).2 with
  | error e => exact ⟨e, rfl⟩
  | ok d' =>
    obtain ⟨r, hr, -⟩ := profileLoop_all cfg P no levels is k d d' hp i hi
    exact absurd hr (h r)

/-- A run without a mapped file in which the computation of one profile raises an exception ends with an exception and
leaves the directory as it was. -/
theorem fresh_fails (A : RunArgs K) (fs : Fs K) (hload : fs A.loadPath = none) (i : ℕ) (hi : i < A.no.length) (e : PyErr)
    (h : A.P i = .error e) : (updateMapping A fs).1 ≠ none ∧ ∀ s ∈ (updateMapping A fs).2, s = fs := by
  have hne : (updateMapping A fs).1 ≠ none := by
    intro h0
    obtain ⟨r, hr, -⟩ := fresh_ok_all A fs hload h0 i hi
    rw [h] at hr
    cases hr
  refine ⟨hne, ?_⟩
  cases h1 : (updateMapping A fs).1 with
  | none => exact absurd h1 hne
  | some e' => exact (Verif.Props.run_writes_only_at_end A fs).1 e' h1

end

theorem columnStack_length (a b c d : List ℝ) (l : List Stats.Pos) (h : columnStack a b c d = .ok l) :
    a.length = l.length ∧ b.length = l.length := by
  induction a generalizing b c d l with
  | nil =>
    cases b <;> cases c <;> cases d <;> simp_all [columnStack]
  | cons x a ih =>
    cases b with
    | nil => simp [columnStack] at h
    | cons y b =>
      cases c with
      | nil => simp [columnStack] at h
      | cons z c =>
        cases d with
        | nil => simp [columnStack] at h
        | cons w d =>
          rw [columnStack] at h
          cases hr : columnStack a b c d with
          | error e => rw [hr] at h; cases h
          | ok r =>
            rw [hr] at h
            have := Except.ok.inj h
            rw [← this]
            have := ih b c d r hr
            simp [this.1, this.2]

/-- The casts of a level that was mapped: at least one, with as many latitudes as longitudes. -/
theorem mapCasts_points (c : MapConfig) (f : FloatPos) (h h' : HistData ℝ) (r : LevelResult) (hr : mapCasts c f h = .ok (h', r)) :
    h'.long ≠ [] ∧ h'.lat.length = h'.long.length := by
  unfold mapCasts at hr
  simp only [bind, Except.bind] at hr
  cases h0 : Stats.signalVariance (h.sal.map some) with
  | error e => rw [h0] at hr; cases hr
  | ok s0 =>
    rw [h0] at hr
    dsimp only at hr
    cases h1 : removeOutliers (outliers h.sal s0) h with
    | error e => rw [h1] at hr; cases hr
    | ok h2 =>
      rw [h1] at hr
      dsimp only at hr
      cases h3 : Stats.noiseVariance (observations h2) with
      | error e => rw [h3] at hr; cases hr
      | ok nv =>
        rw [h3] at hr
        dsimp only at hr
        cases h4 : Stats.signalVariance (h2.sal.map some) with
        | error e => rw [h4] at hr; cases hr
        | ok s =>
          rw [h4] at hr
          dsimp only at hr
          cases h5 : columnStack h2.lat h2.long h2.dates h2.z with
          | error e => rw [h5] at hr; cases hr
          | ok pos =>
            rw [h5] at hr
            dsimp only at hr
            obtain ⟨l1, l2⟩ := columnStack_length _ _ _ _ _ h5
            have hne : h2.sal ≠ [] := by
              intro hs
              rw [hs] at h4
              simp [Stats.signalVariance] at h4
            by_cases hlen : h2.sal.length = pos.length
            · rw [if_pos hlen] at hr
              have heq : h2 = h' := by
                cases nv with
                | none => cases hr
                | some v =>
                  dsimp only at hr
                  generalize mapStages c _ _ _ s v = ms at hr
                  cases ms with
                  | error e => cases hr
                  | ok x => exact congrArg Prod.fst (Except.ok.inj hr)
              subst heq
              refine ⟨?_, by rw [l1, l2]⟩
              intro hl
              rw [hl] at l2
              rw [← l2] at hlen
              exact hne (List.length_eq_zero_iff.1 hlen)
            · rw [if_neg hlen] at hr; cases hr

theorem levelOf_points (E : Env) (f : FloatProfile) (p : Prepared) (n : ℕ) (o : LevelOut ℝ) (h : levelOf E f p n = .ok (some o)) :
    o.points.long ≠ [] ∧ o.points.lat.length = o.points.long.length := by
  unfold levelOf at h
  cases hm : mapLevel E.cfg p.pos p.grid f.sal f.pres p.interpSal p.interpPres n with
  | error e => rw [hm] at h; cases h
  | ok q =>
    rw [hm] at h
    cases q with
    | none => cases h
    | some x =>
      obtain ⟨h', r⟩ := x
      simp only [bind, Except.bind] at h
      cases ht : item f.ptmp n with
      | error e => rw [ht] at h; cases h
      | ok t =>
        rw [ht] at h
        have := Option.some.inj (Except.ok.inj h)
        rw [← this]
        dsimp only
        unfold mapLevel at hm
        simp only [bind, Except.bind] at hm
        cases h1 : item f.sal n with
        | error e => rw [h1] at hm; cases hm
        | ok s =>
          cases h2 : item f.pres n with
          | error e => rw [h1, h2] at hm; cases hm
          | ok pr =>
            rw [h1, h2] at hm
            dsimp only at hm
            cases s with
            | none => cases hm
            | some s =>
              cases pr with
              | none => cases hm
              | some pv =>
                dsimp only at hm
                split at hm
                · cases hpp : processProfileHist p.grid f.pres p.interpSal p.interpPres n E.cfg.pDelta with
                  | error e => rw [hpp] at hm; cases hm
                  | ok hh =>
                    rw [hpp] at hm
                    dsimp only at hm
                    split at hm
                    · cases hc : mapCasts E.cfg p.pos hh with
                      | error e => rw [hc] at hm; cases hm
                      | ok y =>
                        rw [hc] at hm
                        have hy := Option.some.inj (Except.ok.inj hm)
                        rw [hy] at hc
                        exact mapCasts_points _ _ _ _ _ hc
                    · cases hm
                · cases hm

/-- Where a computed level comes from. -/
theorem levelOut_cases (E : Env) (source : List FloatProfile) (i n : ℕ) (o : LevelOut ℝ)
    (h : levelOut (profilesOf E source) i n = some o) :
    ∃ f lat long p, source[i]? = some f ∧ usable f = true ∧ f.lat = some lat ∧ f.long = some long ∧ prepare E f lat long = .ok p ∧
      levelOf E f p n = .ok (some o) := by
  unfold levelOut at h
  cases hP : profilesOf E source i with
  | error e => rw [hP] at h; cases h
  | ok r =>
    rw [hP] at h
    cases r with
    | none => cases h
    | some g =>
      dsimp only at h
      unfold profilesOf item at hP
      cases hs : source[i]? with
      | none => rw [hs] at hP; cases hP
      | some f =>
        rw [hs] at hP
        simp only [bind, Except.bind] at hP
        unfold profileOf at hP
        by_cases hu : usable f = true
        · rw [if_pos hu] at hP
          cases hla : f.lat with
          | none => rw [hla] at hP; cases hP
          | some lat =>
            cases hlo : f.long with
            | none => rw [hla, hlo] at hP; cases hP
            | some long =>
              rw [hla, hlo] at hP
              simp only [bind, Except.bind] at hP
              cases hpr : prepare E f lat long with
              | error e => rw [hpr] at hP; cases hP
              | ok p =>
                rw [hpr] at hP
                have hg := Option.some.inj (Except.ok.inj hP)
                rw [← hg] at h
                refine ⟨f, lat, long, p, rfl, hu, hla, hlo, hpr, ?_⟩
                cases hlv : levelOf E f p n with
                | error e => rw [hlv] at h; cases h
                | ok q => rw [hlv] at h; dsimp only at h; rw [h]
        · rw [if_neg hu] at hP; cases hP

/-- A run over the profiles that ends without exception had only computations without exception. -/
theorem fresh_computable (R : FloatRun) (fs : Fs ℝ) (hload : fs R.loadPath = none) (h : (updateMapping R.args fs).1 = none) :
    Computable R.args.P R.no.length R.levels where
  profile := fresh_ok_all R.args fs hload h
  points := by
    intro i _ n _ o ho
    obtain ⟨f, lat, long, p, -, -, -, -, -, hl⟩ := levelOut_cases R.env R.source i n o ho
    exact levelOf_points R.env f p n o hl

theorem fresh_mapped (R : FloatRun) (fs : Fs ℝ) (hsort : IsArgsort R.env.argsort) (hload : fs R.loadPath = none)
    (h : (updateMapping R.args fs).1 = none) : SomethingMapped R.args.P R.no.length R.levels := by
  by_contra hm
  have := (Verif.Props.run_without_mapped_level_fails R.args fs hload hsort (fresh_computable R fs hload h) hm).1
  rw [h] at this
  cases this

end Verif.Lemmas.Profile
