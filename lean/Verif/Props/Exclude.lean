import Verif.Spec.Exclude
import Verif.Props.ProfileMore

/-!
# C171: what `MAP_P_EXCLUDE` does
-/

set_option linter.unusedSectionVars false

namespace Verif.Props

open Verif.Np Verif.Helper Verif.Region Verif.Profile Verif.Update Verif.Spec Verif.Spec.Profile Verif.Level Verif.Finders
open Verif.Lemmas.Profile Verif.Utilities Verif.Saf Verif.Topo

/-- A level not above the new limit gives the same, one above it nothing. -/
theorem levelOf_exclude (R : FloatRun) (e : ℝ) (st : Setting → ℝ) (hle : R.env.cfg.pExclude ≤ e) (f : FloatProfile) (p : Prepared) (n : ℕ)
    (hn : n < f.sal.length) :
    (Above f n e → levelOf (withExclude R e st).env f p n = .ok none) ∧
    (¬ Above f n e → levelOf (withExclude R e st).env f p n = levelOf R.env f p n) := by
  have hsal := List.getElem?_eq_getElem hn
  generalize f.sal[n] = s at hsal
  constructor
  · rintro ⟨q, hq, hlt⟩
    unfold levelOf mapLevel item
    rw [hsal, hq]
    simp only [bind, Except.bind]
    cases s with
    | none => rfl
    | some s => dsimp only; rw [if_neg (show ¬ (withExclude R e st).env.cfg.pExclude ≤ q from not_le.2 hlt)]; rfl
  · intro hno
    unfold levelOf
    have : mapLevel (withExclude R e st).env.cfg p.pos p.grid f.sal f.pres p.interpSal p.interpPres n =
        mapLevel R.env.cfg p.pos p.grid f.sal f.pres p.interpSal p.interpPres n := by
      unfold mapLevel item
      rw [hsal]
      cases hq : f.pres[n]? with
      | none => rfl
      | some q =>
        simp only [bind, Except.bind]
        cases s with
        | none => rfl
        | some s =>
          cases q with
          | none => rfl
          | some q =>
            have h1 : e ≤ q := not_lt.1 fun h => hno ⟨q, hq, h⟩
            dsimp only
            rw [if_pos (show (withExclude R e st).env.cfg.pExclude ≤ q from h1), if_pos (hle.trans h1)]
            rfl
    rw [this]

theorem prepare_exclude (R : FloatRun) (e : ℝ) (st : Setting → ℝ) (f : FloatProfile) (lat long : ℝ) :
    prepare (withExclude R e st).env f lat long = prepare R.env f lat long := rfl

/-- C171. Raising `MAP_P_EXCLUDE` to `e` removes the values at pressures below `e` and changes no other value. It makes a run that ended normally fail only if no
value is left, with a `NameError`. -/
theorem raise_exclude (R : FloatRun) (fs : Fs ℝ) (e : ℝ) (st : Setting → ℝ) (hle : R.env.cfg.pExclude ≤ e) (hsort : IsArgsort R.env.argsort)
    (hno : R.no.Pairwise (· < ·)) (hlen : R.no.length = R.source.length) (hload : fs R.loadPath = none)
    (hshape : ∀ f ∈ R.source, f.sal.length = R.levels) (h : (updateMapping R.args fs).1 = none) :
    ∃ file : MapFile ℝ, finalFs R.args fs = Function.update fs R.savePath (some (.whole file)) ∧
      ((HasValueBelow R.source file e ∧
          (updateMapping (withExclude R e st).args fs).1 = none ∧
          ∃ file' : MapFile ℝ, finalFs (withExclude R e st).args fs = Function.update fs R.savePath (some (.whole file')) ∧
            ∀ (m : Mat) (i : ℕ) (f : FloatProfile) (n : ℕ), R.source[i]? = some f → n < R.levels → ∃ (col col' : List (Option ℝ)) (v v' : Option ℝ), (file.mats m)[i]? = some col ∧ (file'.mats m)[i]? = some col' ∧
              col[n]? = some v ∧ col'[n]? = some v' ∧
              (Above f n e → v' = none) ∧ (¬ Above f n e → v' = v)) ∨
        (¬ HasValueBelow R.source file e ∧
          (updateMapping (withExclude R e st).args fs).1 = some .nameError)) := by
  obtain ⟨file, h1, -, h3, -⟩ := fresh_run_saved R fs hsort hno hload h
  refine ⟨file, h1, ?_⟩
  have hall := fresh_ok_all R.args fs hload h
  have hlt : ∀ i f, R.source[i]? = some f → i < R.no.length := fun i f hi => by rw [hlen]; exact (List.getElem?_eq_some_iff.1 hi).1
  have hget : ∀ i < R.no.length, ∃ f, R.source[i]? = some f := fun i hi => ⟨_, List.getElem?_eq_getElem (hlen ▸ hi)⟩
  have hP : ∀ i f, R.source[i]? = some f → R.args.P i = profileOf R.env f ∧ (withExclude R e st).args.P i = profileOf (withExclude R e st).env f := by
    intro i f hi
    constructor
    · change profilesOf R.env R.source i = _
      unfold profilesOf item
      rw [hi]; rfl
    · change profilesOf (withExclude R e st).env R.source i = _
      unfold profilesOf item
      rw [hi]; rfl
  -- both runs, profile by profile
  have hboth : ∀ i f, R.source[i]? = some f → (R.args.P i = .ok none ∧ (withExclude R e st).args.P i = .ok none) ∨
      ∃ p, R.args.P i = .ok (some (levelOf R.env f p)) ∧ (withExclude R e st).args.P i = .ok (some (levelOf (withExclude R e st).env f p)) := by
    intro i f hi
    obtain ⟨r, hr, -⟩ := hall i (hlt i f hi)
    obtain ⟨e1, e2⟩ := hP i f hi
    rw [e1] at hr ⊢
    rw [e2]
    unfold profileOf at hr ⊢
    by_cases hu : usable f = true
    · rw [if_pos hu] at hr
      simp only [if_pos hu]
      cases hla : f.lat with
      | none => exact Or.inl ⟨rfl, rfl⟩
      | some lat =>
        cases hlo : f.long with
        | none => exact Or.inl ⟨rfl, rfl⟩
        | some long =>
          rw [hla, hlo] at hr
          simp only [bind, Except.bind, prepare_exclude] at hr ⊢
          cases hp : prepare R.env f lat long with
          | error x => rw [hp] at hr; cases hr
          | ok p => exact Or.inr ⟨p, rfl, rfl⟩
    · simp only [if_neg hu]
      exact Or.inl ⟨rfl, rfl⟩
  have hcomp : Computable (withExclude R e st).args.P (withExclude R e st).args.no.length (withExclude R e st).args.levels := by
    constructor
    · intro i hi
      obtain ⟨f, hf⟩ := hget i hi
      rcases hboth i f hf with ⟨-, h2⟩ | ⟨p, h1, h2⟩
      · exact ⟨none, h2, fun g hg => by cases hg⟩
      · refine ⟨_, h2, ?_⟩
        rintro g hg n hn
        obtain rfl := Option.some.inj hg
        obtain ⟨r, hr, hr2⟩ := hall i hi
        rw [h1] at hr
        obtain rfl := Except.ok.inj hr
        have hn' : n < f.sal.length := by rw [hshape f (List.mem_of_getElem? hf)]; exact hn
        by_cases hq : Above f n e
        · exact ⟨none, (levelOf_exclude R e st hle f p n hn').1 hq⟩
        · rw [(levelOf_exclude R e st hle f p n hn').2 hq]
          exact hr2 _ rfl n hn
    · intro i _ n _ o ho
      obtain ⟨f, lat, long, p, -, -, -, -, -, hl⟩ := levelOut_cases (withExclude R e st).env R.source i n o ho
      exact levelOf_points (withExclude R e st).env f p n o hl
  have hout : ∀ i f n, R.source[i]? = some f → n < R.levels →
      (Above f n e → levelOut (withExclude R e st).args.P i n = none) ∧
      (¬ Above f n e → levelOut (withExclude R e st).args.P i n = levelOut R.args.P i n) := by
    intro i f n hf hn
    have hn' : n < f.sal.length := by rw [hshape f (List.mem_of_getElem? hf)]; exact hn
    unfold levelOut
    rcases hboth i f hf with ⟨h1, h2⟩ | ⟨p, h1, h2⟩
    · rw [h1, h2]; exact ⟨fun _ => rfl, fun _ => rfl⟩
    · rw [h1, h2]
      exact ⟨fun hq => by dsimp only; rw [(levelOf_exclude R e st hle f p n hn').1 hq],
        fun hq => by dsimp only; rw [(levelOf_exclude R e st hle f p n hn').2 hq]⟩
  -- a saved signal variance shows that the level was mapped
  have hsome : ∀ i n, i < R.no.length → n < R.levels → ((∃ col v, (file.mats .signal)[i]? = some col ∧ col[n]? = some (some v)) ↔ (levelOut R.args.P i n).isSome) := by
    intro i n hi hn
    have hcol : (file.mats .signal)[i]? = some (profileColumn R.args.P R.levels .signal i) := by
      rw [h3, List.getElem?_map, List.getElem?_range hi]; rfl
    have hval : (profileColumn R.args.P R.levels .signal i)[n]? = some ((levelOut R.args.P i n).bind fun o => plausible .signal (o.values .signal)) := by
      unfold profileColumn
      rw [List.getElem?_map, List.getElem?_range hn]; rfl
    constructor
    · rintro ⟨col, v, hc, hv⟩
      rw [hcol] at hc
      obtain rfl := Option.some.inj hc
      rw [hval] at hv
      cases ho : levelOut R.args.P i n with
      | none => rw [ho] at hv; cases Option.some.inj hv
      | some o => rfl
    · intro ho
      obtain ⟨o, ho⟩ := Option.isSome_iff_exists.1 ho
      obtain ⟨f, lat, long, p, -, -, -, -, -, hl⟩ := levelOut_cases R.env R.source i n o ho
      obtain ⟨-, r, -, -, -, -, -, -, -, -, -, -, -, -, hsig, -⟩ := levelOf_needs R.env f p n o hl
      refine ⟨_, r.signal, hcol, ?_⟩
      rw [hval, ho]
      simp only [Option.bind_some, plausible, hsig]
      rfl
  have hsame : HasValueBelow R.source file e ↔
      SomethingMapped (withExclude R e st).args.P (withExclude R e st).args.no.length (withExclude R e st).args.levels := by
    constructor
    · rintro ⟨i, f, n, q, col, v, hf, hq, hle', hc, hv⟩
      have hi := hlt i f hf
      have hn : n < R.levels := by
        rw [h3, List.getElem?_map, List.getElem?_range hi] at hc
        obtain rfl := Option.some.inj hc
        have := (List.getElem?_eq_some_iff.1 hv).1
        simpa [profileColumn] using this
      refine ⟨i, hi, n, hn, ?_⟩
      rw [(hout i f n hf hn).2 (by rintro ⟨q', hq', hlt'⟩; rw [hq] at hq'; cases hq'; exact absurd hlt' (not_lt.2 hle'))]
      exact (hsome i n hi hn).1 ⟨col, v, hc, hv⟩
    · rintro ⟨i, hi, n, hn, ho⟩
      obtain ⟨f, hf⟩ := hget i hi
      by_cases hq : Above f n e
      · rw [(hout i f n hf hn).1 hq] at ho; cases ho
      · rw [(hout i f n hf hn).2 hq] at ho
        obtain ⟨col, v, hc, hv⟩ := (hsome i n hi hn).2 ho
        obtain ⟨o, ho'⟩ := Option.isSome_iff_exists.1 ho
        obtain ⟨f', lat, long, p, hf', -, -, -, -, hl⟩ := levelOut_cases R.env R.source i n o ho'
        obtain ⟨-, -, -, s, q, -, hq', -⟩ := levelOf_needs R.env f' p n o hl
        rw [hf] at hf'
        obtain rfl := Option.some.inj hf'
        exact ⟨i, f, n, q, col, v, hf, hq', not_lt.1 fun hc => hq ⟨q, hq', hc⟩, hc, hv⟩
  by_cases hm : HasValueBelow R.source file e
  · refine Or.inl ⟨hm, ?_⟩
    obtain ⟨file', g0, g1, -, -, g3, -⟩ := fresh_run_aligned_partial (withExclude R e st).args fs hload hsort hcomp (hsame.1 hm) hno
    refine ⟨g0, file', g1, ?_⟩
    intro m i f n hf hn
    have hi := hlt i f hf
    refine ⟨profileColumn R.args.P R.levels m i, profileColumn (withExclude R e st).args.P R.levels m i,
      (levelOut R.args.P i n).bind fun o => plausible m (o.values m), (levelOut (withExclude R e st).args.P i n).bind fun o => plausible m (o.values m), ?_, ?_, ?_, ?_, ?_, ?_⟩
    · rw [h3, List.getElem?_map, List.getElem?_range hi]; rfl
    · rw [g3, List.getElem?_map, List.getElem?_range (show i < (withExclude R e st).args.no.length from hi)]; rfl
    · unfold profileColumn
      rw [List.getElem?_map, List.getElem?_range hn]; rfl
    · unfold profileColumn
      rw [List.getElem?_map, List.getElem?_range hn]; rfl
    · intro hq
      rw [(hout i f n hf hn).1 hq]; rfl
    · intro hq
      rw [(hout i f n hf hn).2 hq]
  · exact Or.inr ⟨hm, (run_without_mapped_level_fails (withExclude R e st).args fs hload hsort hcomp (fun hc => hm (hsame.2 hc))).1⟩

end Verif.Props
