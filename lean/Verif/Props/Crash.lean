import Verif.Lemmas.Crash
import Verif.Props.Workflow

/-!
# C125-C127: interrupted steps
-/

set_option linter.unusedSectionVars false

namespace Verif.Props

open Verif.Np Verif.Workflow Verif.Crash Verif.Spec Verif.Lemmas

variable {V : Type}

/-- C125. Whatever steps are interrupted, at whatever point, the results and files of a float are those of its own steps alone. -/
theorem interruptions_stay_local (c : Config) (hc : Orderly c) (P : Programs V) (D : PyErr) (f : FloatId) (hf : Plain f.name) (h : History)
    (hh : OnlyFloat f h) (s : Store (Content V)) :
    resultsFor f h (runAll c P D h s).1 = (runAll c P D (stepsFor f h) s).1 ∧
    SameFiles c f (runAll c P D h s).2 (runAll c P D (stepsFor f h) s).2 := by
  have gen : ∀ (h : History), OnlyFloat f h → ∀ s s' : Store (Content V), SameFiles c f s s' →
      resultsFor f h (runAll c P D h s).1 = (runAll c P D (stepsFor f h) s').1 ∧
      SameFiles c f (runAll c P D h s).2 (runAll c P D (stepsFor f h) s').2 := by
    intro h
    induction h with
    | nil => intro _ s s' hs; exact ⟨rfl, hs⟩
    | cons x h ih =>
      intro hx s s' hs
      obtain ⟨op, g, fate⟩ := x
      have ih := ih fun x hx' => hx x (List.mem_cons_of_mem _ hx')
      by_cases hg : g = f
      · subst hg
        obtain ⟨e1, e2⟩ := attempt_same hc P D op g fate s s' hs
        obtain ⟨i1, i2⟩ := ih _ _ e2
        have hst : stepsFor g ((op, g, fate) :: h) = (op, g, fate) :: stepsFor g h := by
          unfold stepsFor; rw [List.filter_cons_of_pos (by simp)]
        rw [hst]
        simp only [runAll]
        refine ⟨?_, i2⟩
        rw [← i1, ← e1]
        unfold resultsFor
        rw [List.zip_cons_cons, List.filter_cons_of_pos (by simp), List.map_cons]
      · rcases hx (op, g, fate) (by simp) with h0 | ⟨hp, hn⟩
        · exact absurd h0 hg
        · obtain ⟨o1, o2, o3, o4, o5⟩ := attempt_other hc P D op f g fate hf hp hn s
          obtain ⟨h1, h2, h3, h4, h5⟩ := hs
          obtain ⟨i1, i2⟩ := ih (attempt c P D op g fate s).2 s' ⟨o1.trans h1, o2.trans h2, o3.trans h3, o4.trans h4, o5.trans h5⟩
          have hst : stepsFor f ((op, g, fate) :: h) = stepsFor f h := by
            unfold stepsFor; rw [List.filter_cons_of_neg (by simp [hg])]
          rw [hst]
          simp only [runAll]
          refine ⟨?_, i2⟩
          rw [← i1]
          unfold resultsFor
          rw [List.zip_cons_cons, List.filter_cons_of_neg (by simp [hg])]
  exact gen h hh s s ⟨rfl, rfl, rfl, rfl, rfl⟩

/-- The model agrees with the one of C114-C119 if nothing is interrupted and no file is damaged. -/
theorem uninterrupted (c : Config) (P : Programs V) (D : PyErr) (h : List (Op × FloatId)) (s : Store V) :
    runAll c P D (h.map fun x => (x.1, x.2, .ends)) (intact s) = ((run c P h s).1.map some, intact (run c P h s).2) := by
  have hl : ∀ (s : Store V) p, fetch D (intact s) p = load s p := by
    intro s p
    unfold fetch load intact
    cases s (file p) with
    | some v => rfl
    | none =>
      simp only [Option.map_none]
      split_ifs
      · rfl
      · cases s (file (p ++ ['.', 'm', 'a', 't'])) <;> rfl
  have hw : ∀ (s : Store V) p v, save (intact s) p (.whole v) = intact (save s p v) := by
    intro s p v
    funext x
    unfold save intact
    by_cases hx : x = file p
    · rw [if_pos hx]; dsimp only; rw [if_pos hx]; rfl
    · rw [if_neg hx]; dsimp only; rw [if_neg hx]
  have hne : ∀ (s : Store V) p e, load s p = .error e → e = .fileNotFound := by
    intro s p e
    unfold load
    split
    · intro h; cases h
    · split_ifs
      · intro h; cases h; rfl
      · split
        · intro h; cases h
        · intro h; cases h; rfl
  have hstep : ∀ op f (s : Store V), attempt c P D op f .ends (intact s) = (some (step c P op f s).1, intact (step c P op f s).2) := by
    intro op f s
    cases op with
    | mapping =>
      have e : compute c P D .mapping f (intact s) = (do
        let src ← load s (sourcePath c f)
        P.mapping src (s (file (mappedLoadPath c f)))) := by
        unfold compute
        rw [hl]
        simp only [intact]
        cases s (file (mappedLoadPath c f)) <;> rfl
      unfold attempt step
      dsimp only
      rw [e]
      generalize (load s (sourcePath c f) >>= fun src => P.mapping src (s (file (mappedLoadPath c f)))) = r
      cases r with
      | ok v => exact Prod.ext rfl (hw _ _ _)
      | error e => rfl
    | calseries =>
      have e : compute c P D .calseries f (intact s) = (do
        let src ← load s (sourcePath c f)
        P.calseries src (load s (calseriesPath c f)).toOption) := by
        unfold compute
        rw [hl, hl]
        cases hx : load s (calseriesPath c f) with
        | ok v => rfl
        | error e => rw [hne _ _ _ hx]; rfl
      unfold attempt step
      dsimp only
      rw [e]
      generalize (load s (sourcePath c f) >>= fun src => P.calseries src (load s (calseriesPath c f)).toOption) = r
      cases r with
      | ok v => exact Prod.ext rfl (hw _ _ _)
      | error e => rfl
    | fit =>
      have e : compute c P D .fit f (intact s) = (do
        let src ← load s (sourcePath c f)
        let m ← load s (mappedLoadPath c f)
        let k ← load s (calseriesFitPath c f)
        P.fit src m k) := by
        unfold compute
        dsimp only
        rw [hl, hl, hl]
      unfold attempt step
      dsimp only
      rw [e]
      generalize (load s (sourcePath c f) >>= fun src => load s (mappedLoadPath c f) >>= fun m => load s (calseriesFitPath c f) >>= fun k => P.fit src m k) = r
      cases r with
      | ok v => exact Prod.ext rfl (hw _ _ _)
      | error e => rfl
    | plots =>
      unfold attempt step
      dsimp only [compute]
      rw [hl, hl, hl, hl]
      generalize (load s (mappedSavePath c f) >>= fun m => load s (sourcePath c f) >>= fun src => load s (calPlotPath c f) >>= fun cal =>
        load s (calseriesPlotPath c f) >>= fun k => P.plots m src cal k) = r
      cases r <;> rfl
  induction h generalizing s with
  | nil => rfl
  | cons x h ih =>
    simp only [List.map_cons, runAll, run]
    rw [hstep]
    dsimp only
    rw [ih]

/-- C126. A step that is interrupted before it saves has no effect on the files. -/
theorem killed_before_saving (c : Config) (P : Programs V) (D : PyErr) (h : History) (s : Store (Content V)) :
    (runAll c P D h s).2 = (runAll c P D (h.filter fun x => decide (x.2.2 ≠ .killedBefore)) s).2 := by
  induction h generalizing s with
  | nil => rfl
  | cons x h ih =>
    obtain ⟨op, f, fate⟩ := x
    by_cases hk : fate = .killedBefore
    · rw [List.filter_cons_of_neg (by simp [hk])]
      simp only [runAll]
      rw [ih, hk]
      rfl
    · rw [List.filter_cons_of_pos (by simp [hk])]
      simp only [runAll]
      rw [ih]

/-- C126. However often the calibration of a float was interrupted, at whatever point, running it again gives the same result as an undisturbed calibration. In
between there may be plots of the float and any steps for floats of other names. -/
theorem calibration_repaired (c : Config) (hc : Orderly c) (P : Programs V) (D : PyErr) (f : FloatId) (hf : Plain f.name) (h : History)
    (hh : OnlyFloat f h) (hop : ∀ x ∈ h, x.2.1 = f → x.1 = .fit ∨ x.1 = .plots) (s : Store (Content V)) :
    (attempt c P D .fit f .ends (runAll c P D h s).2).1 = (attempt c P D .fit f .ends s).1 ∧
    ∀ v, (attempt c P D .fit f .ends s).1 = some (.ok v) →
      (attempt c P D .fit f .ends (runAll c P D h s).2).2 (file (calPath c f)) = some (.whole v) := by
  have keep : (runAll c P D h s).2 (file (sourcePath c f)) = s (file (sourcePath c f)) ∧
      (runAll c P D h s).2 (file (mappedLoadPath c f)) = s (file (mappedLoadPath c f)) ∧
      (runAll c P D h s).2 (file (calseriesPath c f)) = s (file (calseriesPath c f)) := by
    induction h generalizing s with
    | nil => exact ⟨rfl, rfl, rfl⟩
    | cons x h ih =>
      obtain ⟨op, g, fate⟩ := x
      obtain ⟨i1, i2, i3⟩ := ih (fun x hx => hh x (List.mem_cons_of_mem _ hx)) (fun x hx => hop x (List.mem_cons_of_mem _ hx)) (attempt c P D op g fate s).2
      simp only [runAll]
      rw [i1, i2, i3]
      rcases hh (op, g, fate) (by simp) with h0 | ⟨hp, hn⟩
      · dsimp only at h0
        subst h0
        have ho := hop (op, g, fate) (by simp) rfl
        dsimp only at ho
        have h1 : op ≠ .mapping ∧ op ≠ .calseries := by rcases ho with rfl | rfl <;> decide
        refine ⟨?_, ?_, ?_⟩ <;> refine attempt_writes P D op g fate s _ (fun e => absurd e h1.1) (fun e => absurd e h1.2) (fun _ => file_ne ?_)
        · rw [source_comp hc g hf, cal_comp hc g hf]; simp only [List.append_assoc]; exact apart (comp_sourceCalib hc)
        · rw [load_comp hc g hf, cal_comp hc g hf]; simp only [List.append_assoc]; exact apart (comp_mappedCalib hc)
        · rw [calseries_comp hc g hf, cal_comp hc g hf]; exact last_ne (pre_ne ⟨hc.prefixes.2, hc.prefixes.1⟩)
      · obtain ⟨o1, o2, _, o4, _⟩ := attempt_other hc P D op f g fate hf hp hn s
        exact ⟨o1, o2, o4⟩
  have e := compute_same hc P D .fit f (runAll c P D h s).2 s keep.1 (fun _ => keep.2.1) (fun h => by cases h) (fun _ => keep.2.2) (fun h => by cases h)
  unfold attempt
  dsimp only
  rw [e]
  cases compute c P D .fit f s with
  | error er => exact ⟨rfl, fun v h => by cases h⟩
  | ok v =>
    refine ⟨rfl, fun v' h => ?_⟩
    cases h
    exact if_pos rfl

/-- C126. For a float in a directory of its own the same holds for `update_salinity_mapping`, after any history of steps. -/
theorem mapping_repaired_in_directory (c : Config) (hc : Orderly c) (P : Programs V) (D : PyErr) (f : FloatId) (hf : Plain f.name)
    (hd : ¬ NoDirectory f) (h : History) (hh : ∀ x ∈ h, Plain x.2.1.name) (s : Store (Content V)) :
    (attempt c P D .mapping f .ends (runAll c P D h s).2).1 = (attempt c P D .mapping f .ends s).1 ∧
    ∀ v, (attempt c P D .mapping f .ends s).1 = some (.ok v) →
      (attempt c P D .mapping f .ends (runAll c P D h s).2).2 (file (mappedSavePath c f)) = some (.whole v) := by
  have keep : (runAll c P D h s).2 (file (sourcePath c f)) = s (file (sourcePath c f)) ∧
      (runAll c P D h s).2 (file (mappedLoadPath c f)) = s (file (mappedLoadPath c f)) := by
    induction h generalizing s with
    | nil => exact ⟨rfl, rfl⟩
    | cons x h ih =>
      obtain ⟨op, g, fate⟩ := x
      obtain ⟨i1, i2⟩ := ih (fun x hx => hh x (List.mem_cons_of_mem _ hx)) (attempt c P D op g fate s).2
      have hg := hh (op, g, fate) (by simp)
      simp only [runAll]
      rw [i1, i2]
      exact ⟨source_kept hc P D op f g fate hf hg s, away_kept hc P D op f g fate hf hg hd s⟩
  have e := compute_same hc P D .mapping f (runAll c P D h s).2 s keep.1 (fun _ => keep.2) (fun h => by cases h) (fun h => absurd rfl h)
    (fun h => by cases h)
  unfold attempt
  dsimp only
  rw [e]
  cases compute c P D .mapping f s with
  | error er => exact ⟨rfl, fun v h => by cases h⟩
  | ok v =>
    refine ⟨rfl, fun v' h => ?_⟩
    cases h
    exact if_pos rfl

/-- C127. A float without a directory whose mapping was interrupted while saving: no further call repairs the file. Mapping, calibration and plots of the float always
end with the exception for the damaged file, unless they are interrupted again, until the user deletes the file. -/
theorem damaged_mapped_blocks (c : Config) (hc : Orderly c) (P : Programs V) (D : PyErr) (f : FloatId) (hf : Plain f.name) (hd : NoDirectory f)
    (h : History) (hh : OnlyFloat f h) (s : Store (Content V)) (src : V) (hsrc : s (file (sourcePath c f)) = some (.whole src))
    (hdam : s (file (mappedSavePath c f)) = some .damaged) :
    (runAll c P D h s).2 (file (mappedSavePath c f)) = some .damaged ∧
    ∀ x ∈ h.zip (runAll c P D h s).1, x.1.2.1 = f → x.1.1 ≠ .calseries →
      x.2 = if x.1.2.2 = .killedBefore then none else some (.error D) := by
  have hload := (mapped_found_iff c hc f hf).2 hd
  induction h generalizing s with
  | nil => exact ⟨hdam, fun x hx => by simp [runAll] at hx⟩
  | cons y h ih =>
    obtain ⟨op, g, fate⟩ := y
    have ih := ih fun x hx' => hh x (List.mem_cons_of_mem _ hx')
    simp only [runAll]
    rcases hh (op, g, fate) (by simp) with h0 | ⟨hp, hn⟩
    · dsimp only at h0
      subst h0
      have hcomp : op ≠ .calseries → compute c P D op g s = .error D := by
        intro ho
        have f1 : fetch D s (sourcePath c g) = .ok src := by rw [fetch_exact hc D s _ (mat_source hc g), hsrc]
        have f2 : fetch D s (mappedLoadPath c g) = .error D := by rw [fetch_exact hc D s _ (mat_load hc g), ← hload, hdam]
        have f3 : fetch D s (mappedSavePath c g) = .error D := by rw [fetch_exact hc D s _ (mat_save hc g), hdam]
        cases op with
        | mapping =>
          unfold compute
          rw [f1, ← hload, hdam]
          rfl
        | calseries => exact absurd rfl ho
        | fit =>
          unfold compute
          rw [f1, f2]
          rfl
        | plots =>
          unfold compute
          rw [f3]
          rfl
      have e1 : (attempt c P D op g fate s).2 (file (mappedSavePath c g)) = some .damaged := by
        by_cases ho : op = .mapping
        · have : (attempt c P D op g fate s).2 = s := by
            unfold attempt
            cases fate <;> dsimp only <;> rw [hcomp (by rw [ho]; decide)]
          rw [this, hdam]
        · rw [attempt_writes P D op g fate s _ (fun e => absurd e ho) (fun _ => file_ne ?_) (fun _ => file_ne ?_), hdam]
          · rw [save_comp hc g hf, calseries_comp hc g hf]; simp only [List.append_assoc]; exact apart (comp_mappedCalib hc)
          · rw [save_comp hc g hf, cal_comp hc g hf]; simp only [List.append_assoc]; exact apart (comp_mappedCalib hc)
      obtain ⟨i1, i2⟩ := ih (attempt c P D op g fate s).2 (by rw [source_kept hc P D op g g fate hf hf, hsrc]) e1
      refine ⟨i1, fun x hx hxf hxo => ?_⟩
      rw [List.zip_cons_cons, List.mem_cons] at hx
      rcases hx with rfl | hx
      · dsimp only at hxo ⊢
        unfold attempt
        cases fate with
        | killedBefore => rfl
        | killedSaving =>
          dsimp only
          rw [hcomp hxo]
          rfl
        | ends =>
          dsimp only
          rw [hcomp hxo]
          rfl
      · exact i2 x hx hxf hxo
    · obtain ⟨o1, _, o3, _, _⟩ := attempt_other hc P D op f g fate hf hp hn s
      obtain ⟨i1, i2⟩ := ih (attempt c P D op g fate s).2 (o1.trans hsrc) (o3.trans hdam)
      refine ⟨i1, fun x hx hxf hxo => ?_⟩
      rw [List.zip_cons_cons, List.mem_cons] at hx
      rcases hx with rfl | hx
      · exact absurd (congrArg FloatId.name hxf) hn
      · exact i2 x hx hxf hxo

/-- C127. The same for `set_calseries`: after an interruption while it saves it always ends with the exception for the damaged file, and calibration and plots never
complete. -/
theorem damaged_calseries_blocks (c : Config) (hc : Orderly c) (P : Programs V) (D : PyErr) (hD : D ≠ .fileNotFound) (f : FloatId) (hf : Plain f.name)
    (h : History) (hh : OnlyFloat f h) (s : Store (Content V)) (src : V) (hsrc : s (file (sourcePath c f)) = some (.whole src))
    (hdam : s (file (calseriesPath c f)) = some .damaged) :
    (runAll c P D h s).2 (file (calseriesPath c f)) = some .damaged ∧
    ∀ x ∈ h.zip (runAll c P D h s).1, x.1.2.1 = f →
      (x.1.1 = .calseries → x.2 = if x.1.2.2 = .killedBefore then none else some (.error D)) ∧
      (x.1.1 = .fit ∨ x.1.1 = .plots → ∀ v, x.2 ≠ some (.ok v)) := by
  induction h generalizing s with
  | nil => exact ⟨hdam, fun x hx => by simp [runAll] at hx⟩
  | cons y h ih =>
    obtain ⟨op, g, fate⟩ := y
    have ih := ih fun x hx' => hh x (List.mem_cons_of_mem _ hx')
    simp only [runAll]
    rcases hh (op, g, fate) (by simp) with h0 | ⟨hp, hn⟩
    · dsimp only at h0
      subst h0
      have f1 : fetch D s (sourcePath c g) = .ok src := by rw [fetch_exact hc D s _ (mat_source hc g), hsrc]
      have f2 : fetch D s (calseriesPath c g) = .error D := by rw [fetch_exact hc D s _ (mat_calseries hc g), hdam]
      have hcomp : op = .calseries → compute c P D op g s = .error D := by
        rintro rfl
        unfold compute
        rw [f1, f2]
        simp only [bind, Except.bind]
      have hfail : op = .fit ∨ op = .plots → ∀ v, compute c P D op g s ≠ .ok v := by
        rintro (rfl | rfl) v
        · unfold compute
          rw [f1, fitPath_eq hc, f2]
          cases fetch D s (mappedLoadPath c g) <;> exact fun e => by cases e
        · unfold compute
          rw [f1, (plotPath_eq hc g).1, f2]
          cases fetch D s (mappedSavePath c g) with
          | error e => exact fun e => by cases e
          | ok m => cases fetch D s (calPlotPath c g) <;> exact fun e => by cases e
      have e1 : (attempt c P D op g fate s).2 (file (calseriesPath c g)) = some .damaged := by
        by_cases ho : op = .calseries
        · have : (attempt c P D op g fate s).2 = s := by
            unfold attempt
            cases fate <;> dsimp only <;> rw [hcomp ho]
          rw [this, hdam]
        · rw [attempt_writes P D op g fate s _ (fun _ => file_ne ?_) (fun e => absurd e ho) (fun _ => file_ne ?_), hdam]
          · rw [calseries_comp hc g hf, save_comp hc g hf]; simp only [List.append_assoc]; exact (apart (comp_mappedCalib hc)).symm
          · rw [calseries_comp hc g hf, cal_comp hc g hf]; exact last_ne (pre_ne ⟨hc.prefixes.2, hc.prefixes.1⟩)
      obtain ⟨i1, i2⟩ := ih (attempt c P D op g fate s).2 (by rw [source_kept hc P D op g g fate hf hf, hsrc]) e1
      refine ⟨i1, fun x hx hxf => ?_⟩
      rw [List.zip_cons_cons, List.mem_cons] at hx
      rcases hx with rfl | hx
      · dsimp only
        constructor
        · intro ho
          unfold attempt
          cases fate with
          | killedBefore => rfl
          | killedSaving =>
            dsimp only
            rw [hcomp ho]
            rfl
          | ends =>
            dsimp only
            rw [hcomp ho]
            rfl
        · intro ho v
          have := hfail ho
          unfold attempt
          cases fate with
          | killedBefore => simp
          | killedSaving =>
            dsimp only
            cases hx : compute c P D op g s with
            | ok w => exact absurd hx (this w)
            | error e => simp
          | ends =>
            dsimp only
            cases hx : compute c P D op g s with
            | ok w => exact absurd hx (this w)
            | error e => simp
      · exact i2 x hx hxf
    · obtain ⟨o1, _, _, o4, _⟩ := attempt_other hc P D op f g fate hf hp hn s
      obtain ⟨i1, i2⟩ := ih (attempt c P D op g fate s).2 (o1.trans hsrc) (o4.trans hdam)
      refine ⟨i1, fun x hx hxf => ?_⟩
      rw [List.zip_cons_cons, List.mem_cons] at hx
      rcases hx with rfl | hx
      · exact absurd (congrArg FloatId.name hxf) hn
      · exact i2 x hx hxf

/-! ## A case -/

/-- An analysis whose mapping and calibration are interrupted while they save; the mapping has to be repeated in vain, that of the float in a directory succeeds. -/
def crHistory : History := [(.mapping, wfHome, .ends), (.calseries, wfHome, .ends), (.fit, wfHome, .killedSaving), (.plots, wfHome, .ends),
  (.fit, wfHome, .ends), (.mapping, wfHome, .killedSaving), (.mapping, wfHome, .ends), (.fit, wfHome, .ends)]

/-- The exceptions and results as text-free values. -/
def crShow (r : Option (Except PyErr ℕ)) : Option (PyErr ⊕ ℕ) :=
  match r with
  | none => none
  | some (.error e) => some (.inl e)
  | some (.ok v) => some (.inr v)

example : (runAll defaultPaths wfPrograms .valueError crHistory (intact wfDisk)).1.map crShow =
    [some (.inr 10), some (.inr 20), none, some (.inl .valueError), some (.inr 31), none, some (.inl .valueError), some (.inl .valueError)] := by
  decide +kernel

example : OnlyFloat wfHome crHistory := by
  intro x hx
  left
  have : ∀ y ∈ crHistory, y.2.1 = wfHome := by decide +kernel
  exact this x hx

/-- After the interruption the disk meets the hypotheses of C127. -/
example : let s := (attempt defaultPaths wfPrograms .valueError .mapping wfHome .killedSaving (intact wfDisk)).2
    s (file (sourcePath defaultPaths wfHome)) = some (.whole 1) ∧ s (file (mappedSavePath defaultPaths wfHome)) = some .damaged := by
  decide +kernel

example : let s := (attempt defaultPaths wfPrograms .valueError .calseries wfHome .killedSaving (intact wfDisk)).2
    s (file (sourcePath defaultPaths wfHome)) = some (.whole 1) ∧ s (file (calseriesPath defaultPaths wfHome)) = some .damaged := by
  decide +kernel

/-- The float in a directory is mapped again without harm. -/
example : (runAll defaultPaths wfPrograms .valueError [(.mapping, wfAway, .killedSaving), (.mapping, wfAway, .ends)] (intact wfDisk)).1.map crShow =
    [none, some (.inr 10)] := by
  decide +kernel

end Verif.Props
