import Verif.Lemmas.Workflow

/-!
# Properties of whole analyses: which files the steps read and write (C114-C118)
-/

namespace Verif.Props

open Verif.Np Verif.Spec Verif.Workflow

variable {V : Type}

/-- C114. The mapped data that `update_salinity_mapping` saves are found again (by itself and by `calc_piecewisefit`) exactly if the float is directly in the source
directory. -/
theorem mapped_found_iff (c : Config) (hc : Orderly c) (f : FloatId) (hf : Plain f.name) :
    file (mappedSavePath c f) = file (mappedLoadPath c f) ↔ NoDirectory f := by
  have hh : (mappedSavePath c f).head? = (mappedLoadPath c f).head? := by
    unfold mappedSavePath mappedLoadPath sepJoin sepJoin
    rw [head_join, head_join]
  have he : file (mappedSavePath c f) = file (mappedLoadPath c f) ↔ components (mappedSavePath c f) = components (mappedLoadPath c f) := by
    unfold file
    rw [hh, Prod.mk.injEq]
    exact ⟨fun h => h.2, fun h => ⟨rfl, h⟩⟩
  rw [he, save_comp hc f hf, load_comp hc f hf, List.append_assoc (components c.mappedDir), List.append_cancel_left_eq]
  rw [noDirectory_iff]
  constructor
  · intro h
    have := congrArg List.length h
    simp only [List.length_append, List.length_cons, List.length_nil] at this
    exact List.length_eq_zero_iff.1 (by omega)
  · intro h
    rw [h, List.nil_append]

/-- C114. The steps of an analysis of a float directly in the source directory build on each other, whatever was on the disk before: the fit uses the mapping and the
calseries file just made, and the plots show these and the fit just made. -/
theorem analysis_uses_own_results (c : Config) (hc : Orderly c) (P : Programs V) (f : FloatId) (hf : Plain f.name) (hd : NoDirectory f) (s : Store V) (src m k r d : V)
    (hsrc : s (file (sourcePath c f)) = some src)
    (hm : P.mapping src (s (file (mappedSavePath c f))) = .ok m) (hk : P.calseries src (s (file (calseriesPath c f))) = .ok k)
    (hr : P.fit src m k = .ok r) (hd' : P.plots m src r k = .ok d) :
    (run c P [(.mapping, f), (.calseries, f), (.fit, f), (.plots, f)] s).1 = [.ok m, .ok k, .ok r, .ok d] := by
  have hload := (mapped_found_iff c hc f hf).2 hd
  have n1 : file (sourcePath c f) ≠ file (mappedSavePath c f) := file_ne (by
    rw [source_comp hc f hf, save_comp hc f hf]; simp only [List.append_assoc]; exact apart (comp_sourceMapped hc))
  have n2 : file (sourcePath c f) ≠ file (calseriesPath c f) := file_ne (by
    rw [source_comp hc f hf, calseries_comp hc f hf]; simp only [List.append_assoc]; exact apart (comp_sourceCalib hc))
  have n3 : file (sourcePath c f) ≠ file (calPath c f) := file_ne (by
    rw [source_comp hc f hf, cal_comp hc f hf]; simp only [List.append_assoc]; exact apart (comp_sourceCalib hc))
  have n4 : file (mappedSavePath c f) ≠ file (calseriesPath c f) := file_ne (by
    rw [save_comp hc f hf, calseries_comp hc f hf]; simp only [List.append_assoc]; exact apart (comp_mappedCalib hc))
  have n5 : file (mappedSavePath c f) ≠ file (calPath c f) := file_ne (by
    rw [save_comp hc f hf, cal_comp hc f hf]; simp only [List.append_assoc]; exact apart (comp_mappedCalib hc))
  have n6 : file (calPath c f) ≠ file (calseriesPath c f) := file_ne (calib_comp_ne c hc f f hf hf)
  -- mapping
  have e1 : step c P .mapping f s = (.ok m, save s (mappedSavePath c f) m) := by
    unfold step
    dsimp only
    rw [load_exact _ _ (mat_source hc f), hsrc, ← hload]
    simp only [bind, Except.bind, hm]
  -- calseries
  have e2 : step c P .calseries f (save s (mappedSavePath c f) m) =
      (.ok k, save (save s (mappedSavePath c f) m) (calseriesPath c f) k) := by
    unfold step
    dsimp only
    rw [load_exact _ _ (mat_source hc f), load_toOption _ _ (mat_calseries hc f)]
    have a1 : save s (mappedSavePath c f) m (file (sourcePath c f)) = some src := by unfold save; rw [if_neg n1, hsrc]
    have a2 : save s (mappedSavePath c f) m (file (calseriesPath c f)) = s (file (calseriesPath c f)) := by unfold save; rw [if_neg n4.symm]
    rw [a1, a2]
    simp only [bind, Except.bind, hk]
  -- fit
  have e3 : step c P .fit f (save (save s (mappedSavePath c f) m) (calseriesPath c f) k) =
      (.ok r, save (save (save s (mappedSavePath c f) m) (calseriesPath c f) k) (calPath c f) r) := by
    unfold step
    dsimp only
    rw [fitPath_eq hc, load_exact _ _ (mat_source hc f), load_exact _ _ (mat_load hc f), load_exact _ _ (mat_calseries hc f)]
    have a1 : save (save s (mappedSavePath c f) m) (calseriesPath c f) k (file (sourcePath c f)) = some src := by
      unfold save; rw [if_neg n2, if_neg n1, hsrc]
    have a2 : save (save s (mappedSavePath c f) m) (calseriesPath c f) k (file (mappedLoadPath c f)) = some m := by
      rw [← hload]; unfold save; rw [if_neg n4, if_pos rfl]
    have a3 : save (save s (mappedSavePath c f) m) (calseriesPath c f) k (file (calseriesPath c f)) = some k := by
      unfold save; rw [if_pos rfl]
    rw [a1, a2, a3]
    simp only [bind, Except.bind, hr]
  have e4 : (step c P .plots f (save (save (save s (mappedSavePath c f) m) (calseriesPath c f) k) (calPath c f) r)).1 = .ok d := by
    unfold step
    dsimp only
    rw [(plotPath_eq hc f).1, (plotPath_eq hc f).2, load_exact _ _ (mat_source hc f), load_exact _ _ (mat_save hc f), load_exact _ _ (mat_calseries hc f),
      load_exact _ _ (mat_cal hc f)]
    have a1 : save (save (save s (mappedSavePath c f) m) (calseriesPath c f) k) (calPath c f) r (file (sourcePath c f)) = some src := by
      unfold save; rw [if_neg n3, if_neg n2, if_neg n1, hsrc]
    have a2 : save (save (save s (mappedSavePath c f) m) (calseriesPath c f) k) (calPath c f) r (file (mappedSavePath c f)) = some m := by
      unfold save; rw [if_neg n5, if_neg n4, if_pos rfl]
    have a3 : save (save (save s (mappedSavePath c f) m) (calseriesPath c f) k) (calPath c f) r (file (calseriesPath c f)) = some k := by
      unfold save; rw [if_neg n6.symm, if_pos rfl]
    have a4 : save (save (save s (mappedSavePath c f) m) (calseriesPath c f) k) (calPath c f) r (file (calPath c f)) = some r := by
      unfold save; rw [if_pos rfl]
    rw [a1, a2, a3, a4]
    simp only [bind, Except.bind, hd']
  simp only [run, e1, e2, e3, e4]

/-- C115. Floats with different names do not disturb each other: in any history of steps for any floats, the results and the files of a float are those of its own
steps alone, as long as no other float in the history has the same name. -/
theorem floats_do_not_interfere (c : Config) (hc : Orderly c) (P : Programs V) (f : FloatId) (hf : Plain f.name) (h : List (Op × FloatId))
    (hh : ∀ x ∈ h, x.2 = f ∨ Plain x.2.name ∧ x.2.name ≠ f.name) (s : Store V) :
    resultsOf f h (run c P h s).1 = (run c P (stepsOf f h) s).1 ∧ SameFiles c f (run c P h s).2 (run c P (stepsOf f h) s).2 := by
  have gen : ∀ (h : List (Op × FloatId)), (∀ x ∈ h, x.2 = f ∨ Plain x.2.name ∧ x.2.name ≠ f.name) → ∀ s s' : Store V, SameFiles c f s s' →
      resultsOf f h (run c P h s).1 = (run c P (stepsOf f h) s').1 ∧ SameFiles c f (run c P h s).2 (run c P (stepsOf f h) s').2 := by
    intro h
    induction h with
    | nil => intro _ s s' hs; exact ⟨rfl, hs⟩
    | cons x h ih =>
      intro hx s s' hs
      obtain ⟨op, g⟩ := x
      have ih := ih fun x hx' => hx x (List.mem_cons_of_mem _ hx')
      by_cases hg : g = f
      · subst hg
        obtain ⟨e1, e2⟩ := step_same hc P op g s s' hs
        obtain ⟨i1, i2⟩ := ih _ _ e2
        have hst : stepsOf g ((op, g) :: h) = (op, g) :: stepsOf g h := by
          unfold stepsOf; rw [List.filter_cons_of_pos (by simp)]
        rw [hst]
        simp only [run]
        refine ⟨?_, i2⟩
        rw [← i1, ← e1]
        unfold resultsOf
        rw [List.zip_cons_cons, List.filter_cons_of_pos (by simp), List.map_cons]
      · have hx0 := hx (op, g) (by simp)
        rcases hx0 with h0 | ⟨hp, hn⟩
        · exact absurd h0 hg
        · obtain ⟨o1, o2, o3, o4, o5⟩ := step_other hc P op f g hf hp hn s
          obtain ⟨h1, h2, h3, h4, h5⟩ := hs
          obtain ⟨i1, i2⟩ := ih (step c P op g s).2 s' ⟨o1.trans h1, o2.trans h2, o3.trans h3, o4.trans h4, o5.trans h5⟩
          have hst : stepsOf f ((op, g) :: h) = stepsOf f h := by
            unfold stepsOf; rw [List.filter_cons_of_neg (by simp [hg])]
          rw [hst]
          simp only [run]
          refine ⟨?_, i2⟩
          rw [← i1]
          unfold resultsOf
          rw [List.zip_cons_cons, List.filter_cons_of_neg (by simp [hg])]
  exact gen h hh s s ⟨rfl, rfl, rfl, rfl, rfl⟩

/-- C116. For a float in a directory of its own, no history of steps, for whatever floats, changes the mapped data that `update_salinity_mapping` and
`calc_piecewisefit` read. -/
theorem mapped_in_directory_never_updated (c : Config) (hc : Orderly c) (P : Programs V) (f : FloatId) (hf : Plain f.name) (hd : ¬ NoDirectory f)
    (h : List (Op × FloatId)) (hh : ∀ x ∈ h, Plain x.2.name) (s : Store V) :
    (run c P h s).2 (file (mappedLoadPath c f)) = s (file (mappedLoadPath c f)) := by
  induction h generalizing s with
  | nil => rfl
  | cons x h ih =>
    obtain ⟨op, g⟩ := x
    have hg := hh (op, g) (by simp)
    simp only [run]
    rw [ih fun x hx => hh x (List.mem_cons_of_mem _ hx)]
    refine step_writes P op g s _ (file_ne ?_) (file_ne ?_) (file_ne ?_)
    · rw [load_comp hc f hf, save_comp hc g hg, List.append_assoc]
      intro e
      have := congrArg List.length (List.append_cancel_left e)
      simp only [List.length_append, List.length_cons, List.length_nil] at this
      exact hd ((noDirectory_iff f).2 (List.length_eq_zero_iff.1 (by omega)))
    · rw [load_comp hc f hf, calseries_comp hc g hg]; simp only [List.append_assoc]; exact apart (comp_mappedCalib hc)
    · rw [load_comp hc f hf, cal_comp hc g hg]; simp only [List.append_assoc]; exact apart (comp_mappedCalib hc)

/-- C116. So, unless the user copies the file, the calibration of such a float always stops with `FileNotFoundError`, however often it is mapped. -/
theorem no_calibration_in_directory (c : Config) (hc : Orderly c) (P : Programs V) (f : FloatId) (hf : Plain f.name) (hd : ¬ NoDirectory f)
    (h : List (Op × FloatId)) (hh : ∀ x ∈ h, Plain x.2.name) (s : Store V) (hs : s (file (mappedLoadPath c f)) = none)
    (src : V) (hsrc : (run c P h s).2 (file (sourcePath c f)) = some src) :
    (step c P .fit f (run c P h s).2).1 = .error .fileNotFound := by
  unfold step
  dsimp only
  rw [load_exact _ _ (mat_source hc f), hsrc, load_exact _ _ (mat_load hc f), mapped_in_directory_never_updated c hc P f hf hd h hh, hs]
  rfl

/-- C117. Two floats of the same name in different directories share one file of mapped data: mapping one replaces the result of the other, and the plots of the
other then show it. -/
theorem same_name_overwrites (c : Config) (P : Programs V) (f g : FloatId) (hn : f.name = g.name) (s : Store V) (v : V)
    (hv : (step c P .mapping g s).1 = .ok v) :
    (step c P .mapping g s).2 (file (mappedSavePath c f)) = some v ∧
    ∀ src cal k : V, load (step c P .mapping g s).2 (sourcePath c f) = .ok src → load (step c P .mapping g s).2 (calPlotPath c f) = .ok cal →
      load (step c P .mapping g s).2 (calseriesPlotPath c f) = .ok k →
      (step c P .plots f (step c P .mapping g s).2).1 = P.plots v src cal k := by
  have hp : mappedSavePath c f = mappedSavePath c g := by unfold mappedSavePath; rw [hn]
  have h1 : (step c P .mapping g s).2 (file (mappedSavePath c f)) = some v := by
    rw [hp]
    unfold step at hv ⊢
    dsimp only at hv ⊢
    split at hv
    · rename_i w hw
      simp only [Except.ok.injEq] at hv
      subst hv
      exact if_pos rfl
    · simp at hv
  refine ⟨h1, fun src cal k hs hc hk => ?_⟩
  generalize (step c P .mapping g s).2 = s' at *
  have h2 : load s' (mappedSavePath c f) = .ok v := by unfold load; rw [h1]
  unfold step
  dsimp only
  rw [h2, hs, hc, hk]
  rfl

/-- C118. `calc_piecewisefit` looks for the calseries file under the name under which `set_calseries` saved it exactly if the postfixes of mapped data and of calibrations are the same,
and the plots do exactly if those of the source and of calibrations are; likewise for the calibration. -/
theorem postfixes_must_agree (c : Config) (f : FloatId) (hf : Plain f.name) (h1 : Plain c.calseriesPre) (h2 : Plain c.calibPre) (h3 : Plain c.mappedPost)
    (h4 : Plain c.calibPost) (h5 : Plain c.sourcePost) (l1 : 2 ≤ c.calseriesPre.length) (l2 : 2 ≤ c.calibPre.length) :
    (file (calseriesFitPath c f) = file (calseriesPath c f) ↔ c.mappedPost = c.calibPost) ∧
    (file (calseriesPlotPath c f) = file (calseriesPath c f) ↔ c.sourcePost = c.calibPost) ∧
    (file (calPlotPath c f) = file (calPath c f) ↔ c.sourcePost = c.calibPost) := by
  have key : ∀ pre p q : List Char, Plain pre → 2 ≤ pre.length → Plain p → Plain q →
      (file (sepJoin [c.calibDir, f.dir, pre ++ f.name ++ p]) = file (sepJoin [c.calibDir, f.dir, pre ++ f.name ++ q]) ↔ p = q) := by
    intro pre p q hpre hl hp hq
    rw [last_name_eq_iff _ _ _ _ (plain_append (plain_append hpre hf) hp) (plain_append (plain_append hpre hf) hq)
      (by simp only [List.length_append]; omega) (by simp only [List.length_append]; omega)]
    exact ⟨fun h => List.append_cancel_left h, fun h => by rw [h]⟩
  exact ⟨key _ _ _ h1 l1 h3 h4, key _ _ _ h1 l1 h5 h4, key _ _ _ h2 l2 h5 h4⟩

/-- C119. No two figures have the same file: neither different figures of a float nor figures of floats with different names. -/
theorem figures_distinct (plotsDir format n n' : List Char) (hn : Plain n) (hn' : Plain n') (hf : Plain format) (g g' : Figure) (hg : Printed g) (hg' : Printed g')
    (h : file (figurePath plotsDir format n g) = file (figurePath plotsDir format n' g')) : n = n' ∧ g = g' := by
  have hc := congrArg Prod.snd h
  change components _ = components _ at hc
  have e : ∀ (m : List Char) (k : Figure), figurePath plotsDir format m k = sepJoin [plotsDir, m ++ figureSuffix k ++ format] := by
    intro m k
    unfold figurePath sepJoin sepJoin
    simp [List.append_assoc]
  have p : ∀ (m : List Char) (k : Figure), Plain m → Printed k → components (m ++ figureSuffix k ++ format) = [m ++ figureSuffix k ++ format] := by
    intro m k hm hk
    obtain ⟨h1, h2⟩ := suffix_plain k hk
    refine components_plain _ (plain_append (plain_append hm h1) hf) ?_
    simp only [List.length_append]
    omega
  rw [e, e, components_join2, components_join2, List.append_cancel_left_eq, p n g hn hg, p n' g' hn' hg'] at hc
  have hc' : n ++ figureSuffix g = n' ++ figureSuffix g' := List.append_cancel_right (List.cons.inj hc).1
  exact suffix_unique n n' g g' hg hg' hc'

/-! ## Concrete cases -/

/-- The default configuration (pyowc/configuration.py:42-64). -/
def defaultPaths : Config where
  sourceDir := ['d', 'a', 't', 'a', '/', 'f', 'l', 'o', 'a', 't', '_', 's', 'o', 'u', 'r', 'c', 'e', '/']
  sourcePost := ['.', 'm', 'a', 't']
  mappedDir := ['d', 'a', 't', 'a', '/', 'f', 'l', 'o', 'a', 't', '_', 'm', 'a', 'p', 'p', 'e', 'd', '/']
  mappedPre := ['m', 'a', 'p', '_']
  mappedPost := ['.', 'm', 'a', 't']
  calibDir := ['d', 'a', 't', 'a', '/', 'f', 'l', 'o', 'a', 't', '_', 'c', 'a', 'l', 'i', 'b']
  calibPre := ['c', 'a', 'l', '_']
  calseriesPre := ['c', 'a', 'l', 's', 'e', 'r', 'i', 'e', 's', '_']
  calibPost := ['.', 'm', 'a', 't']

theorem defaultPaths_orderly : Orderly defaultPaths where
  sourcePost := rfl
  calibPost := rfl
  mat := ⟨[], rfl⟩
  plainPost := by unfold Plain; decide
  plainMapped := by unfold Plain; decide
  plainCalib := by unfold Plain; decide
  plainCalseries := by unfold Plain; decide
  sourceMapped := by unfold Incomparable; decide +kernel
  sourceCalib := by unfold Incomparable; decide +kernel
  mappedCalib := by unfold Incomparable; decide +kernel
  prefixes := by unfold Incomparable; decide +kernel

/-- A float directly in the source directory, called as in the tutorial with `float_dir = "/"`. -/
def wfHome : FloatId := ⟨['/'], ['3', '9', '0', '1', '9', '6', '0']⟩

/-- A float in a directory of its own. -/
def wfAway : FloatId := ⟨['b', 'o', 'd', 'c'], ['3', '9', '0', '1', '9', '6', '0']⟩

example : NoDirectory wfHome ∧ NoDirectory ⟨['.', '/'], wfHome.name⟩ ∧ ¬ NoDirectory wfAway ∧ Plain wfHome.name := by
  unfold NoDirectory Plain
  decide +kernel

/-- Programs whose results name what they read: the source is 1. -/
def wfPrograms : Programs ℕ where
  mapping := fun s o => .ok (10 * s + o.getD 0)
  calseries := fun s _ => .ok (20 * s)
  fit := fun s m k => .ok (s + m + k)
  plots := fun m s r k => .ok (m + s + r + k)

/-- A disk with nothing but source files. -/
def wfDisk : Store ℕ := fun x => if x = file (sourcePath defaultPaths wfHome) ∨ x = file (sourcePath defaultPaths wfAway) then some 1 else none

example : ((run defaultPaths wfPrograms [(.mapping, wfHome), (.calseries, wfHome), (.fit, wfHome), (.plots, wfHome)] wfDisk).1.map Except.toOption) =
    [some 10, some 20, some 31, some 62] := by decide +kernel

example : ((run defaultPaths wfPrograms [(.mapping, wfAway), (.calseries, wfAway), (.fit, wfAway)] wfDisk).1.map Except.toOption) =
    [some 10, some 20, none] := by decide +kernel

example : (step defaultPaths wfPrograms .mapping wfAway wfDisk).2 (file (mappedSavePath defaultPaths wfHome)) = some 10 := by decide +kernel

example : Printed (.variance ['1', '2']) ∧ Printed (.anomaly true ['[', '0', ',', ' ', '5', ']']) := by
  exact ⟨⟨⟨'1', ['2'], rfl, by decide⟩, by decide, by unfold Plain; decide⟩, ⟨_, rfl⟩, by decide, by unfold Plain; decide⟩

end Verif.Props
