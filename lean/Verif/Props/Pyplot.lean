import Verif.Lemmas.Pyplot

/-!
# C142, C143: what the files saved by `plot_diagnostics` show

A Python session calls `plot_diagnostics` for any number of floats, one after another; an exception of a call is caught by the caller. `Holds s path J pics` says that the
file at `path` holds exactly the pictures `pics` drawn by the call `J`.
-/

set_option linter.unusedSectionVars false

namespace Verif.Props

open Verif.Np Verif.Helper Verif.Diagnostics Verif.Workflow Verif.Spec Verif.Pyplot

variable {K : Type} [Field K] [LinearOrder K] [IsStrictOrderedRing K] [FloorRing K]

variable (plotsDir format : List Char)

/-- A call saves the figures of C138 in that order, at the places where a user looks for them, and ends with the same exception. -/
theorem script_saves (J : Job K) : (plotScript plotsDir format J).2 = (diagnostics J.input).2 ∧
    savedPaths (plotScript plotsDir format J).1 = (diagnostics J.input).1.map (figureFile plotsDir format J.name) := by
  refine ⟨(corr_plot plotsDir format J).1, ?_⟩
  rw [show figureFile plotsDir format J.name = figurePath plotsDir format J.name from funext (figureFile_eq plotsDir format J.name)]
  exact (corr_plot plotsDir format J).2

/-- C142. The figures of theta-S curves, anomalies and levels are always right: whatever was open before, whatever `show()` does and whatever is plotted before and after,
each file holds what its name says, drawn by the last call for this float. -/
theorem separate_figures (b : Backend) (pre post : List (Job K)) (J : Job K) (hJ : Printing J) (hpost : ∀ J' ∈ post, Printing J' ∧ J'.name ≠ J.name)
    (s : Session (Drawing K)) (g : Figure) (hg : g ∈ (diagnostics J.input).1) (hsep : Separate g) (l : List Picture) (hl : Shows J.input g l) :
    Holds (plotJobs plotsDir format b (pre ++ J :: post) s) (figureFile plotsDir format J.name g) J l := by
  rw [figureFile_eq, plotJobs_append]
  change Holds (plotJobs plotsDir format b post (plotJob plotsDir format b J _)) _ _ _
  obtain ⟨c, h1, h2⟩ := holds_of_good plotsDir format hJ b (plotJobs plotsDir format b pre s) (plot_always plotsDir format hJ b _) hg hl (.inr hsep)
  refine ⟨c, ?_, h2⟩
  rw [others_keep plotsDir format b post (fun J' h => (hpost J' h).1) J.name (fun J' h => (hpost J' h).2) g (printed_saved hJ hg)]
  exact h1

theorem session_blank (b : Backend) (hb : b.closes = true) (Js : List (Job K)) (hJs : ∀ J ∈ Js, Printing J ∧ ¬ BrokeAtLevel J) (s : Session (Drawing K)) (hs : Blank s.figs) :
    Blank (plotJobs plotsDir format b Js s).figs := by
  induction Js generalizing s with
  | nil => exact hs
  | cons J Js ih =>
    refine ih (fun J' h => hJs J' (List.mem_cons_of_mem _ h)) _ ?_
    change Blank (plotJob plotsDir format b J s).figs
    rw [plotJob_eq]
    dsimp only
    obtain ⟨hJ, hn⟩ := hJs J List.mem_cons_self
    rcases (plot_closed plotsDir format hJ b hb s.figs hs).2.2 with h | ⟨h1, h2⟩
    · exact h
    · exfalso
      refine hn ⟨by rw [← (corr_plot plotsDir format J).1]; exact h1, J.input.str 1, ?_⟩
      rw [(corr_plot plotsDir format J).2] at h2
      obtain ⟨g, h3, h4⟩ := List.mem_map.1 h2
      obtain ⟨-, rfl⟩ := path_unique plotsDir format J.name J.name g (.variance (J.input.str 1)) (printed_saved hJ h3) (hJ.number 0) h4
      exact h3

/-- C142. If `show()` leaves no figure open, nothing was open at first, and no earlier call broke at the figure of a level, every file saved by a call holds exactly what its
name says, however many floats are plotted. -/
theorem session_figures (b : Backend) (hb : b.closes = true) (pre post : List (Job K)) (J : Job K) (hJ : Printing J) (hpre : ∀ J' ∈ pre, Printing J' ∧ ¬ BrokeAtLevel J')
    (hpost : ∀ J' ∈ post, Printing J' ∧ J'.name ≠ J.name) (s : Session (Drawing K)) (hs : s.figs = []) (g : Figure) (hg : g ∈ (diagnostics J.input).1)
    (l : List Picture) (hl : Shows J.input g l) : Holds (plotJobs plotsDir format b (pre ++ J :: post) s) (figureFile plotsDir format J.name g) J l := by
  rw [figureFile_eq, plotJobs_append]
  change Holds (plotJobs plotsDir format b post (plotJob plotsDir format b J _)) _ _ _
  obtain ⟨c, h1, h2⟩ := holds_of_good plotsDir format hJ b (plotJobs plotsDir format b pre s)
    (plot_closed plotsDir format hJ b hb _ (session_blank plotsDir format b hb pre hpre s (.inl hs))).1 hg hl (.inl trivial)
  refine ⟨c, ?_, h2⟩
  rw [others_keep plotsDir format b post (fun J' h => (hpost J' h).1) J.name (fun J' h => (hpost J' h).2) g (printed_saved hJ hg)]
  exact h1

/-- Every figure of a complete run ought to show something. -/
theorem shows_something (I : Input K) (g : Figure) (hg : g ∈ completeFigures I) : ∃ l, Shows I g l ∧ l ≠ [] := by
  simp only [completeFigures, List.mem_append, List.mem_cons, List.not_mem_nil, or_false, List.mem_map, List.mem_range] at hg
  rcases hg with (((((((rfl | rfl) | ⟨t, ht, rfl⟩) | hg) | rfl) | ⟨i, -, rfl⟩) | ⟨t, ht, rfl⟩) | rfl)
  · exact ⟨_, .map, by simp⟩
  · exact ⟨_, .uncalibrated, by simp⟩
  · exact ⟨_, .uncalibratedAnomaly t, by simp⟩
  · split_ifs at hg
    · simp only [List.mem_singleton] at hg
      subst hg
      exact ⟨_, .curve, by simp⟩
    · simp at hg
  · exact ⟨_, .calibrated, by simp⟩
  · exact ⟨_, .level i, by simp⟩
  · exact ⟨_, .calibratedAnomaly t, by simp⟩
  · exact ⟨_, .profile, by simp⟩

/-! ## Figures that are drawn over -/

/-- C143, finding. The map is drawn on whatever figure is the current one: the file holds the map and all that was on this figure. -/
theorem map_on_current (b : Backend) (J : Job K) (hJ : Printing J) (s : Session (Drawing K)) (hg : .trajectory ∈ (diagnostics J.input).1) :
    ∃ c, (plotJob plotsDir format b J s).files (figureFile plotsDir format J.name .trajectory) = some c ∧
      ∀ d : Drawing K, d ∈ c ↔ (∃ f r, s.figs = f :: r ∧ ∃ p ∈ f.panels, d ∈ p.drawn) ∨ d = ⟨J, .map⟩ := by
  rw [figureFile_eq]
  obtain ⟨c, h1, h2⟩ := map_file plotsDir format hJ b s hg
  refine ⟨c, h1, fun d => ?_⟩
  rw [h2]
  cases s.figs with
  | nil => simp [content]
  | cons f r => simp [content]

/-- C143, finding. After a call that broke at the figure of a level, the map of the next float is drawn over this figure, also if `show()` closes figures. -/
theorem map_over_broken (b : Backend) (hb : b.closes = true) (A B : Job K) (hA : Printing A) (hB : Printing B) (hbr : BrokeAtLevel A) (s : Session (Drawing K))
    (hg : .trajectory ∈ (diagnostics B.input).1) :
    ∃ c, (plotJobs plotsDir format b [A, B] s).files (figureFile plotsDir format B.name .trajectory) = some c ∧
      ∀ d : Drawing K, d ∈ c ↔ d = ⟨A, .series 0⟩ ∨ d = ⟨B, .map⟩ := by
  obtain ⟨c, h1, h2⟩ := map_on_current plotsDir format b B hB (plotJob plotsDir format b A s) hg
  refine ⟨c, h1, fun d => ?_⟩
  rw [h2, plotJob_eq]
  dsimp only
  rw [left_open plotsDir format hA b hb s.figs hbr.1 hbr.2]
  simp

/-- C143, finding. If `show()` leaves the figures open, the file of the calibration curve holds the map and the offset, and not the factor of the conductivity. -/
theorem curve_over_map (b : Backend) (hb : b.closes = false) (J : Job K) (hJ : Printing J) (s : Session (Drawing K)) (hs : s.figs = [])
    (hg : .curve ∈ (diagnostics J.input).1) :
    ∃ c, (plotJob plotsDir format b J s).files (figureFile plotsDir format J.name .curve) = some c ∧
      ∀ d : Drawing K, d ∈ c ↔ d.job = J ∧ d.what ∈ [Picture.map, .offset] := by
  rw [figureFile_eq]
  obtain ⟨c, h1, h2⟩ := curve_on_map plotsDir format hJ b hb s hs hg
  refine ⟨c, h1, fun d => ?_⟩
  rw [h2]
  rcases d with ⟨j, w⟩
  simp only [Drawing.mk.injEq, List.mem_cons, List.not_mem_nil, or_false]
  tauto

/-- C143, finding. If `show()` leaves the figures open, the map of a float is drawn over the profiles of the float plotted before. -/
theorem map_over_profiles (b : Backend) (hb : b.closes = false) (A B : Job K) (hB : Printing B) (s : Session (Drawing K)) (hA : (diagnostics A.input).2 = none)
    (hg : .trajectory ∈ (diagnostics B.input).1) :
    ∃ c, (plotJobs plotsDir format b [A, B] s).files (figureFile plotsDir format B.name .trajectory) = some c ∧ (⟨B, .map⟩ : Drawing K) ∈ c ∧
      ∀ w ∈ [Picture.salTheta, .varTheta, .thetaPres, .salPres], (⟨A, w⟩ : Drawing K) ∈ c := by
  rw [figureFile_eq]
  obtain ⟨c, h1, h2⟩ := map_file plotsDir format hB b (plotJob plotsDir format b A s) hg
  refine ⟨c, h1, (h2 _).2 (.inr rfl), fun w hw => (h2 _).2 (.inl ?_)⟩
  obtain ⟨X, hX⟩ := done_profile plotsDir format (J := A) (by rw [(corr_plot plotsDir format A).1]; exact hA)
  rw [plotJob_eq]
  dsimp only
  rw [hX, figsAfter_append]
  exact profile_left plotsDir format b hb A _ w hw

/-! ## Concrete data -/

/-- A call for the float `n` with the data of C138; the bounds are printed as `[0, 5]` and the numbers in strokes. -/
def pyJob (n : List Char) (B : Thetas.Bounds ℚ) (data : List (List (SalVar.Cell ℚ))) : Job ℚ :=
  ⟨n, { diInput B data (List.replicate data.length 1) (List.replicate data.length (some 10)) (List.replicate data.length (some 1)) with
    bounds := ["[0, 5]".toList], str := fun k => List.replicate k '1' }⟩

theorem pyJob_printing (n : List Char) (hn : Plain n) (B : Thetas.Bounds ℚ) (data : List (List (SalVar.Cell ℚ))) : Printing (pyJob n B data) := by
  refine ⟨hn, ?_, ?_, ?_⟩
  · intro t ht c
    obtain rfl : t = "[0, 5]".toList := by simpa [pyJob] using ht
    exact ⟨⟨_, rfl⟩, by decide, by unfold Plain; decide⟩
  · intro i
    refine ⟨⟨'1', List.replicate i '1', rfl, by decide⟩, ?_, ?_⟩
    · simp [pyJob, List.mem_replicate]
    · simp [Plain, pyJob, List.mem_replicate]
  · intro a b h
    simpa [pyJob] using congrArg List.length h

/-- A call that saves all figures, among them the calibration curve. -/
example : (diagnostics (pyJob ['A'] ⟨none, none, none, none⟩ svData).input).2 = none ∧ .curve ∈ (diagnostics (pyJob ['A'] ⟨none, none, none, none⟩ svData).input).1 ∧
    .trajectory ∈ (diagnostics (pyJob ['A'] ⟨none, none, none, none⟩ svData).input).1 := by
  decide +kernel

/-- A call that breaks at the figure of a level, with the limit of C138. -/
example : BrokeAtLevel (pyJob ['B'] ⟨none, none, none, some 50⟩ [svProfile, svProfile, svProfile]) :=
  ⟨by decide +kernel, ['1'], by decide +kernel⟩

/-- The call that saves all figures did not break. -/
example : ¬ BrokeAtLevel (pyJob ['A'] ⟨none, none, none, none⟩ svData) := fun h => h.1 (by decide +kernel)

end Verif.Props
