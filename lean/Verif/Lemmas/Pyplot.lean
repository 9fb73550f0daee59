import Verif.Spec.Pyplot
import Verif.Lemmas.Workflow
import Verif.Props.Diagnostics

/-!
# Lemmas about the figures that `plot_diagnostics` draws on
-/

set_option linter.unusedSectionVars false

namespace Verif.Pyplot

open Verif.Np Verif.Helper Verif.Diagnostics Verif.Workflow Verif.Spec

variable {D : Type}

/-! ## What is written -/

/-- The files that calls write, with their contents, in order. -/
def writes (b : Backend) : List (Cmd D) → List (Fig D) → List (List Char × List D)
  | [], _ => []
  | .save p :: cs, figs => (p, content figs) :: writes b cs (stepFigs b (.save p) figs)
  | .figure n :: cs, figs => writes b cs (stepFigs b (.figure n) figs)
  | .subplot n :: cs, figs => writes b cs (stepFigs b (.subplot n) figs)
  | .draw n :: cs, figs => writes b cs (stepFigs b (.draw n) figs)
  | .show :: cs, figs => writes b cs (stepFigs b .show figs)

/-- The figures open after calls. -/
def figsAfter (b : Backend) (cs : List (Cmd D)) (figs : List (Fig D)) : List (Fig D) := cs.foldl (fun s c => stepFigs b c s) figs

/-- Files after writing. -/
def apply (ws : List (List Char × List D)) (files : List Char → Option (List D)) : List Char → Option (List D) :=
  ws.foldl (fun f w => Function.update f w.1 (some w.2)) files

theorem exec_eq (b : Backend) (cs : List (Cmd D)) (s : Session D) : exec b cs s = ⟨figsAfter b cs s.figs, apply (writes b cs s.figs) s.files⟩ := by
  induction cs generalizing s with
  | nil => rfl
  | cons c cs ih =>
    change exec b cs (stepCmd b s c) = _
    rw [ih]
    cases c <;> rfl

theorem writes_append (b : Backend) (a c : List (Cmd D)) (figs : List (Fig D)) : writes b (a ++ c) figs = writes b a figs ++ writes b c (figsAfter b a figs) := by
  induction a generalizing figs with
  | nil => rfl
  | cons x a ih => cases x <;> simp [writes, ih, figsAfter]

theorem figsAfter_append (b : Backend) (a c : List (Cmd D)) (figs : List (Fig D)) : figsAfter b (a ++ c) figs = figsAfter b c (figsAfter b a figs) := by
  simp [figsAfter]

theorem apply_append (a c : List (List Char × List D)) (f : List Char → Option (List D)) : apply (a ++ c) f = apply c (apply a f) := by
  simp [apply]

theorem apply_not (ws : List (List Char × List D)) (f : List Char → Option (List D)) (p : List Char) (h : p ∉ ws.map Prod.fst) : apply ws f p = f p := by
  induction ws generalizing f with
  | nil => rfl
  | cons w ws ih =>
    simp only [List.map_cons, List.mem_cons, not_or] at h
    change apply ws (Function.update f w.1 (some w.2)) p = _
    rw [ih _ h.2, Function.update_of_ne h.1]

theorem apply_mem (ws : List (List Char × List D)) (f : List Char → Option (List D)) (p : List Char) (h : p ∈ ws.map Prod.fst) :
    ∃ c, (p, c) ∈ ws ∧ apply ws f p = some c := by
  induction ws generalizing f with
  | nil => simp at h
  | cons w ws ih =>
    change ∃ c, _ ∧ apply ws (Function.update f w.1 (some w.2)) p = _
    by_cases hp : p ∈ ws.map Prod.fst
    · obtain ⟨c, h1, h2⟩ := ih (Function.update f w.1 (some w.2)) hp
      exact ⟨c, List.mem_cons_of_mem _ h1, h2⟩
    · rw [apply_not _ _ _ hp]
      rcases List.mem_cons.1 (by simpa using h : p ∈ w.1 :: ws.map Prod.fst) with rfl | h'
      · exact ⟨w.2, List.mem_cons_self, by simp⟩
      · exact absurd h' hp

/-! ## Names -/

theorem figureName_eq (g : Figure) : figureName g = figureSuffix g := by
  cases g with
  | thetaSal t => cases t <;> rfl
  | anomaly t b => cases t <;> rfl
  | _ => rfl

theorem figureFile_eq (plotsDir format name : List Char) (g : Figure) : figureFile plotsDir format name g = figurePath plotsDir format name g := by
  unfold figureFile figurePath sepJoin sepJoin
  rw [figureName_eq]
  simp [List.append_assoc]

theorem path_unique (plotsDir format n n' : List Char) (g g' : Figure) (hg : Printed g) (hg' : Printed g')
    (h : figurePath plotsDir format n g = figurePath plotsDir format n' g') : n = n' ∧ g = g' := by
  unfold figurePath sepJoin sepJoin at h
  have h1 := List.append_cancel_right h
  rw [List.append_assoc, List.append_assoc] at h1
  have h2 := List.append_cancel_left h1
  simp only [List.cons_append, List.cons.injEq, true_and] at h2
  exact suffix_unique n n' g g' hg hg' h2

variable {K : Type} [Field K] [LinearOrder K] [IsStrictOrderedRing K] [FloorRing K]

theorem shows_unique {J : Job K} (hJ : Printing J) {g : Figure} {l l' : List Picture} (h : Shows J.input g l) (h' : Shows J.input g l') : l = l' := by
  generalize hg : g = g' at h'
  cases h with
  | level i =>
    cases h' with
    | level j =>
      have := hJ.injective (Figure.variance.inj hg)
      obtain rfl : i = j := by omega
      rfl
    | _ => simp at hg
  | _ => cases h' <;> simp_all

/-- All figures of a job have printable names. -/
theorem printed_complete {J : Job K} (hJ : Printing J) {g : Figure} (hg : g ∈ completeFigures J.input) : Printed g := by
  simp only [completeFigures, List.mem_append, List.mem_cons, List.not_mem_nil, or_false, List.mem_map, List.mem_range] at hg
  rcases hg with (((((((rfl | rfl) | ⟨t, ht, rfl⟩) | hg) | rfl) | ⟨i, -, rfl⟩) | ⟨t, ht, rfl⟩) | rfl)
  · trivial
  · trivial
  · exact hJ.bounds t ht _
  · split_ifs at hg
    · simp only [List.mem_singleton] at hg
      subst hg
      trivial
    · simp at hg
  · trivial
  · exact hJ.number i
  · exact hJ.bounds t ht _
  · trivial

theorem printed_saved {J : Job K} (hJ : Printing J) {g : Figure} (hg : g ∈ (diagnostics J.input).1) : Printed g :=
  printed_complete hJ ((Verif.Props.figures_in_order J.input).1.subset hg)

/-! ## Panels -/

theorem content_figure (b : Backend) (figs : List (Fig D)) : content (stepFigs b (.figure none) figs) = [] := rfl

theorem ownFigure_writes (plotsDir format : List Char) (b : Backend) (J : Job K) (w : Picture) (g : Figure) (figs : List (Fig (Drawing K))) :
    writes b (ownFigure plotsDir format J w g) figs = [(figurePath plotsDir format J.name g, [⟨J, w⟩])] := by
  simp [ownFigure, writes, stepFigs, onCurrent, drawPanels, content]

theorem ownFigure_figs (plotsDir format : List Char) (b : Backend) (J : Job K) (w : Picture) (g : Figure) (figs : List (Fig (Drawing K))) :
    figsAfter b (ownFigure plotsDir format J w g) figs = if b.closes then [] else ⟨nextNum figs, [⟨wholePage, [⟨J, w⟩]⟩]⟩ :: figs := by
  simp [ownFigure, figsAfter, stepFigs, onCurrent, drawPanels]

theorem writes_paths (b : Backend) (cs : List (Cmd D)) (figs : List (Fig D)) : (writes b cs figs).map Prod.fst = savedPaths cs := by
  induction cs generalizing figs with
  | nil => rfl
  | cons c cs ih => cases c <;> simp [writes, savedPaths, ih]

theorem savedPaths_append (a c : List (Cmd D)) : savedPaths (a ++ c) = savedPaths a ++ savedPaths c := by simp [savedPaths]

/-! ## Figures of the scripts and of `diagnostics` -/

section corr

variable (plotsDir format : List Char)

/-- The script saves the figures, in order, and ends with the same exception. -/
def Corr (J : Job K) (sc : Script K) (sv : Saved) : Prop :=
  sc.2 = sv.2 ∧ savedPaths sc.1 = sv.1.map (figurePath plotsDir format J.name)

theorem corr_thenDo {J : Job K} {a c : Script K} {x y : Saved} (h1 : Corr plotsDir format J a x) (h2 : Corr plotsDir format J c y) :
    Corr plotsDir format J (thenDo a c) (andThen x y) := by
  obtain ⟨a1, a2⟩ := a
  obtain ⟨x1, x2⟩ := x
  obtain ⟨h1, h3⟩ := h1
  obtain ⟨h2, h4⟩ := h2
  simp only at h1 h3
  subst h1
  cases a2 with
  | some e => exact ⟨rfl, h3⟩
  | none => exact ⟨h2, by simp [thenDo, andThen, savedPaths_append, h3, h4]⟩

theorem corr_anomaly (J : Job K) (s : Salinity) (t : Bool) : Corr plotsDir format J (anomalyScript plotsDir format J s t) (anomalyFigures J.input t) := by
  unfold anomalyScript anomalyFigures
  split_ifs
  · exact ⟨rfl, rfl⟩
  · exact ⟨rfl, rfl⟩
  · refine ⟨rfl, ?_⟩
    simp only [savedPaths, List.filterMap_flatMap, List.map_map]
    rw [← List.flatMap_singleton' (List.map _ _), List.flatMap_map]
    rfl

theorem corr_variance (J : Job K) : Corr plotsDir format J (varianceScript plotsDir format J) (varianceFigures J.input) := by
  unfold varianceScript varianceFigures SalVar.salVarPlot
  dsimp only
  cases SalVar.salVarData J.input.rows J.input.levels J.input.limits J.input.percent J.input.data with
  | error e => exact ⟨rfl, rfl⟩
  | ok m =>
    dsimp only
    split_ifs
    · exact ⟨rfl, rfl⟩
    · exact ⟨rfl, rfl⟩
    · refine ⟨rfl, ?_⟩
      simp only [savedPaths, List.filterMap_flatMap, List.map_map]
      rw [← List.flatMap_singleton' (List.map _ _), List.flatMap_map]
      rfl

theorem corr_plot (J : Job K) : Corr plotsDir format J (plotScript plotsDir format J) (diagnostics J.input) := by
  unfold plotScript diagnostics
  have hts : ∀ T s t, Corr plotsDir format J (thetaSalScript plotsDir format J T s t) (saveIf (.thetaSal t) (allBars T J.input.data)) := by
    intro T s t
    unfold thetaSalScript saveIf
    cases allBars T J.input.data with
    | error e => exact ⟨rfl, rfl⟩
    | ok x => exact ⟨rfl, rfl⟩
  have hcu : Corr plotsDir format J (curveScript plotsDir format J) (curveFigures J.input) := by
    unfold curveScript curveFigures
    split_ifs
    · exact ⟨rfl, rfl⟩
    · exact ⟨rfl, rfl⟩
  refine corr_thenDo plotsDir format ?_ ?_
  · unfold mapScript saveIf
    cases mapOf J.input.selected J.input.no J.input.lat J.input.long with
    | error e => exact ⟨rfl, rfl⟩
    | ok x => exact ⟨rfl, rfl⟩
  · cases Thetas.find10thetas J.input.limits J.input.percent (J.input.data.map fun prof => prof.map SalVar.Cell.toLevel) with
    | error e => exact ⟨rfl, rfl⟩
    | ok T =>
      exact corr_thenDo _ _ (hts T _ _) (corr_thenDo _ _ (corr_anomaly _ _ _ _ _) (corr_thenDo _ _ hcu (corr_thenDo _ _ (hts T _ _) (corr_thenDo _ _ (corr_variance _ _ _)
        (corr_thenDo _ _ (corr_anomaly _ _ _ _ _) ⟨rfl, rfl⟩)))))

/-! ## What the figures hold -/

/-- The writes are those of figures of the job; they hold what the figure ought to show (`all`), or do so if the figure is a separate one. -/
def Good (J : Job K) (all : Prop) (ws : List (List Char × List (Drawing K))) : Prop :=
  ∀ x ∈ ws, ∃ g l, Shows J.input g l ∧ Printed g ∧ x.1 = figurePath plotsDir format J.name g ∧
    (all ∨ Separate g → ∀ d : Drawing K, d ∈ x.2 ↔ d.job = J ∧ d.what ∈ l)

theorem good_append {J : Job K} {all : Prop} {a c : List (List Char × List (Drawing K))} (h : Good plotsDir format J all a) (h' : Good plotsDir format J all c) :
    Good plotsDir format J all (a ++ c) := by
  intro x hx
  rcases List.mem_append.1 hx with hx | hx
  exacts [h x hx, h' x hx]

theorem good_nil {J : Job K} {all : Prop} : Good plotsDir format J all [] := by
  intro x hx
  simp at hx

/-- No open figure, or one without anything on it. -/
def Blank (figs : List (Fig (Drawing K))) : Prop := figs = [] ∨ figs = [⟨1, [⟨wholePage, []⟩]⟩]

/-- What holds of a part of the script: separate figures are right in any state; all figures are if nothing is open and `show()` closes figures, and then nothing is left
open unless the part ends with an exception; then what is left open is blank, unless the figure of a level was saved. -/
structure Part (J : Job K) (sc : Script K) : Prop where
  always : ∀ b figs, Good plotsDir format J False (writes b sc.1 figs)
  closed : ∀ b : Backend, b.closes = true → Good plotsDir format J True (writes b sc.1 [])
  done : ∀ b : Backend, b.closes = true → sc.2 = none → figsAfter b sc.1 [] = []
  left : ∀ b : Backend, b.closes = true → Blank (figsAfter b sc.1 []) ∨
    (sc.2 ≠ none ∧ figurePath plotsDir format J.name (.variance (J.input.str 1)) ∈ savedPaths sc.1)

theorem part_thenDo {J : Job K} {a c : Script K} (h1 : Part plotsDir format J a) (h2 : Part plotsDir format J c) : Part plotsDir format J (thenDo a c) := by
  obtain ⟨a1, a2⟩ := a
  cases a2 with
  | some e => exact h1
  | none =>
    unfold thenDo
    refine ⟨fun b figs => ?_, fun b hb => ?_, fun b hb hn => ?_, fun b hb => ?_⟩
    · dsimp only
      rw [writes_append]
      exact good_append _ _ (h1.always b figs) (h2.always b _)
    · dsimp only
      rw [writes_append, h1.done b hb rfl]
      exact good_append _ _ (h1.closed b hb) (h2.closed b hb)
    · dsimp only
      rw [figsAfter_append, h1.done b hb rfl]
      exact h2.done b hb hn
    · dsimp only
      rw [figsAfter_append, h1.done b hb rfl]
      rcases h2.left b hb with h | ⟨h, h'⟩
      · exact .inl h
      · exact .inr ⟨h, by rw [savedPaths_append]; exact List.mem_append_right _ h'⟩

theorem part_nil (J : Job K) (e : Option PyErr) : Part plotsDir format J ([], e) :=
  ⟨fun _ _ => good_nil _ _, fun _ _ => good_nil _ _, fun _ _ _ => rfl, fun _ _ => .inl (.inl rfl)⟩

theorem good_own {J : Job K} {all : Prop} {g : Figure} {w : Picture} (hs : Shows J.input g [w]) (hp : Printed g) :
    Good plotsDir format J all [(figurePath plotsDir format J.name g, [⟨J, w⟩])] := by
  intro x hx
  rw [List.mem_singleton] at hx
  subst hx
  refine ⟨g, [w], hs, hp, rfl, fun _ d => ?_⟩
  rcases d with ⟨j, v⟩
  simp

theorem part_own {J : Job K} {g : Figure} {w : Picture} (hs : Shows J.input g [w]) (hp : Printed g) : Part plotsDir format J (ownFigure plotsDir format J w g, none) := by
  refine ⟨fun b figs => ?_, fun b hb => ?_, fun b hb _ => ?_, fun b hb => ?_⟩
  · rw [ownFigure_writes]
    exact good_own _ _ hs hp
  · rw [ownFigure_writes]
    exact good_own _ _ hs hp
  · rw [ownFigure_figs, if_pos hb]
  · rw [ownFigure_figs, if_pos hb]
    exact .inl (.inl rfl)

theorem part_owns {J : Job K} {ι : Type} (l : List ι) (g : ι → Figure) (w : ι → Picture) (hs : ∀ i ∈ l, Shows J.input (g i) [w i] ∧ Printed (g i)) :
    Part plotsDir format J (l.flatMap fun i => ownFigure plotsDir format J (w i) (g i), none) := by
  induction l with
  | nil => exact part_nil _ _ _ _
  | cons i l ih =>
    exact part_thenDo (a := (ownFigure plotsDir format J (w i) (g i), none)) (c := (l.flatMap fun i => ownFigure plotsDir format J (w i) (g i), none)) _ _
      (part_own _ _ (hs i List.mem_cons_self).1 (hs i List.mem_cons_self).2) (ih fun j hj => hs j (List.mem_cons_of_mem _ hj))

theorem part_anomaly {J : Job K} (hJ : Printing J) (s : Salinity) (t : Bool) (hs : ∀ x, Shows J.input (.anomaly t x) [.anomaly s x]) :
    Part plotsDir format J (anomalyScript plotsDir format J s t) := by
  unfold anomalyScript
  split_ifs
  · exact part_nil _ _ _ _
  · refine ⟨fun b figs => good_nil _ _, fun b hb => good_nil _ _, fun b hb hn => by simp at hn, fun b hb => .inl (.inr ?_)⟩
    simp [figsAfter, stepFigs, nextNum, onCurrent, subplotPanels]
  · exact part_owns _ _ _ (fun x => .anomaly t x) (fun x => .anomaly s x) fun x hx => ⟨hs x, hJ.bounds x hx t⟩

theorem part_variance {J : Job K} (hJ : Printing J) : Part plotsDir format J (varianceScript plotsDir format J) := by
  unfold varianceScript
  dsimp only
  cases SalVar.salVarData J.input.rows J.input.levels J.input.limits J.input.percent J.input.data with
  | error e => exact part_nil _ _ _ _
  | ok m =>
    dsimp only
    split_ifs
    · exact part_nil _ _ _ _
    · have hw : ∀ (b : Backend) (figs : List (Fig (Drawing K))), writes b [.figure none, .draw ⟨J, .series 0⟩,
          .save (figurePath plotsDir format J.name (.variance (J.input.str 1)))] figs =
          [(figurePath plotsDir format J.name (.variance (J.input.str 1)), [⟨J, .series 0⟩])] := by
        intro b figs
        simp [writes, stepFigs, onCurrent, drawPanels, content]
      refine ⟨fun b figs => ?_, fun b hb => ?_, fun b hb hn => by simp at hn, fun b hb => .inr ⟨by simp, by simp [savedPaths]⟩⟩
      · rw [hw]
        exact good_own _ _ (.level 0) (hJ.number 0)
      · rw [hw]
        exact good_own _ _ (.level 0) (hJ.number 0)
    · exact part_owns _ _ _ (fun i => .variance (J.input.str (i + 1))) (fun i => .series i) fun i _ => ⟨.level i, hJ.number i⟩

theorem part_curve (J : Job K) : Part plotsDir format J (curveScript plotsDir format J) := by
  unfold curveScript
  split_ifs
  · refine ⟨fun b figs => ?_, fun b hb => ?_, fun b hb _ => by simp [figsAfter, stepFigs, hb], fun b hb => .inl (.inl (by simp [figsAfter, stepFigs, hb]))⟩
    · intro x hx
      refine ⟨.curve, _, .curve, trivial, ?_, fun h => absurd h (by simp [Separate])⟩
      have := List.mem_map_of_mem (f := Prod.fst) hx
      rw [writes_paths] at this
      simpa [savedPaths] using this
    · have hw : ∃ l, writes b [.figure none, .subplot [0, 1], .draw ⟨J, .factor⟩, .subplot [2, 3], .figure (some 1), .draw ⟨J, .offset⟩,
          .save (figurePath plotsDir format J.name .curve), .show] [] = [(figurePath plotsDir format J.name .curve, l)] ∧
          ∀ d : Drawing K, d ∈ l ↔ d.job = J ∧ d.what ∈ [Picture.factor, .offset] := by
        obtain ⟨cl, rm⟩ := b
        refine ⟨_, rfl, fun d => ?_⟩
        rcases d with ⟨j, v⟩
        cases rm <;> simp [stepFigs, nextNum, onCurrent, subplotPanels, drawPanels, select, content] <;> tauto
      obtain ⟨l, h1, h2⟩ := hw
      dsimp only
      rw [h1]
      intro x hx
      rw [List.mem_singleton] at hx
      subst hx
      exact ⟨.curve, _, .curve, trivial, rfl, fun _ => h2⟩
  · exact part_nil _ _ _ _

theorem part_profile (J : Job K) : Part plotsDir format J (profileScript plotsDir format J) := by
  unfold profileScript
  refine ⟨fun b figs => ?_, fun b hb => ?_, fun b hb _ => by simp [figsAfter, stepFigs, hb], fun b hb => .inl (.inl (by simp [figsAfter, stepFigs, hb]))⟩
  · intro x hx
    refine ⟨.profile, _, .profile, trivial, ?_, fun h => absurd h (by simp [Separate])⟩
    have := List.mem_map_of_mem (f := Prod.fst) hx
    rw [writes_paths] at this
    simpa [savedPaths] using this
  · have hw : ∃ l, writes b [.figure (some 1), .subplot [1], .draw ⟨J, .salTheta⟩, .subplot [0], .draw ⟨J, .varTheta⟩, .subplot [2], .draw ⟨J, .thetaPres⟩,
        .subplot [3], .draw ⟨J, .salPres⟩, .save (figurePath plotsDir format J.name .profile), .show] [] = [(figurePath plotsDir format J.name .profile, l)] ∧
        ∀ d : Drawing K, d ∈ l ↔ d.job = J ∧ d.what ∈ [Picture.salTheta, .varTheta, .thetaPres, .salPres] := by
      obtain ⟨cl, rm⟩ := b
      refine ⟨_, rfl, fun d => ?_⟩
      rcases d with ⟨j, v⟩
      cases rm <;> simp [stepFigs, onCurrent, subplotPanels, drawPanels, select, content] <;> tauto
    obtain ⟨l, h1, h2⟩ := hw
    dsimp only
    rw [h1]
    intro x hx
    rw [List.mem_singleton] at hx
    subst hx
    exact ⟨.profile, _, .profile, trivial, rfl, fun _ => h2⟩

/-- All after the map. -/
def restScript (J : Job K) : Script K :=
  match Thetas.find10thetas J.input.limits J.input.percent (J.input.data.map fun prof => prof.map SalVar.Cell.toLevel) with
  | .error e => ([], some e)
  | .ok T =>
    thenDo (thetaSalScript plotsDir format J T .measured false) <|
    thenDo (anomalyScript plotsDir format J .measured false) <|
    thenDo (curveScript plotsDir format J) <|
    thenDo (thetaSalScript plotsDir format J T .calibrated true) <|
    thenDo (varianceScript plotsDir format J) <|
    thenDo (anomalyScript plotsDir format J .calibrated true) (profileScript plotsDir format J)

theorem plotScript_eq (J : Job K) : plotScript plotsDir format J = thenDo (mapScript plotsDir format J) (restScript plotsDir format J) := rfl

theorem thetaSal_ok {J : Job K} {T : Thetas.Thetas K}
    (hT : Thetas.find10thetas J.input.limits J.input.percent (J.input.data.map fun prof => prof.map SalVar.Cell.toLevel) = .ok T) (s : Salinity) (t : Bool) :
    thetaSalScript plotsDir format J T s t = (ownFigure plotsDir format J (.curves s) (.thetaSal t), none) := by
  obtain ⟨D, hD, -⟩ := Verif.Props.error_bars J.input.limits J.input.percent J.input.data T hT
  unfold thetaSalScript
  rw [hD]

theorem part_rest {J : Job K} (hJ : Printing J) : Part plotsDir format J (restScript plotsDir format J) := by
  unfold restScript
  cases hT : Thetas.find10thetas J.input.limits J.input.percent (J.input.data.map fun prof => prof.map SalVar.Cell.toLevel) with
  | error e => exact part_nil _ _ _ _
  | ok T =>
    dsimp only
    rw [thetaSal_ok _ _ hT, thetaSal_ok _ _ hT]
    exact part_thenDo _ _ (part_own _ _ .uncalibrated trivial) (part_thenDo _ _ (part_anomaly _ _ hJ _ _ .uncalibratedAnomaly)
      (part_thenDo _ _ (part_curve _ _ _) (part_thenDo _ _ (part_own _ _ .calibrated trivial) (part_thenDo _ _ (part_variance _ _ hJ)
        (part_thenDo _ _ (part_anomaly _ _ hJ _ _ .calibratedAnomaly) (part_profile _ _ _))))))

/-- The map, on whatever is open. -/
theorem map_writes (b : Backend) (J : Job K) (M : Map K) (hM : mapOf J.input.selected J.input.no J.input.lat J.input.long = .ok M) (figs : List (Fig (Drawing K))) :
    ∃ l, writes b (mapScript plotsDir format J).1 figs = [(figurePath plotsDir format J.name .trajectory, l)] ∧
      ∀ d : Drawing K, d ∈ l ↔ d ∈ content figs ∨ d = ⟨J, .map⟩ := by
  unfold mapScript
  rw [hM]
  refine ⟨_, rfl, fun d => ?_⟩
  cases figs with
  | nil => simp [stepFigs, onCurrent, drawPanels, content]
  | cons f r =>
    obtain ⟨n, ps⟩ := f
    cases ps with
    | nil => simp [stepFigs, onCurrent, drawPanels, content]
    | cons p ps =>
      simp only [stepFigs, onCurrent, drawPanels, content, List.flatMap_cons, List.mem_append, List.mem_singleton]
      tauto

theorem map_figs (b : Backend) (hb : b.closes = true) (J : Job K) (hn : (mapScript plotsDir format J).2 = none) (figs : List (Fig (Drawing K))) :
    figsAfter b (mapScript plotsDir format J).1 figs = [] := by
  unfold mapScript at hn ⊢
  cases hM : mapOf J.input.selected J.input.no J.input.lat J.input.long with
  | error e => rw [hM] at hn; simp at hn
  | ok M => simp [figsAfter, stepFigs, hb]

theorem blank_content {figs : List (Fig (Drawing K))} (h : Blank figs) : content figs = [] := by
  rcases h with rfl | rfl <;> rfl

/-- A whole call: separate figures are right in any state. -/
theorem plot_always {J : Job K} (hJ : Printing J) (b : Backend) (figs : List (Fig (Drawing K))) :
    Good plotsDir format J False (writes b (plotScript plotsDir format J).1 figs) := by
  rw [plotScript_eq]
  have hm : Good plotsDir format J False (writes b (mapScript plotsDir format J).1 figs) := by
    cases hM : mapOf J.input.selected J.input.no J.input.lat J.input.long with
    | error e => simpa [mapScript, hM, writes] using good_nil plotsDir format
    | ok M =>
      obtain ⟨l, hl, -⟩ := map_writes plotsDir format b J M hM figs
      rw [hl]
      intro x hx
      rw [List.mem_singleton] at hx
      subst hx
      exact ⟨.trajectory, _, .map, trivial, rfl, fun h => absurd h (by simp [Separate])⟩
  unfold thenDo
  cases h2 : (mapScript plotsDir format J).2 with
  | some e => exact hm
  | none =>
    dsimp only
    rw [writes_append]
    exact good_append _ _ hm ((part_rest _ _ hJ).always b _)

/-- A whole call with nothing drawn before, if `show()` closes the figures. -/
theorem plot_closed {J : Job K} (hJ : Printing J) (b : Backend) (hb : b.closes = true) (figs : List (Fig (Drawing K))) (hf : Blank figs) :
    Good plotsDir format J True (writes b (plotScript plotsDir format J).1 figs) ∧
    ((plotScript plotsDir format J).2 = none → figsAfter b (plotScript plotsDir format J).1 figs = []) ∧
    (Blank (figsAfter b (plotScript plotsDir format J).1 figs) ∨ ((plotScript plotsDir format J).2 ≠ none ∧
      figurePath plotsDir format J.name (.variance (J.input.str 1)) ∈ savedPaths (plotScript plotsDir format J).1)) := by
  rw [plotScript_eq]
  cases hM : mapOf J.input.selected J.input.no J.input.lat J.input.long with
  | error e =>
    have : thenDo (mapScript plotsDir format J) (restScript plotsDir format J) = ([], some e) := by simp [mapScript, hM, thenDo]
    rw [this]
    exact ⟨good_nil _ _, fun h => by simp at h, .inl hf⟩
  | ok M =>
    have hn : (mapScript plotsDir format J).2 = none := by simp [mapScript, hM]
    have h1 : thenDo (mapScript plotsDir format J) (restScript plotsDir format J) =
        ((mapScript plotsDir format J).1 ++ (restScript plotsDir format J).1, (restScript plotsDir format J).2) := by
      unfold thenDo
      rw [hn]
    rw [h1]
    dsimp only
    rw [writes_append, figsAfter_append, map_figs _ _ b hb J hn]
    have hr := part_rest plotsDir format hJ
    refine ⟨good_append _ _ ?_ (hr.closed b hb), hr.done b hb, ?_⟩
    · obtain ⟨l, hl, hl'⟩ := map_writes plotsDir format b J M hM figs
      rw [hl]
      intro x hx
      rw [List.mem_singleton] at hx
      subst hx
      refine ⟨.trajectory, _, .map, trivial, rfl, fun _ d => ?_⟩
      rw [hl', blank_content hf]
      rcases d with ⟨j, v⟩
      simp
    · rcases hr.left b hb with h | ⟨h, h'⟩
      · exact .inl h
      · exact .inr ⟨h, by rw [savedPaths_append]; exact List.mem_append_right _ h'⟩

/-! ## Calls one after another -/

theorem plotJobs_append (b : Backend) (l l' : List (Job K)) (s : Session (Drawing K)) :
    plotJobs plotsDir format b (l ++ l') s = plotJobs plotsDir format b l' (plotJobs plotsDir format b l s) := by
  simp [plotJobs]

theorem plotJob_eq (b : Backend) (J : Job K) (s : Session (Drawing K)) : plotJob plotsDir format b J s =
    ⟨figsAfter b (plotScript plotsDir format J).1 s.figs, apply (writes b (plotScript plotsDir format J).1 s.figs) s.files⟩ := exec_eq _ _ _

theorem plot_paths (b : Backend) (J : Job K) (figs : List (Fig (Drawing K))) : (writes b (plotScript plotsDir format J).1 figs).map Prod.fst =
    (diagnostics J.input).1.map (figurePath plotsDir format J.name) := by
  rw [writes_paths, (corr_plot plotsDir format J).2]

/-- Calls for other floats do not touch a file. -/
theorem others_keep (b : Backend) (Js : List (Job K)) (hJs : ∀ J ∈ Js, Printing J) (n : List Char) (hn : ∀ J ∈ Js, J.name ≠ n) (g : Figure) (hg : Printed g)
    (s : Session (Drawing K)) : (plotJobs plotsDir format b Js s).files (figurePath plotsDir format n g) = s.files (figurePath plotsDir format n g) := by
  induction Js generalizing s with
  | nil => rfl
  | cons J Js ih =>
    change (plotJobs plotsDir format b Js (plotJob plotsDir format b J s)).files _ = _
    rw [ih (fun J' h => hJs J' (List.mem_cons_of_mem _ h)) (fun J' h => hn J' (List.mem_cons_of_mem _ h)), plotJob_eq]
    dsimp only
    rw [apply_not]
    rw [plot_paths]
    intro h
    obtain ⟨g', h1, h2⟩ := List.mem_map.1 h
    exact hn J List.mem_cons_self (path_unique _ _ _ _ _ _ (printed_saved (hJs J List.mem_cons_self) h1) hg h2).1

/-- A file after a call, from the writes. -/
theorem holds_of_good {J : Job K} (hJ : Printing J) {all : Prop} (b : Backend) (s : Session (Drawing K)) (hG : Good plotsDir format J all (writes b (plotScript plotsDir format J).1 s.figs))
    {g : Figure} (hg : g ∈ (diagnostics J.input).1) {l : List Picture} (hl : Shows J.input g l) (ha : all ∨ Separate g) :
    Holds (plotJob plotsDir format b J s) (figurePath plotsDir format J.name g) J l := by
  obtain ⟨c, h1, h2⟩ := apply_mem (writes b (plotScript plotsDir format J).1 s.figs) s.files (figurePath plotsDir format J.name g) (by
    rw [plot_paths]
    exact List.mem_map_of_mem hg)
  obtain ⟨g', l', k1, k2, k3, k4⟩ := hG _ h1
  obtain ⟨-, rfl⟩ := path_unique _ _ _ _ _ _ (printed_saved hJ hg) k2 k3
  obtain rfl := shows_unique hJ hl k1
  refine ⟨c, ?_, k4 ha⟩
  rw [plotJob_eq]
  exact h2

/-- The map file after a call: what the current figure held, and the map. -/
theorem map_file {J : Job K} (hJ : Printing J) (b : Backend) (s : Session (Drawing K)) (hg : .trajectory ∈ (diagnostics J.input).1) :
    ∃ c, (plotJob plotsDir format b J s).files (figurePath plotsDir format J.name .trajectory) = some c ∧
      ∀ d : Drawing K, d ∈ c ↔ d ∈ content s.figs ∨ d = ⟨J, .map⟩ := by
  obtain ⟨c, h1, h2⟩ := apply_mem (writes b (plotScript plotsDir format J).1 s.figs) s.files (figurePath plotsDir format J.name .trajectory) (by
    rw [plot_paths]
    exact List.mem_map_of_mem hg)
  refine ⟨c, by rw [plotJob_eq]; exact h2, ?_⟩
  rcases Verif.Props.diagnostics_cases J.input with ⟨e, -, h⟩ | ⟨M, hM, -⟩
  · rw [h] at hg; simp at hg
  · obtain ⟨l, hl, hl'⟩ := map_writes plotsDir format b J M hM s.figs
    have hn : (mapScript plotsDir format J).2 = none := by simp [mapScript, hM]
    have h3 : writes b (plotScript plotsDir format J).1 s.figs = (figurePath plotsDir format J.name .trajectory, l) ::
        writes b (restScript plotsDir format J).1 (figsAfter b (mapScript plotsDir format J).1 s.figs) := by
      rw [plotScript_eq]
      unfold thenDo
      rw [hn]
      dsimp only
      rw [writes_append, hl]
      rfl
    rw [h3] at h1
    rcases List.mem_cons.1 h1 with h4 | h4
    · obtain rfl := (Prod.mk.inj h4).2
      exact hl'
    · obtain ⟨g', l', k1, k2, k3, -⟩ := (part_rest plotsDir format hJ).always b _ _ h4
      obtain ⟨-, rfl⟩ := path_unique plotsDir format J.name J.name .trajectory g' trivial k2 k3
      -- the map is saved only once
      exfalso
      have hc := (corr_plot plotsDir format J).2
      have hc' : savedPaths (plotScript plotsDir format J).1 = figurePath plotsDir format J.name .trajectory :: savedPaths (restScript plotsDir format J).1 := by
        rw [← writes_paths b _ s.figs, h3, List.map_cons, writes_paths]
      rw [hc'] at hc
      obtain ⟨t, ht⟩ := (Verif.Props.figures_in_order J.input).1
      cases hd : (diagnostics J.input).1 with
      | nil => rw [hd] at hg; simp at hg
      | cons g0 gs =>
        rw [hd, List.map_cons] at hc
        obtain ⟨-, hc2⟩ := List.cons.inj hc
        have h5 := List.mem_map_of_mem (f := Prod.fst) h4
        rw [writes_paths, hc2] at h5
        obtain ⟨g1, h6, h7⟩ := List.mem_map.1 h5
        have h8 : g1 ∈ (diagnostics J.input).1 := by rw [hd]; exact List.mem_cons_of_mem _ h6
        obtain ⟨-, rfl⟩ := path_unique plotsDir format J.name J.name g1 .trajectory (printed_saved hJ h8) trivial h7
        rw [hd] at ht
        unfold completeFigures at ht
        simp only [List.cons_append, List.nil_append, List.append_assoc, List.cons.injEq] at ht
        have h9 : Figure.trajectory ∈ gs ++ t := List.mem_append_left _ h6
        rw [ht.2] at h9
        split_ifs at h9 <;> simp at h9

/-! ## Figures that stay open -/

theorem nextNum_gt (figs : List (Fig D)) (f : Fig D) (hf : f ∈ figs) : f.num < nextNum figs := by
  unfold nextNum
  induction figs with
  | nil => simp at hf
  | cons g figs ih =>
    rcases List.mem_cons.1 hf with rfl | h
    · simp only [List.map_cons, List.foldr_cons]
      omega
    · have := ih h
      simp only [List.map_cons, List.foldr_cons]
      omega

/-- Figure 1 is open and is `f`. -/
def Figure1 (figs : List (Fig D)) (f : Fig D) : Prop := (figs.find? fun f => decide (f.num = 1)) = some f

theorem figure1_next {figs : List (Fig D)} {f : Fig D} (h : Figure1 figs f) : nextNum figs ≠ 1 := by
  have h1 := List.mem_of_find?_eq_some h
  have h2 := List.find?_some h
  have := nextNum_gt figs f h1
  simp only [decide_eq_true_eq] at h2
  omega

theorem figure1_cons {figs : List (Fig D)} {f : Fig D} (h : Figure1 figs f) (ps : List (Panel D)) : Figure1 (⟨nextNum figs, ps⟩ :: figs) f := by
  unfold Figure1
  rw [List.find?_cons_of_neg (by simpa using figure1_next h)]
  exact h

theorem figure1_own (b : Backend) (hb : b.closes = false) (J : Job K) (w : Picture) (g : Figure) {figs : List (Fig (Drawing K))} {f : Fig (Drawing K)} (h : Figure1 figs f) :
    Figure1 (figsAfter b (ownFigure plotsDir format J w g) figs) f := by
  rw [ownFigure_figs, if_neg (by simp [hb])]
  exact figure1_cons h _

theorem figure1_owns (b : Backend) (hb : b.closes = false) (J : Job K) {ι : Type} (l : List ι) (w : ι → Picture) (g : ι → Figure) {figs : List (Fig (Drawing K))}
    {f : Fig (Drawing K)} (h : Figure1 figs f) : Figure1 (figsAfter b (l.flatMap fun i => ownFigure plotsDir format J (w i) (g i)) figs) f := by
  induction l generalizing figs with
  | nil => exact h
  | cons i l ih =>
    rw [List.flatMap_cons, figsAfter_append]
    exact ih (figure1_own _ _ b hb J _ _ h)

/-- The calls of `cal_sal_curve_plot`. -/
def curveCmds (J : Job K) : List (Cmd (Drawing K)) :=
  [.figure none, .subplot [0, 1], .draw ⟨J, .factor⟩, .subplot [2, 3], .figure (some 1), .draw ⟨J, .offset⟩, .save (figurePath plotsDir format J.name .curve), .show]

theorem curve_writes_open (b : Backend) (J : Job K) {figs : List (Fig (Drawing K))} {f : Fig (Drawing K)} (h : Figure1 figs f) :
    ∃ l, writes b (curveCmds plotsDir format J) figs = [(figurePath plotsDir format J.name .curve, l)] ∧
      ∀ d : Drawing K, d ∈ l ↔ (∃ p ∈ f.panels, d ∈ p.drawn) ∨ d = ⟨J, .offset⟩ := by
  have hs : ∀ ps, select 1 (⟨nextNum figs, ps⟩ :: figs) = f :: ((⟨nextNum figs, ps⟩ :: figs).filter fun f => decide (f.num ≠ 1)) := by
    intro ps
    have := figure1_cons h ps
    unfold Figure1 at this
    unfold select
    rw [this]
  refine ⟨_, rfl, fun d => ?_⟩
  simp only [stepFigs, onCurrent, hs, content]
  obtain ⟨n, ps⟩ := f
  cases ps with
  | nil => simp [drawPanels]
  | cons p ps =>
    simp only [drawPanels, List.flatMap_cons, List.mem_append, List.mem_flatMap, List.mem_cons, List.not_mem_nil, or_false, exists_eq_or_imp]
    exact or_right_comm

theorem path_curve_not (J : Job K) (sc : Script K) (sv : Saved) (h : Corr plotsDir format J sc sv) (hp : ∀ g ∈ sv.1, Printed g) (hc : .curve ∉ sv.1) :
    figurePath plotsDir format J.name .curve ∉ savedPaths sc.1 := by
  rw [h.2]
  intro hm
  obtain ⟨g, h1, h2⟩ := List.mem_map.1 hm
  obtain ⟨-, rfl⟩ := path_unique plotsDir format J.name J.name g .curve (hp g h1) trivial h2
  exact hc h1

theorem thenDo_none {a c : Script K} (h : a.2 = none) : thenDo a c = (a.1 ++ c.1, c.2) := by
  unfold thenDo
  rw [h]

theorem thenDo_some {a c : Script K} {e : PyErr} (h : a.2 = some e) : thenDo a c = a := by
  obtain ⟨a1, a2⟩ := a
  simp only at h
  subst h
  rfl

theorem thenDo_done {a c : Script K} (h : (thenDo a c).2 = none) : a.2 = none ∧ c.2 = none ∧ (thenDo a c).1 = a.1 ++ c.1 := by
  cases ha : a.2 with
  | some e =>
    rw [thenDo_some ha, ha] at h
    simp at h
  | none =>
    rw [thenDo_none ha] at h ⊢
    exact ⟨rfl, h, rfl⟩

/-- A call without an exception ends with `t_s_profile_plot`. -/
theorem done_profile {J : Job K} (h : (plotScript plotsDir format J).2 = none) : ∃ X, (plotScript plotsDir format J).1 = X ++ (profileScript plotsDir format J).1 := by
  rw [plotScript_eq] at h ⊢
  obtain ⟨-, h1, e1⟩ := thenDo_done h
  rw [e1]
  unfold restScript at h1 ⊢
  cases hT : Thetas.find10thetas J.input.limits J.input.percent (J.input.data.map fun prof => prof.map SalVar.Cell.toLevel) with
  | error e => rw [hT] at h1; simp at h1
  | ok T =>
    rw [hT] at h1
    obtain ⟨-, h2, e2⟩ := thenDo_done h1
    obtain ⟨-, h3, e3⟩ := thenDo_done h2
    obtain ⟨-, h4, e4⟩ := thenDo_done h3
    obtain ⟨-, h5, e5⟩ := thenDo_done h4
    obtain ⟨-, h6, e6⟩ := thenDo_done h5
    obtain ⟨-, h7, e7⟩ := thenDo_done h6
    dsimp only
    rw [e2, e3, e4, e5, e6, e7]
    simp only [← List.append_assoc]
    exact ⟨_, rfl⟩

/-- A panel at this place of the current figure holds the drawing. -/
def Has (figs : List (Fig D)) (cells : List ℕ) (d : D) : Prop := ∃ f r, figs = f :: r ∧ ∃ p ∈ f.panels, p.cells = cells ∧ d ∈ p.drawn

theorem has_content {figs : List (Fig D)} {cells : List ℕ} {d : D} (h : Has figs cells d) : d ∈ content figs := by
  obtain ⟨f, r, rfl, p, h1, -, h2⟩ := h
  exact List.mem_flatMap.2 ⟨p, h1, h2⟩

theorem has_draw {b : Backend} {figs : List (Fig D)} {cells : List ℕ} {d : D} (h : Has figs cells d) (d' : D) : Has (stepFigs b (.draw d') figs) cells d := by
  obtain ⟨f, r, rfl, p, h1, h2, h3⟩ := h
  obtain ⟨n, ps⟩ := f
  cases ps with
  | nil => simp at h1
  | cons q ps =>
    refine ⟨_, _, rfl, ?_⟩
    rcases List.mem_cons.1 h1 with rfl | h1
    · exact ⟨_, List.mem_cons_self, h2, by simp [h3]⟩
    · exact ⟨p, List.mem_cons_of_mem _ h1, h2, h3⟩

theorem has_subplot {b : Backend} {figs : List (Fig D)} {cells cells' : List ℕ} {d : D} (h : Has figs cells d) (hd : ∀ c ∈ cells, c ∉ cells') (hne : cells ≠ cells') :
    Has (stepFigs b (.subplot cells') figs) cells d := by
  obtain ⟨f, r, rfl, p, h1, h2, h3⟩ := h
  refine ⟨_, _, rfl, p, ?_, h2, h3⟩
  unfold subplotPanels
  cases hq : f.panels.find? fun p => decide (p.cells = cells') with
  | some q =>
    refine List.mem_cons_of_mem _ (List.mem_filter.2 ⟨h1, ?_⟩)
    simpa [h2] using hne
  | none =>
    refine List.mem_cons_of_mem _ ?_
    split_ifs
    · refine List.mem_filter.2 ⟨h1, ?_⟩
      rw [h2, List.all_eq_true]
      intro c hc
      simpa using hd c hc
    · exact h1

theorem has_new (b : Backend) (figs : List (Fig D)) (cells : List ℕ) (d : D) : Has (stepFigs b (.draw d) (stepFigs b (.subplot cells) figs)) cells d := by
  have key : ∀ ps : List (Panel D), ∃ p r, subplotPanels b.removes cells ps = p :: r ∧ p.cells = cells := by
    intro ps
    unfold subplotPanels
    cases hq : ps.find? fun p => decide (p.cells = cells) with
    | some q => exact ⟨_, _, rfl, by simpa using List.find?_some hq⟩
    | none => exact ⟨_, _, rfl, rfl⟩
  cases figs with
  | nil =>
    obtain ⟨p, r, h1, h2⟩ := key []
    refine ⟨_, _, rfl, ⟨p.cells, p.drawn ++ [d]⟩, ?_, h2, by simp⟩
    simp [h1, drawPanels]
  | cons f fs =>
    obtain ⟨p, r, h1, h2⟩ := key f.panels
    refine ⟨_, _, rfl, ⟨p.cells, p.drawn ++ [d]⟩, ?_, h2, by simp⟩
    simp [h1, drawPanels]

/-- After `t_s_profile_plot` its four panels are on the current figure, if `show()` leaves it open. -/
theorem profile_left (b : Backend) (hb : b.closes = false) (J : Job K) (figs : List (Fig (Drawing K))) :
    ∀ w ∈ [Picture.salTheta, .varTheta, .thetaPres, .salPres], (⟨J, w⟩ : Drawing K) ∈ content (figsAfter b (profileScript plotsDir format J).1 figs) := by
  have hsv : ∀ figs' : List (Fig (Drawing K)), ∀ c d p, Has figs' c d → Has (stepFigs b .show (stepFigs b (.save p) figs')) c d := by
    rintro figs' c d p ⟨f, r, rfl, h⟩
    refine ⟨f, r, ?_, h⟩
    simp [stepFigs, hb, onCurrent]
  intro w hw
  simp only [List.mem_cons, List.not_mem_nil, or_false] at hw
  unfold profileScript figsAfter
  simp only [List.foldl_cons, List.foldl_nil]
  rcases hw with rfl | rfl | rfl | rfl
  · refine has_content (cells := [1]) (hsv _ _ _ _ ?_)
    exact has_draw (has_subplot (has_draw (has_subplot (has_draw (has_subplot (has_new b _ _ _) (by simp) (by simp)) _) (by simp) (by simp)) _) (by simp) (by simp)) _
  · refine has_content (cells := [0]) (hsv _ _ _ _ ?_)
    exact has_draw (has_subplot (has_draw (has_subplot (has_new b _ _ _) (by simp) (by simp)) _) (by simp) (by simp)) _
  · refine has_content (cells := [2]) (hsv _ _ _ _ ?_)
    exact has_draw (has_subplot (has_new b _ _ _) (by simp) (by simp)) _
  · exact has_content (cells := [3]) (hsv _ _ _ _ (has_new b _ _ _))

/-! ## Runs in detail -/

theorem anomaly_ok {J : Job K} {T : Thetas.Thetas K}
    (hT : Thetas.find10thetas J.input.limits J.input.percent (J.input.data.map fun prof => prof.map SalVar.Cell.toLevel) = .ok T)
    (hs : ¬ (J.input.data.length < 2 ∧ J.input.bounds ≠ [])) (s : Salinity) (t : Bool) :
    anomalyScript plotsDir format J s t = (J.input.bounds.flatMap fun x => ownFigure plotsDir format J (.anomaly s x) (.anomaly t x), none) := by
  unfold anomalyScript
  rw [Verif.Props.temps_of_thetas hT, if_neg (by simp), if_neg hs]

/-- A failure after the figure of a level was saved leaves this figure open, even if `show()` closes figures. -/
theorem left_open {J : Job K} (hJ : Printing J) (b : Backend) (hb : b.closes = true) (figs : List (Fig (Drawing K)))
    (he : (diagnostics J.input).2 ≠ none) (hv : ∃ t, .variance t ∈ (diagnostics J.input).1) :
    figsAfter b (plotScript plotsDir format J).1 figs = [⟨1, [⟨wholePage, [⟨J, .series 0⟩]⟩]⟩] := by
  have hno : ∀ t, Figure.variance t ∉ Verif.Props.firstFigures J.input := by
    intro t
    unfold Verif.Props.firstFigures
    split_ifs <;> simp
  obtain ⟨t, hv⟩ := hv
  rcases Verif.Props.diagnostics_cases J.input with ⟨e, -, h⟩ | ⟨M, hM, ⟨e, -, h⟩ | ⟨T, hT, ⟨-, -, h⟩ | ⟨hs, h⟩⟩⟩
  · rw [h] at hv; simp at hv
  · rw [h] at hv; simp at hv
  · rw [h] at hv; simp at hv
  · rw [h] at he hv
    cases hp : (SalVar.salVarPlot J.input.rows J.input.levels J.input.limits J.input.percent J.input.data).2 with
    | none => rw [hp] at he; simp at he
    | some e =>
      rw [hp] at hv
      dsimp only at hv
      rcases List.mem_append.1 hv with hv | hv
      · exact absurd hv (hno t)
      · obtain ⟨i, hi, -⟩ := List.mem_map.1 hv
        have hvs : varianceScript plotsDir format J = ([.figure none, .draw ⟨J, .series 0⟩, .save (figurePath plotsDir format J.name (.variance (J.input.str 1)))],
            some .valueError) := by
          unfold varianceScript
          unfold SalVar.salVarPlot at hp hi
          dsimp only
          cases hd : SalVar.salVarData J.input.rows J.input.levels J.input.limits J.input.percent J.input.data with
          | error e => rw [hd] at hi; simp at hi
          | ok m =>
            rw [hd] at hp
            dsimp only at hp ⊢
            split_ifs at hp ⊢ with c1 c2
            rfl
        have hmap : (mapScript plotsDir format J).2 = none := by simp [mapScript, hM]
        have hcu : (curveScript plotsDir format J).2 = none := by
          unfold curveScript
          split_ifs <;> rfl
        have hr : ∃ A, Part plotsDir format J (A, none) ∧ (restScript plotsDir format J).1 = A ++ (varianceScript plotsDir format J).1 := by
          replace hT : Thetas.find10thetas J.input.limits J.input.percent (J.input.data.map fun prof => prof.map SalVar.Cell.toLevel) = .ok T := hT
          unfold restScript
          rw [hT]
          dsimp only
          rw [thetaSal_ok _ _ hT, thetaSal_ok _ _ hT, anomaly_ok _ _ hT hs, anomaly_ok _ _ hT hs, thenDo_some (a := varianceScript plotsDir format J) (by rw [hvs]),
            thenDo_none rfl, thenDo_none rfl, thenDo_none hcu, thenDo_none rfl]
          dsimp only
          simp only [← List.append_assoc]
          refine ⟨_, ?_, rfl⟩
          have h1 := part_own plotsDir format (J := J) (.uncalibrated) trivial
          have h2 := part_anomaly plotsDir format hJ _ _ .uncalibratedAnomaly
          rw [anomaly_ok _ _ hT hs] at h2
          have h3 := part_curve plotsDir format J
          have h4 := part_own plotsDir format (J := J) (.calibrated) trivial
          have := part_thenDo _ _ (part_thenDo _ _ (part_thenDo _ _ h1 h2) h3) h4
          rw [thenDo_none (a := (ownFigure plotsDir format J (.curves .measured) (.thetaSal false), none)) rfl, thenDo_none (c := curveScript plotsDir format J) rfl,
            thenDo_none (by exact hcu)] at this
          exact this
        obtain ⟨A, hA, hA'⟩ := hr
        rw [plotScript_eq, thenDo_none hmap, figsAfter_append, map_figs _ _ b hb J hmap, hA', figsAfter_append, hA.done b hb rfl, hvs]
        simp [figsAfter, stepFigs, nextNum, onCurrent, drawPanels]

/-- If `show()` leaves the figures open, the curve is drawn on the map. -/
theorem curve_on_map {J : Job K} (hJ : Printing J) (b : Backend) (hb : b.closes = false) (s : Session (Drawing K)) (hs0 : s.figs = []) (hg : .curve ∈ (diagnostics J.input).1) :
    ∃ c, (plotJob plotsDir format b J s).files (figurePath plotsDir format J.name .curve) = some c ∧
      ∀ d : Drawing K, d ∈ c ↔ d = ⟨J, .map⟩ ∨ d = ⟨J, .offset⟩ := by
  rcases Verif.Props.diagnostics_cases J.input with ⟨e, -, h⟩ | ⟨M, hM, ⟨e, -, h⟩ | ⟨T, hT, ⟨-, -, h⟩ | ⟨hs, h⟩⟩⟩
  · rw [h] at hg; simp at hg
  · rw [h] at hg; simp at hg
  · rw [h] at hg; simp at hg
  · have hany : (J.input.data.flatten.any fun c => c.calSal.isSome) = true := by
      by_contra hc
      rw [h] at hg
      have hc' : ¬ ∃ prof ∈ J.input.data, ∃ x ∈ prof, x.calSal ≠ none := fun hx => hc ((Verif.Props.curve_any J.input).2 hx)
      cases hp : (SalVar.salVarPlot J.input.rows J.input.levels J.input.limits J.input.percent J.input.data).2 with
      | none => rw [hp] at hg; simp [completeFigures, hc'] at hg
      | some e => rw [hp] at hg; simp [Verif.Props.firstFigures, hc'] at hg
    have hcs : curveScript plotsDir format J = (curveCmds plotsDir format J, none) := by
      unfold curveScript
      rw [if_pos hany]
      rfl
    have hmap : (mapScript plotsDir format J).2 = none := by simp [mapScript, hM]
    have hcorr := corr_plot plotsDir format J
    -- the calls before, those of the curve, those after
    obtain ⟨R, hR, hRc⟩ : ∃ R, (restScript plotsDir format J).1 = (ownFigure plotsDir format J (.curves .measured) (.thetaSal false) ++
        (J.input.bounds.flatMap fun x => ownFigure plotsDir format J (.anomaly .measured x) (.anomaly false x))) ++ (curveCmds plotsDir format J ++ R) ∧
        figurePath plotsDir format J.name .curve ∉ savedPaths R := by
      unfold restScript
      replace hT : Thetas.find10thetas J.input.limits J.input.percent (J.input.data.map fun prof => prof.map SalVar.Cell.toLevel) = .ok T := hT
      rw [hT]
      dsimp only
      rw [thetaSal_ok _ _ hT, anomaly_ok _ _ hT hs, hcs, thenDo_none rfl, thenDo_none rfl, thenDo_none rfl]
      refine ⟨_, by rw [List.append_assoc], ?_⟩
      obtain ⟨D, hD, -⟩ := Verif.Props.error_bars J.input.limits J.input.percent J.input.data T hT
      have c1 : Corr plotsDir format J (thetaSalScript plotsDir format J T .calibrated true) ([.thetaSal true], none) := by
        rw [thetaSal_ok _ _ hT]
        exact ⟨rfl, rfl⟩
      have c2 := corr_variance plotsDir format J
      have c3 := corr_anomaly plotsDir format J .calibrated true
      have c4 : Corr plotsDir format J (profileScript plotsDir format J) ([.profile], none) := ⟨rfl, rfl⟩
      have hfig : ∀ g ∈ (andThen ([.thetaSal true], none) (andThen (varianceFigures J.input) (andThen (anomalyFigures J.input true) ([.profile], none)))).1,
          Printed g ∧ g ≠ .curve := by
        have happ : ∀ (x y : Saved) (g : Figure), g ∈ (andThen x y).1 → g ∈ x.1 ∨ g ∈ y.1 := by
          intro x y g hg
          unfold andThen at hg
          cases hx : x.2 with
          | some e => rw [hx] at hg; exact .inl hg
          | none => rw [hx] at hg; exact List.mem_append.1 hg
        intro g hg
        rcases happ _ _ _ hg with hg | hg
        · simp only [List.mem_singleton] at hg
          subst hg
          exact ⟨trivial, by simp⟩
        · rcases happ _ _ _ hg with hg | hg
          · obtain ⟨i, -, rfl⟩ := List.mem_map.1 hg
            exact ⟨hJ.number i, by simp⟩
          · rcases happ _ _ _ hg with hg | hg
            · unfold anomalyFigures at hg
              rw [Verif.Props.temps_of_thetas hT, if_neg (by simp), if_neg hs] at hg
              obtain ⟨x, hx, rfl⟩ := List.mem_map.1 hg
              exact ⟨hJ.bounds x hx _, by simp⟩
            · simp only [List.mem_singleton] at hg
              subst hg
              exact ⟨trivial, by simp⟩
      exact path_curve_not plotsDir format J _ _ (corr_thenDo _ _ c1 (corr_thenDo _ _ c2 (corr_thenDo _ _ c3 c4))) (fun g hg => (hfig g hg).1) fun hg => (hfig _ hg).2 rfl
    have hf0 : figsAfter b (mapScript plotsDir format J).1 s.figs = [⟨1, [⟨wholePage, [⟨J, .map⟩]⟩]⟩] := by
      unfold mapScript
      rw [hM, hs0]
      simp [figsAfter, stepFigs, onCurrent, drawPanels, hb]
    obtain ⟨l, hl, hl'⟩ := curve_writes_open plotsDir format b J (figure1_owns plotsDir format b hb J J.input.bounds (fun x => .anomaly .measured x) (fun x => .anomaly false x)
      (figure1_own plotsDir format b hb J (.curves .measured) (.thetaSal false) (by rw [hf0]; rfl :
        Figure1 (figsAfter b (mapScript plotsDir format J).1 s.figs) ⟨1, [⟨wholePage, [⟨J, .map⟩]⟩]⟩)))
    refine ⟨l, ?_, fun d => ?_⟩
    · rw [plotJob_eq]
      dsimp only
      rw [plotScript_eq, thenDo_none hmap]
      dsimp only
      rw [hR, writes_append, writes_append, figsAfter_append, writes_append b (curveCmds plotsDir format J), hl, apply_append, apply_append, apply_append, apply_not]
      · simp [apply]
      · rw [writes_paths]
        exact hRc
    · rw [hl']
      simp

end corr

end Verif.Pyplot
