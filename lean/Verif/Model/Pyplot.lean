import Verif.Model.Diagnostics

/-!
# Model of the figures that `plot_diagnostics` draws on

The functions of pyowc/plot/plots.py draw with `matplotlib.pyplot`, which keeps a list of open figures and a current one. What is saved under a name is what the current
figure holds at that moment. The model has the open figures, their panels and what was drawn on them; how a drawing looks (lines, colours, axes, texts, the layout)
is not modelled. External: Matplotlib. Assumptions: `figure()` opens a figure with the next free number, `figure(n)` makes figure `n` the current one or opens it, drawing
goes to the current panel, and `savefig` writes the current figure.
-/

namespace Verif.Pyplot

open Verif.Np Verif.Helper Verif.Diagnostics Verif.Workflow

/-! ## Matplotlib -/

/-- A panel (Matplotlib: axes): the quarters of the page that it covers, counted by rows from 0, and what was drawn on it. -/
structure Panel (D : Type) where
  cells : List ℕ
  drawn : List D

/-- A panel covers the whole page (`subplot(111)`, the default). -/
def wholePage : List ℕ := [0, 1, 2, 3]

/-- A figure: its number and its panels, the current one first. -/
structure Fig (D : Type) where
  num : ℕ
  panels : List (Panel D)

/-- The open figures, the current one first, and the saved files: path to what the figure held. -/
structure Session (D : Type) where
  figs : List (Fig D)
  files : List Char → Option (List D)

/-- How Matplotlib is set up. `closes`: `plt.show()` leaves no figure open (windows that the user closes, notebooks); otherwise it leaves them (no display). `removes`: a new
panel removes the panels it overlaps (Matplotlib before 3.8). -/
structure Backend where
  closes : Bool
  removes : Bool

/-- The calls of pyplot in pyowc/plot. -/
inductive Cmd (D : Type)
  | figure (n : Option ℕ)
  | subplot (cells : List ℕ)
  | draw (d : D)
  | save (path : List Char)
  | show

/-- `figure()`: the number is one more than the largest. -/
def nextNum {D : Type} (figs : List (Fig D)) : ℕ := (figs.map Fig.num).foldr max 0 + 1

/-- `figure(n)`. -/
def select {D : Type} (n : ℕ) (figs : List (Fig D)) : List (Fig D) :=
  match figs.find? fun f => decide (f.num = n) with
  | some f => f :: figs.filter fun f => decide (f.num ≠ n)
  | none => ⟨n, []⟩ :: figs

/-- `gcf()` and a change of the figure it gives. -/
def onCurrent {D : Type} (t : List (Panel D) → List (Panel D)) : List (Fig D) → List (Fig D)
  | [] => [⟨1, t []⟩]
  | f :: r => ⟨f.num, t f.panels⟩ :: r

/-- `subplot(cells)`: the panel with this place becomes the current one, or a new one is made. -/
def subplotPanels {D : Type} (removes : Bool) (cells : List ℕ) (panels : List (Panel D)) : List (Panel D) :=
  match panels.find? fun p => decide (p.cells = cells) with
  | some p => p :: panels.filter fun p => decide (p.cells ≠ cells)
  | none => ⟨cells, []⟩ :: (if removes then panels.filter fun p => p.cells.all fun c => decide (c ∉ cells) else panels)

/-- Drawing on `gca()`. -/
def drawPanels {D : Type} (d : D) : List (Panel D) → List (Panel D)
  | [] => [⟨wholePage, [d]⟩]
  | p :: r => ⟨p.cells, p.drawn ++ [d]⟩ :: r

/-- All that the current figure holds. -/
def content {D : Type} : List (Fig D) → List D
  | [] => []
  | f :: _ => f.panels.flatMap Panel.drawn

/-- The open figures after a call. -/
def stepFigs {D : Type} (b : Backend) : Cmd D → List (Fig D) → List (Fig D)
  | .figure none, figs => ⟨nextNum figs, []⟩ :: figs
  | .figure (some n), figs => select n figs
  | .subplot cells, figs => onCurrent (subplotPanels b.removes cells) figs
  | .draw d, figs => onCurrent (drawPanels d) figs
  | .save _, figs => onCurrent id figs
  | .show, figs => if b.closes then [] else figs

/-- One call. -/
def stepCmd {D : Type} (b : Backend) (s : Session D) (c : Cmd D) : Session D :=
  ⟨stepFigs b c s.figs, match c with
    | .save p => Function.update s.files p (some (content s.figs))
    | _ => s.files⟩

/-- The calls one after another. -/
def exec {D : Type} (b : Backend) (cs : List (Cmd D)) (s : Session D) : Session D := cs.foldl (stepCmd b) s

/-! ## The calls of `plot_diagnostics` -/

/-- The salinities drawn: `float_data['SAL']` or `cal_data['cal_SAL']`. -/
inductive Salinity
  | measured
  | calibrated
deriving DecidableEq

/-- What is drawn. `theta_sal_plot`: curves and error bars; `cal_sal_curve_plot`: the panel of the factor and that of the offset; `sal_var_plot`: the salinities on a level;
`t_s_profile_plot`: the four panels. -/
inductive Picture
  | map
  | curves (s : Salinity)
  | anomaly (s : Salinity) (bounds : List Char)
  | factor
  | offset
  | series (level : ℕ)
  | salTheta
  | varTheta
  | thetaPres
  | salPres
deriving DecidableEq

/-- A call of `plot_diagnostics`: the name of the float and what is read. -/
structure Job (K : Type) where
  name : List Char
  input : Input K

/-- A picture and the call that drew it. -/
structure Drawing (K : Type) where
  job : Job K
  what : Picture

/-- The calls of pyplot, and the exception that ends them. -/
abbrev Script (K : Type) := List (Cmd (Drawing K)) × Option PyErr

/-- One function after another: an exception ends the run. -/
def thenDo {K : Type} (a b : Script K) : Script K :=
  match a.2 with
  | some e => (a.1, some e)
  | none => (a.1 ++ b.1, b.2)

variable {K : Type} [Field K] [LinearOrder K] [IsStrictOrderedRing K] [FloorRing K]

variable (plotsDir format : List Char)

/-- A figure of its own: `figure()`, drawing, saving, `show()`. -/
def ownFigure (J : Job K) (what : Picture) (g : Figure) : List (Cmd (Drawing K)) :=
  [.figure none, .draw ⟨J, what⟩, .save (figurePath plotsDir format J.name g), .show]

/-- `trajectory_plot` and `plt.show()` (pyowc/plot/dashboard.py:44-55, pyowc/plot/plots.py:55-141): no figure is opened, `gca()` is drawn on. The data are read before. -/
def mapScript (J : Job K) : Script K :=
  match mapOf J.input.selected J.input.no J.input.lat J.input.long with
  | .error e => ([], some e)
  | .ok _ => ([.draw ⟨J, .map⟩, .save (figurePath plotsDir format J.name .trajectory), .show], none)

/-- `theta_sal_plot` (pyowc/plot/plots.py:147-203) with the salinities and the title that are passed. -/
def thetaSalScript (J : Job K) (T : Thetas.Thetas K) (s : Salinity) (title : Bool) : Script K :=
  match allBars T J.input.data with
  | .error e => ([.figure none, .draw ⟨J, .curves s⟩], some e)
  | .ok _ => (ownFigure plotsDir format J (.curves s) (.thetaSal title), none)

/-- `sal_anom_plot` (lines 663-752) with the salinities and the title that are passed. The `TypeError` of `contourf` comes after `figure()` and `gca()`. -/
def anomalyScript (J : Job K) (s : Salinity) (title : Bool) : Script K :=
  if J.input.data.flatten.all fun c => c.ptmp.isNone then ([], some .valueError)
  else if J.input.data.length < 2 ∧ J.input.bounds ≠ [] then ([.figure none, .subplot wholePage], some .typeError)
  else (J.input.bounds.flatMap fun t => ownFigure plotsDir format J (.anomaly s t) (.anomaly title t), none)

/-- `cal_sal_curve_plot` (lines 588-660). Line 633 calls `figure(1)` between the second panel and what is drawn on it. -/
def curveScript (J : Job K) : Script K :=
  if J.input.data.flatten.any fun c => c.calSal.isSome then
    ([.figure none, .subplot [0, 1], .draw ⟨J, .factor⟩, .subplot [2, 3], .figure (some 1), .draw ⟨J, .offset⟩,
      .save (figurePath plotsDir format J.name .curve), .show], none)
  else ([], none)

/-- `sal_var_plot` (lines 527-558). If the limits of the axis are refused (line 557), the figure was saved but `show()` is not called. -/
def varianceScript (J : Job K) : Script K :=
  let I := J.input
  match SalVar.salVarData I.rows I.levels I.limits I.percent I.data with
  | .error e => ([], some e)
  | .ok m =>
    if I.levels = 0 then ([], none)
    else if m.all fun row => row.all fun v => v.sal.isNone then
      ([.figure none, .draw ⟨J, .series 0⟩, .save (figurePath plotsDir format J.name (.variance (I.str 1)))], some .valueError)
    else ((List.range I.levels).flatMap fun i => ownFigure plotsDir format J (.series i) (.variance (I.str (i + 1))), none)

/-- `t_s_profile_plot` (lines 227-275): on figure 1. -/
def profileScript (J : Job K) : Script K :=
  ([.figure (some 1), .subplot [1], .draw ⟨J, .salTheta⟩, .subplot [0], .draw ⟨J, .varTheta⟩, .subplot [2], .draw ⟨J, .thetaPres⟩, .subplot [3], .draw ⟨J, .salPres⟩,
    .save (figurePath plotsDir format J.name .profile), .show], none)

/-- `plot_diagnostics` (pyowc/plot/dashboard.py:44-135): the calls of pyplot. -/
def plotScript (J : Job K) : Script K :=
  thenDo (mapScript plotsDir format J) <|
    match Thetas.find10thetas J.input.limits J.input.percent (J.input.data.map fun prof => prof.map SalVar.Cell.toLevel) with
    | .error e => ([], some e)
    | .ok T =>
      thenDo (thetaSalScript plotsDir format J T .measured false) <|
      thenDo (anomalyScript plotsDir format J .measured false) <|
      thenDo (curveScript plotsDir format J) <|
      thenDo (thetaSalScript plotsDir format J T .calibrated true) <|
      thenDo (varianceScript plotsDir format J) <|
      thenDo (anomalyScript plotsDir format J .calibrated true) (profileScript plotsDir format J)

/-- The session after a call of `plot_diagnostics`, whether or not it ends with an exception. -/
def plotJob (b : Backend) (J : Job K) (s : Session (Drawing K)) : Session (Drawing K) := exec b (plotScript plotsDir format J).1 s

/-- Several calls in one Python session; the caller goes on after an exception. -/
def plotJobs (b : Backend) (Js : List (Job K)) (s : Session (Drawing K)) : Session (Drawing K) :=
  Js.foldl (fun s J => plotJob plotsDir format b J s) s

end Verif.Pyplot
