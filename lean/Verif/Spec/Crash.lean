import Verif.Spec.Workflow
import Verif.Model.Crash

/-!
# Specification vocabulary for interrupted steps
-/

namespace Verif.Spec

open Verif.Np Verif.Workflow Verif.Crash

/-- A history of steps for any floats; each ends by itself or is interrupted. -/
abbrev History := List (Op × FloatId × Fate)

/-- The results in a history that belong to the float. -/
def resultsFor {R : Type} (f : FloatId) (h : History) (rs : List R) : List R :=
  ((h.zip rs).filter fun x => decide (x.1.2.1 = f)).map Prod.snd

/-- The steps in a history that belong to the float. -/
def stepsFor (f : FloatId) (h : History) : History := h.filter fun x => decide (x.2.1 = f)

/-- No other float in the history has the name of this one. -/
def OnlyFloat (f : FloatId) (h : History) : Prop := ∀ x ∈ h, x.2.1 = f ∨ Plain x.2.1.name ∧ x.2.1.name ≠ f.name

/-- A disk without damaged files. -/
def intact {V : Type} (s : Store V) : Store (Content V) := fun x => (s x).map .whole

end Verif.Spec
