import Verif.Spec.Crash
import Verif.Model.Parallel

/-!
# Specification vocabulary for processes that run at the same time
-/

namespace Verif.Spec

open Verif.Workflow Verif.Crash

/-- The work of each process: its steps. Processes without steps do nothing. -/
abbrev Work := ℕ → List (Op × FloatId)

/-- No float of a process has the name of a float of another process, and all names are plain. -/
def Divided (w : Work) : Prop :=
  (∀ i, ∀ x ∈ w i, Plain x.2.name) ∧ ∀ i j, i ≠ j → ∀ x ∈ w i, ∀ y ∈ w j, x.2.name ≠ y.2.name

/-- All of these steps, none of them interrupted. -/
def completed (l : List (Op × FloatId)) : History := l.map fun x => (x.1, x.2, .ends)

/-- The first `n` of these steps, and the next one interrupted. -/
def interruptedAt (l : List (Op × FloatId)) (n : ℕ) (fate : Fate) : History :=
  completed (l.take n) ++ ((l.drop n).take 1).map fun x => (x.1, x.2, fate)

end Verif.Spec
