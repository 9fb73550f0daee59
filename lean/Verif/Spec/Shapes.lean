import Mathlib.Data.List.Basic
import Mathlib.Data.List.Chain
import Verif.Model.Shapes

/-!
# Specification vocabulary: shapes made of parts, and the lines of a text
-/

namespace Verif.Spec

open Verif.Shapes

/-- The lines that join each point of a list to the next one. -/
def joined {P : Type} : List P → List (P × P)
  | a :: b :: l => (a, b) :: joined (b :: l)
  | _ => []

/-- The positions at which the parts start if they are written one after the other, the first one at position `n`. -/
def starts {P : Type} (n : ℤ) : List (List P) → List ℤ
  | [] => []
  | l :: ls => n :: starts (n + l.length) ls

/-- The shape with the given parts. -/
def shapeOf {P : Type} (parts : List (List P)) : Shape P := ⟨parts.flatten, starts 0 parts⟩

/-- A line of the printed configuration: blanks, the name, a colon, a blank and the value; the colon stands behind at least 30 characters, and there are
blanks only for this. -/
def ShowsParameter (line name value : List Char) : Prop :=
  ∃ k : ℕ, line = List.replicate k ' ' ++ name ++ ":".toList ++ " ".toList ++ value ∧ (name.length ≤ 30 → k + name.length = 30) ∧ (30 ≤ name.length → k = 0)

/-- A name as in the code: no blank, colon or new line. -/
def PlainName (s : List Char) : Prop := ' ' ∉ s ∧ ':' ∉ s ∧ '\n' ∉ s

end Verif.Spec
