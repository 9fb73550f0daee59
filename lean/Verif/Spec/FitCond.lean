import Verif.Spec.BreakFit
import Mathlib.Data.Matrix.Basic
import Mathlib.Analysis.SpecialFunctions.Log.Basic
import Mathlib.Order.WithBot
import Mathlib.Order.Bounds.Basic
import Mathlib.Analysis.SpecialFunctions.Exp

/-!
# Specification: weighted mean, correlation matrices, parameter lists
-/

namespace Verif.Spec

/-- The mean of `y` weighted by the inverse error variances. -/
noncomputable def weightedMean {n : ℕ} (y err : Fin n → ℝ) : ℝ := (∑ i, y i / err i ^ 2) / ∑ i, 1 / err i ^ 2

/-- Entries between 0 and 1, ones on the diagonal. -/
def IsPosCorrelation {n : ℕ} (c : Matrix (Fin n) (Fin n) ℝ) : Prop := (∀ i j, 0 ≤ c i j ∧ c i j ≤ 1) ∧ ∀ i, c i i = 1

/-- The value of the last of the (name, value) pairs whose value `pick` accepts. -/
def lastOf {α β γ : Type} (pick : α → β → Option γ) (l : List (α × β)) : Option γ :=
  (l.filterMap fun p => pick p.1 p.2).getLast?

/-- Small-sample Akaike criterion of a model with `p` parameters and sum of squares `chi` for `npts` data with `ndf` degrees of freedom;
minus infinity for a perfect fit. -/
noncomputable def akaike (ndf : ℝ) (npts : ℕ) (p chi : ℝ) : WithBot ℝ :=
  if chi = 0 then ⊥ else ((ndf * Real.log (chi / (npts : ℝ)) + ndf * (ndf + p) / (ndf - p - 2) : ℝ) : WithBot ℝ)

/-- The effective number of independent data among data with these correlations. -/
noncomputable def effectiveNumber {n : ℕ} (c : Matrix (Fin n) (Fin n) ℝ) : ℝ := ∑ i, 1 / ∑ j, c i j

/-- The standard deviation (denominator `n`). -/
noncomputable def standardDeviation {n : ℕ} (y : Fin n → ℝ) : ℝ := Real.sqrt ((∑ i, (y i - (∑ j, y j) / n) ^ 2) / n)

/-- The break points that stand for the vector `u` of the optimiser, for data at the ascending profiles `x`. With at least four different profiles they are spread
between the second and the last but one of them; with fewer they are at the last profile and beyond. -/
def SoughtBreaks {n b : ℕ} (x : Fin (n + 1) → ℝ) (u l : Fin (b + 1) → ℝ) : Prop :=
  if 4 ≤ (Finset.univ.image x).card then
    ∃ first last : ℝ, IsLeast {v | ∃ i, x i = v ∧ x 0 < v} first ∧ IsGreatest {v | ∃ i, x i = v ∧ v < x (Fin.last n)} last ∧
      ∀ i, l i = first + (last - first) * (∑ j ∈ Finset.univ.filter (· ≤ i), Real.exp (u j)) / (1 + ∑ j, Real.exp (u j))
  else ∀ i, l i = x (Fin.last n) + (if i = 0 then 0 else 0.00001) * ((x (Fin.last n) - x 0) / 2)

/-- The models that may be chosen if `k` break points are allowed and `ndf` data are independent: -1 stands for an offset, others for the number of break points of a
broken line, so 0 for a straight line. -/
def MayBreak (k : ℤ) (ndf : ℝ) (nbr : ℤ) : Prop := -1 ≤ nbr ∧ nbr ≤ k ∧ (nbr = -1 ∨ 2 * (nbr : ℝ) + 5 ≤ ndf)

/-- The data at the profiles `x` determine every broken line that is allowed, with the break points that stand for `search`. -/
def BrokenDetermined {n : ℕ} (x : Fin (n + 1) → ℝ) (search : (b : ℕ) → Fin (b + 1) → ℝ) (k : ℤ) (ndf : ℝ) : Prop :=
  ∀ b : ℕ, MayBreak k ndf (b + 1) → ∀ l, SoughtBreaks x (search b) l → Determined (Fin.cons (x 0) l : Fin (b + 2) → ℝ) (fun _ => 1) x

/-- The number of parameters of these models as it is counted. -/
noncomputable def parameterCount (nbr : ℤ) : ℝ := if nbr = -1 then 1 else 2 * ((nbr : ℝ) + 1)

/-- `chi` gives for each model the sum of squared deviations, weighted by the inverse error variances: for the offset that of the weighted mean, for the straight line the
least one, for a broken line the least one with the break points sought by the optimiser. If the data do not determine such a broken line, it is the deviation from the
plain mean. -/
structure Residuals {n : ℕ} (x y err : Fin (n + 1) → ℝ) (search : (b : ℕ) → Fin (b + 1) → ℝ) (chi : ℤ → ℝ) : Prop where
  offset : chi (-1) = deviation (fun i => 1 / err i ^ 2) x y fun _ => weightedMean y err
  line : IsLeast {d | ∃ u v : ℝ, d = deviation (fun i => 1 / err i ^ 2) x y fun t => u + v * t} (chi 0)
  broken : ∀ (b : ℕ) (l : Fin (b + 1) → ℝ), SoughtBreaks x (search b) l → Determined (Fin.cons (x 0) l : Fin (b + 2) → ℝ) (fun _ => 1) x →
    IsLeast {d | ∃ slope g, IsBrokenLine (Fin.cons (x 0) l : Fin (b + 2) → ℝ) slope g ∧ d = deviation (fun i => 1 / err i ^ 2) x y g} (chi (b + 1))
  singular : ∀ (b : ℕ) (l : Fin (b + 1) → ℝ), SoughtBreaks x (search b) l → ¬ Determined (Fin.cons (x 0) l : Fin (b + 2) → ℝ) (fun _ => 1) x →
    chi (b + 1) = deviation (fun i => 1 / err i ^ 2) x y fun _ => (∑ i, y i) / ((n : ℝ) + 1)

end Verif.Spec
