import Mathlib.Data.List.Sort
import Mathlib.Algebra.Order.Field.Basic
import Mathlib.Algebra.Order.Floor.Ring
import Mathlib.Tactic.Linarith
import Mathlib.Tactic.NormNum

/-!
# The part of numpy / Python that the model needs

Each definition names the Python construct it stands for.
-/

namespace Verif.Np

/-- Python exceptions that the modelled code can raise, as values. -/
inductive PyErr where
  | valueError
  | indexError
  | typeError
  | keyError
  | attributeError
  | runtimeError
  | nameError
  | fileNotFound
  | zeroDivision
  | linAlgError
  | structError
  | osError
  deriving DecidableEq, Repr

/-- `np.argwhere(mask).flatten()` / `np.nonzero(mask)[0]` for a 1-D array: the positions, ascending,
at which `p` holds, counted from `start`. -/
def argwhereFrom {α : Type*} (p : α → Bool) : ℕ → List α → List ℕ
  | _, [] => []
  | s, a :: l => if p a then s :: argwhereFrom p (s + 1) l else argwhereFrom p (s + 1) l

/-- `np.argwhere(mask).flatten()` for a 1-D array. -/
def argwhere {α : Type*} (p : α → Bool) (l : List α) : List ℕ := argwhereFrom p 0 l

/-- `np.arange(a, a + n)` -/
def arangeFrom (a : ℤ) : ℕ → List ℤ
  | 0 => []
  | n + 1 => a :: arangeFrom (a + 1) n

/-- The order in which a stable sort lists (value, position) pairs: by value, equal values by position. -/
def lexLe {K : Type*} [LinearOrder K] (a b : K × ℕ) : Prop :=
  a.1 < b.1 ∨ (a.1 = b.1 ∧ a.2 ≤ b.2)

instance {K : Type*} [LinearOrder K] : DecidableRel (lexLe (K := K)) := fun a b => by
  unfold lexLe; infer_instance

instance {K : Type*} [LinearOrder K] : Std.Total (lexLe (K := K)) := ⟨fun a b => by
  unfold lexLe
  rcases lt_trichotomy a.1 b.1 with h | h | h
  · exact Or.inl (Or.inl h)
  · rcases le_total a.2 b.2 with h2 | h2
    · exact Or.inl (Or.inr ⟨h, h2⟩)
    · exact Or.inr (Or.inr ⟨h.symm, h2⟩)
  · exact Or.inr (Or.inl h)⟩

instance {K : Type*} [LinearOrder K] : IsTrans (K × ℕ) (lexLe (K := K)) := ⟨fun a b c h1 h2 => by
  unfold lexLe at *
  rcases h1 with h1 | ⟨h1, h1'⟩ <;> rcases h2 with h2 | ⟨h2, h2'⟩
  · exact Or.inl (h1.trans h2)
  · exact Or.inl (h2 ▸ h1)
  · exact Or.inl (h1 ▸ h2)
  · exact Or.inr ⟨h1.trans h2, h1'.trans h2'⟩⟩

/-- The (value, position) pairs of `l` in the order of `np.argsort(l, kind='stable')`. -/
def stableSortPairs {K : Type*} [LinearOrder K] (l : List K) : List (K × ℕ) :=
  (l.zipIdx).insertionSort lexLe

/-- `np.argsort(l, kind='stable')` -/
def stableArgsort {K : Type*} [LinearOrder K] (l : List K) : List ℕ :=
  (stableSortPairs l).map Prod.snd

/-- `[l[i] for i in idx]` for indices `i ≥ 0`: a list of items, or `IndexError`. -/
def gather {α : Type} (l : List α) (idx : List ℕ) : Except PyErr (List α) :=
  idx.mapM fun i => match l[i]? with
    | some a => .ok a
    | none => .error .indexError

/-- Python slice `l[:k]`: a negative `k` counts from the end. -/
def pyTake {α : Type*} (l : List α) (k : ℤ) : List α :=
  if k < 0 then l.take ((l.length : ℤ) + k).toNat else l.take k.toNat

/-- `np.unique` of integers: ascending, without repetition. -/
def uniqueInt (l : List ℤ) : List ℤ := l.dedup.insertionSort (· ≤ ·)

/-- `np.round` (to the nearest integer, halves to the even one). -/
def roundHalfEven {K : Type*} [Field K] [LinearOrder K] [FloorRing K] (x : K) : ℤ :=
  let f := ⌊x⌋
  if x - f < 1 / 2 then f
  else if x - f > 1 / 2 then f + 1
  else if f % 2 = 0 then f else f + 1

/-- The order in which numpy sorts numbers with NaN (`none`): NaN last. -/
def NpLe {K : Type*} [LE K] (a b : Option K) : Prop :=
  match a, b with
  | some x, some y => x ≤ y
  | none, some _ => False
  | _, none => True

/-- What `ndarray.argsort()` (default, not stable) guarantees: the indices `0 .. n-1` in an order that sorts the values, NaN
last. Nothing is assumed about the order of equal values. -/
def IsArgsort {K : Type*} [LE K] (f : List (Option K) → List ℕ) : Prop :=
  ∀ l : List (Option K), (f l).Perm (List.range l.length) ∧
    (f l).Pairwise (fun i j => ∀ a b, l[i]? = some a → l[j]? = some b → NpLe a b)

/-- The first position of the least non-missing value and that value, counted from `i`; `none` if all are missing. -/
def nanArgminFrom {K : Type*} [LinearOrder K] : ℕ → List (Option K) → Option (ℕ × K)
  | _, [] => none
  | i, a :: l =>
    match a, nanArgminFrom (i + 1) l with
    | none, r => r
    | some x, none => some (i, x)
    | some x, some (j, y) => if x ≤ y then some (i, x) else some (j, y)

/-- `np.nanargmin(l)`: the first position of the least non-NaN value. -/
def nanArgmin {K : Type*} [LinearOrder K] (l : List (Option K)) : Option ℕ := (nanArgminFrom 0 l).map Prod.fst

/-- `np.nanmin(l)`; NaN if all are NaN. -/
def nanmin {K : Type*} [LinearOrder K] (l : List (Option K)) : Option K := (l.filterMap id).min?

/-- `np.nanmax(l)`; NaN if all are NaN. -/
def nanmax {K : Type*} [LinearOrder K] (l : List (Option K)) : Option K := (l.filterMap id).max?

/-- `np.nanmean(l)`; NaN if all are NaN. -/
def nanmean {K : Type*} [Field K] (l : List (Option K)) : Option K :=
  let vs := l.filterMap id
  if vs = [] then none else some (vs.sum / (vs.length : K))

/-- `np.nanvar(l, ddof=1)`; NaN with fewer than two values. -/
def nanvar1 {K : Type*} [Field K] (l : List (Option K)) : Option K :=
  let vs := l.filterMap id
  if vs.length < 2 then none
  else
    let m := vs.sum / (vs.length : K)
    some ((vs.map fun v => (v - m) ^ 2).sum / ((vs.length : K) - 1))

/-- `np.arange(a, b, step)` for a positive step. -/
def arange {K : Type*} [Field K] [LinearOrder K] [FloorRing K] (a b step : K) : List K :=
  (List.range ⌈(b - a) / step⌉.toNat).map fun (i : ℕ) => a + (i : K) * step

end Verif.Np
