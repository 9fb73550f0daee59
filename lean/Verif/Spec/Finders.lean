import Verif.Model.Finders

/-!
# Specification vocabulary for `pyowc/core/finders.py`

Only the data types (`Cast`, `BesthistArgs`) and the potential vorticity function are taken from the model.
-/

namespace Verif.Spec

open Verif.Finders Verif.Utilities

/-- A point lies in the ellipse of three times the large scales around the float; with the PV constraint the scaled difference
of potential vorticity counts too. Casts with a missing position (or, with PV, a missing or zero depth) do not. -/
def InEllipse (A : BesthistArgs) (c : Cast) : Prop :=
  ∃ x y, c.long = some x ∧ c.lat = some y ∧
    if A.mapPvUse = 1 then
      ∃ z, c.z = some z ∧ z ≠ 0 ∧ A.z ≠ 0 ∧
        ((x - A.long) / (3 * A.longLarge)) ^ 2 + ((y - A.lat) / (3 * A.latLarge)) ^ 2 +
          (potentialVorticity A.lat A.z - potentialVorticity y z) ^ 2 /
            (potentialVorticity A.lat A.z ^ 2 + potentialVorticity y z ^ 2) / A.phiLarge ^ 2 < 1
    else ((x - A.long) / (3 * A.longLarge)) ^ 2 + ((y - A.lat) / (3 * A.latLarge)) ^ 2 < 1

/-- Scaled squared distance of a cast from the float in space and time; missing if a coordinate is missing. -/
noncomputable def distance (A : BesthistArgs) (sx sy st : ℝ) (c : Cast) : Option ℝ := do
  let x ← c.long
  let y ← c.lat
  let t ← c.date
  some (((x - A.long) / sx) ^ 2 + ((y - A.lat) / sy) ^ 2 + ((t - A.date) / st) ^ 2)

/-- The distance the documentation describes with the PV constraint: the scaled PV difference counts too. -/
noncomputable def distancePv (A : BesthistArgs) (sx sy st phi : ℝ) (c : Cast) : Option ℝ := do
  let d ← distance A sx sy st c
  let y ← c.lat
  let z ← c.z
  if z = 0 ∨ A.z = 0 then none
  else some (d + (potentialVorticity A.lat A.z - potentialVorticity y z) ^ 2 /
    (potentialVorticity A.lat A.z ^ 2 + potentialVorticity y z ^ 2) / phi ^ 2)

/-- The distance used with the PV constraint: the roles of `phi` and of the potential vorticity of the cast are exchanged. -/
noncomputable def distanceUsed (A : BesthistArgs) (sx sy st phi : ℝ) (c : Cast) : Option ℝ := do
  let d ← distance A sx sy st c
  let y ← c.lat
  let z ← c.z
  if z = 0 ∨ A.z = 0 then none
  else some (d + (phi - potentialVorticity A.lat A.z) ^ 2 / (phi ^ 2 + potentialVorticity A.lat A.z ^ 2) / potentialVorticity y z ^ 2)

/-- The first distance is known and at most the second, or the second is missing. -/
def Closer (a b : Option ℝ) : Prop := ∀ y, b = some y → ∃ x, a = some x ∧ x ≤ y

/-- Every random generator output: as many numbers as asked, all in [0, 1). -/
def ValidRand (rand : ℕ → ℕ → List ℝ) : Prop :=
  ∀ seed k, (rand seed k).length = k ∧ ∀ u ∈ rand seed k, 0 ≤ u ∧ u < 1

open Classical in
/-- Number of casts in the ellipse. -/
noncomputable def numInside (A : BesthistArgs) (casts : List Cast) : ℕ :=
  casts.countP (fun c => decide (InEllipse A c))

end Verif.Spec
