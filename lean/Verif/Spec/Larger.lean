import Verif.Spec.Finders

/-!
# Specification vocabulary: a larger ellipse
-/

namespace Verif.Spec

open Verif.Finders

/-- The same float, larger scales of longitude and latitude, and the potential vorticity used at most if it was before, with an equal or larger scale. The scales of time, the small
scales and `max_casts` are arbitrary. -/
structure LargerEllipse (A A' : BesthistArgs) : Prop where
  lat : A'.lat = A.lat
  long : A'.long = A.long
  z : A'.z = A.z
  longLarge : 0 < A.longLarge ∧ A.longLarge ≤ A'.longLarge
  latLarge : 0 < A.latLarge ∧ A.latLarge ≤ A'.latLarge
  vorticity : A'.mapPvUse = 1 → A.mapPvUse = 1 ∧ 0 < A.phiLarge ∧ A.phiLarge ≤ A'.phiLarge

end Verif.Spec
