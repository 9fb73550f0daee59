import Verif.Spec.Blind

/-!
# Specification vocabulary: what the value at a level depends on
-/

namespace Verif.Spec

open Verif.Profile Verif.Spec.Profile

/-- The deepest pressure of a profile. -/
noncomputable def deepest (f : FloatProfile) : Option ℝ := (f.pres.filterMap id).max?

/-- Two profiles at the same place and time that reach equally deep. Both or none of them can be mapped. Their levels may differ in number and in everything else. -/
structure SameStation (f f' : FloatProfile) : Prop where
  lat : f.lat = f'.lat
  long : f.long = f'.long
  date : f.date = f'.date
  deepest : deepest f = deepest f'
  placed : Placed f ↔ Placed f'

/-- The level `n` of a profile and the level `n'` of another one have the same pressure and potential temperature, and both or none of them have a salinity. -/
structure SameLevel (f : FloatProfile) (n : ℕ) (f' : FloatProfile) (n' : ℕ) : Prop where
  pres : f.pres[n]? = f'.pres[n']?
  ptmp : f.ptmp[n]? = f'.ptmp[n']?
  measured : f.sal[n]? = some none ↔ f'.sal[n']? = some none

end Verif.Spec
