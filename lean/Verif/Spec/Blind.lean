import Verif.Spec.Profile

/-!
# Specification vocabulary: what the mapping of a float does not look at
-/

namespace Verif.Spec

open Verif.Profile

/-- Two profiles with the same position, date, pressures and potential temperatures, and with salinities at the same levels. The salinities themselves and the in-situ
temperatures may be any numbers. -/
structure SameForMapping (f f' : FloatProfile) : Prop where
  lat : f.lat = f'.lat
  long : f.long = f'.long
  date : f.date = f'.date
  ptmp : f.ptmp = f'.ptmp
  pres : f.pres = f'.pres
  levels : f.sal.length = f'.sal.length
  measured : ∀ n : ℕ, f.sal[n]? = some none ↔ f'.sal[n]? = some none

/-- The Subantarctic Front is left out of account: it is switched off, or no profile lies south of 30S. -/
def NoFront (E : Env) (source : List FloatProfile) : Prop := E.useSaf ≠ 1 ∨ ∀ f ∈ source, ∀ y, f.lat = some y → -30 ≤ y

end Verif.Spec
