import Verif.Spec.Stricter

/-!
# Storage below the first level
-/

namespace Fm2prof.Spec

open Fm2prof

variable {K : Type}

/-- The configuration with this value of `ExtrapolateStorage`. -/
def RunConfig.withExtrapolation (v : Bool) (c : RunConfig K) : RunConfig K :=
  { c with pipeline := { c.pipeline with build := { c.pipeline.build with extrapolateStorage := v } } }

end Fm2prof.Spec
