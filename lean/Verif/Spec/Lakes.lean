import Verif.Spec.Stricter

/-!
# The map in which lakes are looked for
-/

namespace Fm2prof.Spec

open Fm2prof

variable {K : Type}

/-- The configuration with this value of `LakeTimesteps`. -/
def RunConfig.withLakeMap (v : Int) (c : RunConfig K) : RunConfig K :=
  { c with pipeline := { c.pipeline with build := { c.pipeline.build with lakeTimesteps := v } } }

/-- A series of `n` depths without gaps that do not fall. -/
def NoFall [LE K] [Zero K] (n : Nat) (d : Nat → Option K) : Prop :=
  ∀ s t, s ≤ t → t < n → ∃ x y, d s = some x ∧ d t = some y ∧ 0 ≤ x ∧ x ≤ y

end Fm2prof.Spec
