import Verif.Spec.RoughnessOnly

/-!
# Maps with a larger roughness coefficient

A Chézy coefficient is larger where the bed is smoother.
-/

namespace Fm2prof.Spec

variable {K : Type} [Field K] [LinearOrder K]

/-- Two values of the roughness coefficient of an edge at a map: both are missing, both are zero (the edge is dry), or both are other
numbers and the second is not smaller than the first. -/
inductive NotRougher : Option K → Option K → Prop
  | missing : NotRougher none none
  | dry : NotRougher (some 0) (some 0)
  | wet (a b : K) : a ≠ 0 → b ≠ 0 → a ≤ b → NotRougher (some a) (some b)

/-- The same edges with the same maps, and nowhere rougher. -/
def NowhereRougher (chezy chezy' : List (List (Option K))) : Prop := List.Forall₂ (List.Forall₂ NotRougher) chezy chezy'

end Fm2prof.Spec
