import Verif.Spec.Renamed

/-!
# Maps that differ in their roughness only

The same 2D model with other roughness values.
-/

namespace Fm2prof.Spec

open Fm2prof

variable {K : Type}

/-- The map with other roughness values: at the edges one series each, and the values of the faces at the last map. -/
def MapData.withRoughness (d : MapData K) (chezy : List (List (Option K))) (mean : List (List (Option K))) : MapData K :=
  { d with edges := { d.edges with chezy := chezy }, chezyMean := mean }

/-- The map with all roughness values multiplied by `k`. -/
def MapData.rougher [Mul K] (k : K) (d : MapData K) : MapData K :=
  MapData.withRoughness d (d.edges.chezy.map fun r => r.map (Option.map (k * ·))) (d.chezyMean.map fun r => r.map (Option.map (k * ·)))

/-- The files with roughness values: those for D-Flow 1D and the one for SOBEK 3. -/
def HoldsRoughness (f : Text) : Prop := IsRoughness f ∨ f = "roughness.csv".toList

end Fm2prof.Spec
