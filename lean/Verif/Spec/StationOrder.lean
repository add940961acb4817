import Verif.Spec.InvarianceRun

/-!
# The order of the cross-sections in the location file
-/

namespace Fm2prof.Spec

open Fm2prof

variable {K : Type} [Field K] [LinearOrder K] [IsStrictOrderedRing K]

/-- The input of a run with these cross-sections in the location file, in this order, each with the region it lies in. `regions`:
there are region polygons. `sections`: there are section polygons. -/
def inputsAt (faces : List (InFace K)) (edges : List (InEdge K)) (edgeFaces : Option (List (Int × Int))) (nMaps : Nat)
    (st : List (Loc K × Text)) (regions sections : Bool) : Inputs K :=
  inputsOf faces edges edgeFaces nMaps (st.map (·.1)) (if regions then some (st.map (·.2)) else none) sections

/-- It is clear for all faces and edges to which cross-section they belong. -/
def ClearAll (faces : List (InFace K)) (edges : List (InEdge K)) (st : List (Loc K × Text)) (regions : Bool) : Prop :=
  ClearCss faces edges (st.map (·.1)) (if regions then some (st.map (·.2)) else none)

end Fm2prof.Spec
