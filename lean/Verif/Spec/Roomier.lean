import Mathlib.Data.List.Forall2
import Verif.Spec.Horizontal
import Verif.Spec.Range
import Verif.Spec.Stricter

/-!
# Larger control volumes
-/

namespace Fm2prof.Spec

open Fm2prof

variable {K : Type} [Field K] [LinearOrder K] [IsStrictOrderedRing K]

/-- Two faces with the same bed, depths and levels. -/
def SameSurface (c c' : Cell K) : Prop := c'.bed = c.bed ∧ c'.depth = c.depth ∧ c'.level = c.level

/-- The second face has the same bed, depths and levels, and at least the area of the first one. -/
def Roomier (c c' : Cell K) : Prop := SameSurface c c' ∧ c.area ≤ c'.area

/-- The second 2D model has more room at a location: its faces there are those of the first model, as large or larger and in the same
order, and possibly other ones between them; the faces nearest to the location have the same bed, depths and levels. -/
structure RoomierAt [FloorRing K] (sqrt : K → K) (m m' : Model2d K) (l : Loc K) : Prop where
  faces : List.SublistForall₂ Roomier (facesOf sqrt m l) (facesOf sqrt m' l)
  nearest : ∀ r r' c c', IsNearest m l r → IsNearest m' l r' → gridCell sqrt m.faces r = some c → gridCell sqrt m'.faces r' = some c' →
    SameSurface c c'

end Fm2prof.Spec
