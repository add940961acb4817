import Verif.Spec.Build
import Verif.Spec.Pipeline

/-! Specification of a river in which the water surface is horizontal. -/

namespace Fm2prof.Spec

variable {K : Type} [Field K] [LinearOrder K]

/-- In every map the water stands at the same level, `h`, over all faces that are lower; a face that is higher is dry, and its level is
then of no importance (a run takes it for missing). The water rises by more than a millimetre from each map to the next. -/
structure HorizontalWater (cv : ControlVolume K) (h : Nat → K) : Prop where
  level : ∀ c ∈ cv.cells, ∀ t < cv.nMaps, c.bed < h t → c.level t = some (h t)
  depth : ∀ c ∈ cv.cells, ∀ t < cv.nMaps, c.depth t = some (max (h t) c.bed - c.bed)
  rises : ∀ t, t + 1 < cv.nMaps → h t + 1 / 1000 < h (t + 1)
  known : ∀ t < cv.nMaps, -999 < h t

/-- The water that stands up to `level` above the beds of the faces, not counting what is below `base`. -/
def storage (base level : K) (cells : List (Cell K)) : K :=
  (cells.map fun c => c.area * max 0 (level - max c.bed base)).sum

/-- The faces of a loaded 2D model that are assigned to a location. -/
def facesOf (sqrt : K → K) (m : Model2d K) (l : Loc K) : List (Cell K) :=
  (rowsOf m.faces.sclass l.id).filterMap (gridCell sqrt m.faces)

/-- A point of a profile, a level and a width, lies on the curve of the area below each level over the length of the profile: it does so
for a level that is `err` lower at most, when beds are taken a millimetre higher or lower and small widths as the smallest width. -/
def OnBedCurve (cells : List (Cell K)) (len minWidth err : K) (point : K × K) : Prop :=
  ∃ y, y ≤ point.1 ∧ point.1 ≤ y + err ∧ areaOf (fun c => c.bed < y - 1 / 1000) cells / len ≤ point.2 ∧
    point.2 ≤ max minWidth (areaOf (fun c => c.bed < y + 1 / 1000) cells / len) + err

end Fm2prof.Spec
