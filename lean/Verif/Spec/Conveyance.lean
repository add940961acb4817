import Verif.Spec.OneSetting

/-!
# Maps and configurations that differ in what conveys

The same 2D model with other velocities, and the same configuration with other criteria for the conveying part.
-/

namespace Fm2prof.Spec

open Fm2prof

variable {K : Type}

/-- The map with other velocities at the faces, in both directions. -/
def MapData.withVelocities (d : MapData K) (vx vy : List (List (Option K))) : MapData K :=
  { d with faces := { d.faces with velocityX := vx, velocityY := vy } }

/-- Other criteria for the conveying part: `ConveyanceDetectionMethod`, `AbsoluteVelocityThreshold`, `RelativeVelocityThreshold` and
`ExtrapolateStorage`. -/
def RunConfig.withConveyance (method : Int) (absolute relative : K) (extrapolate : Bool) (c : RunConfig K) : RunConfig K :=
  { c with
    pipeline := { c.pipeline with
      build := { c.pipeline.build with
        conveyanceDetectionMethod := method
        absoluteVelocityThreshold := absolute
        relativeVelocityThreshold := relative
        extrapolateStorage := extrapolate } } }

/-- Two definitions of the same cross-section with the same levels and the same total width at each of them. -/
def SameTotal [Field K] (d d' : CssDef K) : Prop :=
  d'.id = d.id ∧ d'.levels = d.levels ∧ d'.totalWidth = d.totalWidth

/-- Two definitions of the same cross-section that agree in the total volume behind summer dikes: crest level, total area and base
level. -/
def SameTotalDike [Field K] (d d' : CssDef K) : Prop :=
  d'.id = d.id ∧ d'.sdCrest = d.sdCrest ∧ d'.sdTotalArea = d.sdTotalArea ∧ d'.sdBaseLevel = d.sdBaseLevel

end Fm2prof.Spec
