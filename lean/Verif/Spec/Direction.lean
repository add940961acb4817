import Verif.Spec.Conveyance

/-!
# Maps that differ in the direction of the flow
-/

namespace Fm2prof.Spec

open Fm2prof

variable {K : Type} [Field K]

/-- The square of a velocity with two components, missing when one of them is. -/
def sqSpeed (u v : Option K) : Option K := u.bind fun a => v.map fun b => a ^ 2 + b ^ 2

/-- Columns of series of the same lengths. -/
def SameShape (c c' : List (List (Option K))) : Prop := c'.map List.length = c.map List.length

/-- Other components of the velocities with the same size of the velocity at each face and map. -/
structure SameSpeeds (vx vy vx' vy' : List (List (Option K))) : Prop where
  x : SameShape vx vx'
  y : SameShape vy vy'
  size : ∀ (k t : Nat), sqSpeed (vx'[k]?.bind fun r => r[t]?.join) (vy'[k]?.bind fun r => r[t]?.join) =
    sqSpeed (vx[k]?.bind fun r => r[t]?.join) (vy[k]?.bind fun r => r[t]?.join)

end Fm2prof.Spec
