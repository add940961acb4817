/-!
# The 2D data of a control volume

Only data: no function of the code is modelled here. The specifications use these structures too.
-/

namespace Fm2prof

/-- One face of the control volume with its series (data_import.py:271-287): area, bed level, water depth, water
level and velocity magnitude. -/
structure Cell (K : Type) where
  area : K
  bed : K
  depth : Nat → Option K
  level : Nat → Option K
  velocity : Nat → Option K

/-- The 2D data of one control volume. -/
structure ControlVolume (K : Type) where
  nMaps : Nat
  cells : List (Cell K)

end Fm2prof
