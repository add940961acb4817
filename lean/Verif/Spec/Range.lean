import Verif.Spec.Pipeline
import Verif.Spec.Roughness

/-!
# Within which range the results of a run are expected to lie
-/

namespace Fm2prof.Spec

open Fm2prof

variable {K : Type} [Field K] [LinearOrder K] [IsStrictOrderedRing K]

/-- The value of a series, unless it is missing; `-999` also stands for a missing value. -/
def valueAt (series : Nat → Option K) (t : Nat) : Option K := (series t).filter (· ≠ -999)

/-- The maps that are used: the first `s` of the `n` maps are skipped. -/
def UsedMap (s n t : Nat) : Prop := s ≤ t ∧ t < n

/-- The data of a face are physical: no negative depths, and the level is only missing when the face is dry. -/
structure PhysicalSeries (s n : Nat) (c : Cell K) : Prop where
  depth : ∀ t, UsedMap s n t → ∀ d, valueAt c.depth t = some d → 0 ≤ d
  dry : ∀ t, UsedMap s n t → valueAt c.level t = none → ∀ d, valueAt c.depth t = some d → d = 0

/-- The bed of a face is nowhere below `bed` and its water nowhere above `top`. -/
structure SeriesBetween (s n : Nat) (c : Cell K) (bed top : K) : Prop where
  bed : ∀ t, UsedMap s n t → ∀ x d, valueAt c.level t = some x → valueAt c.depth t = some d → bed ≤ x - d
  top : ∀ t, UsedMap s n t → ∀ x, valueAt c.level t = some x → x ≤ top

/-- The level of a face is known at every map that is used and rises from each of these to the next. -/
def RisesThroughout (s n : Nat) (c : Cell K) : Prop :=
  ∀ t, UsedMap s n t → ∃ x, valueAt c.level t = some x ∧ ∀ t' y, UsedMap s n t' → t < t' → valueAt c.level t' = some y → x < y

/-- A face assigned to a cross-section, for which no other such face is nearer to its location. -/
def IsNearest (m : Model2d K) (l : Loc K) (r : Nat) : Prop :=
  r ∈ rowsOf m.faces.sclass l.id ∧ ∀ r' ∈ rowsOf m.faces.sclass l.id, ∀ x y x' y', m.faces.x[r]? = some x → m.faces.y[r]? = some y →
    m.faces.x[r']? = some x' → m.faces.y[r']? = some y' →
      (x - l.x) ^ 2 + (y - l.y) ^ 2 ≤ (x' - l.x) ^ 2 + (y' - l.y) ^ 2

/-- The summed area of the faces assigned to a cross-section. -/
def faceArea (m : Model2d K) (l : Loc K) : K := ((rowsOf m.faces.sclass l.id).map fun r => (m.faces.area[r]?).getD 0).sum

end Fm2prof.Spec
