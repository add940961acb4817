import Mathlib.Algebra.Order.Field.Basic
import Mathlib.Algebra.BigOperators.Group.List.Basic
import Mathlib.Algebra.Order.Ring.Abs
import Verif.Model.Cell
import Verif.Spec.Geometry

/-!
# Specifications for building a profile from 2D data

Histories are functions from the map number to a value that may be missing.
-/

namespace Fm2prof.Spec

variable {K : Type} [Field K] [LinearOrder K]

/-- A cell is wet at map `t`. -/
def Wet (depth : Nat → Option K) (t : Nat) : Prop := ∃ d, depth t = some d ∧ 0 < d

/-- A cell is a lake: wet at map `L`, and there at most 1 cm different from the first map. -/
def IsLake (depth : Nat → Option K) (L : Nat) : Prop :=
  ∃ dL d0, depth L = some dL ∧ depth 0 = some d0 ∧ 0 < dL ∧ |dL - d0| ≤ 1 / 100

/-- The depth rises by more than 1 mm from map `s` to the next; a missing depth counts as a rise. -/
def RisesAt (depth : Nat → Option K) (s : Nat) : Prop :=
  ∀ a b, depth s = some a → depth (s + 1) = some b → 1 / 1000 < b - a

/-- A cell counts for the wet area at map `t`: it is wet, and if it is a lake it has started to rise. -/
def Counts (depth : Nat → Option K) (L t : Nat) : Prop :=
  Wet depth t ∧ (IsLake depth L → ∃ s < t, RisesAt depth s)

open Classical in
/-- Total area of the cells with a property. -/
noncomputable def areaOf (P : Cell K → Prop) (cells : List (Cell K)) : K :=
  ((cells.filter fun c => decide (P c)).map (·.area)).sum

/-- `top` are the `n` largest of the values `vs` (all of them if there are fewer). -/
def Largest (n : Nat) (vs top : List K) : Prop :=
  ∃ rest, vs.Perm (top ++ rest) ∧ top.length = min n vs.length ∧ ∀ a ∈ rest, ∀ b ∈ top, a ≤ b

/-- The mean of a list of numbers. -/
def mean (l : List K) : K := l.sum / (l.length : K)

/-- The values present in a list with missing ones. -/
def present (l : List (Option K)) : List K := l.filterMap id

/-- The `n + 1` equidistant values from `a` to `b`. -/
def equidistant (n : Nat) (a b : K) : List K :=
  (List.range (n + 1)).map fun (k : Nat) => a + (k : K) * (b - a) / (n : K)

/-- `acc` are, in order, the maps that contribute a profile point. -/
def AcceptedMaps (levels : List (Option K)) (acc : List Nat) : Prop :=
  acc.Pairwise (· < ·) ∧ ∀ i, i ∈ acc ↔ i < levels.length ∧ Rising levels i

open Classical in
/-- Depth above the initial depth of a lake, above the bed for other cells; missing when negative. -/
noncomputable def aboveRest (depth : Nat → Option K) (L t : Nat) : Option K :=
  (depth t).bind fun d =>
    if (if IsLake depth L then (depth 0).getD 0 else 0) ≤ d then
      some (d - (if IsLake depth L then (depth 0).getD 0 else 0))
    else none

open Classical in
/-- Depth used for volumes: cells that at the first map are deeper than the centre (depth `e`) lose the excess. -/
noncomputable def netDepth (depth : Nat → Option K) (L : Nat) (e : K) (t : Nat) : Option K :=
  (aboveRest depth L t).map fun d =>
    if (∃ d0, aboveRest depth L 0 = some d0 ∧ e < d0) then d - ((aboveRest depth L 0).getD 0 - e) else d

open Classical in
/-- Total volume over the cells with a property; cells with missing depth contribute nothing. -/
noncomputable def volumeOf (P : Cell K → Prop) (net : Cell K → Option K) (cells : List (Cell K)) : K :=
  ((cells.filter fun c => decide (P c)).map fun c => c.area * (net c).getD 0).sum

/-- Rows `i - 5` to `i + 4` of a column, as far as they exist. -/
def window (col : List (Option K)) (i : Nat) : List (Option K) :=
  (List.range' (i - 5) (min (i + 5) col.length - (i - 5))).map fun j => (col[j]?).join

/-- Mean of the values present, if any. -/
def meanPresent (l : List (Option K)) : Option K :=
  if present l = [] then none else some (mean (present l))

/-- The lowest bed seen at a location: `b` is the least level minus depth over the maps that have both. -/
def IsBedLevel (n : Nat) (level depth : Nat → Option K) (b : K) : Prop :=
  (∃ t < n, ∃ x d, level t = some x ∧ depth t = some d ∧ b = x - d) ∧
    ∀ t < n, ∀ x d, level t = some x → depth t = some d → b ≤ x - d

end Fm2prof.Spec
