import Verif.Model.Classify
import Verif.Spec.Build

/-!
# Specifications for the assignment of 2D points
-/

namespace Fm2prof.Spec

variable {K : Type} [Field K] [LinearOrder K] [IsStrictOrderedRing K]
variable {ι : Type} [DecidableEq ι]

/-- The square of the distance between two points. -/
def squaredDistance (a b : Pt K) : K := (a.1 - b.1) ^ 2 + (a.2 - b.2) ^ 2

/-- `id` is the id of a cross-section of the list that is nearest to `p`: no other is nearer. -/
def NearestId (css : List (Station ι K)) (p : Pt K) (id : ι) : Prop :=
  ∃ c ∈ css, c.id = id ∧ ∀ c' ∈ css, squaredDistance c.pos p ≤ squaredDistance c'.pos p

/-- The cross-sections of a region. -/
def inRegion (css : List (Station ι K)) (r : ι) : List (Station ι K) := css.filter fun c => c.region = r

/-- The variance: the mean of the squared deviations from the mean. -/
def variance (l : List K) : K := mean (l.map fun x => (x - mean l) ^ 2)

/-- The larger of the variances of the values above and the values not above `split`. -/
def worstVariance (values : List K) (split : K) : K :=
  max (variance (values.filter (split < ·))) (variance (values.filter (· ≤ split)))

/-- The rows that carry a label, in grid order. -/
def rowsOf (labels : List ι) (name : ι) : List Nat :=
  (List.range labels.length).filter fun (i : Nat) => labels[i]? = some name

/-- The values of a column in given rows. -/
def atRows {α : Type} (rows : List Nat) (column : List α) : List α := rows.filterMap fun i => column[i]?

end Fm2prof.Spec
