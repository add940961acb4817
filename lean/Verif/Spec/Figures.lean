import Verif.Model.Export
import Verif.Spec.Export

/-!
# Specification: figures of the results
-/

namespace Fm2prof.Spec

variable {K : Type} [Field K] [LinearOrder K] [IsStrictOrderedRing K] [FloorRing K]

/-- A name of the form `branch_number`. -/
def RiverName (ft : FloatText K) (name branch : Text) (x : K) : Prop :=
  ∃ number, name = branch ++ '_' :: number ∧ '_' ∉ number ∧ ft.parse number = some x

/-- The column that each label of the volume graph is about. -/
def labelledColumn (v : VolumeTable K) : List (String × List (Option K)) :=
  [("1D Total Volume (incl. SD)", v.tvsd1d), ("1D Total Volume (excl. SD)", v.tv1d),
    ("1D Flow Volume (incl. SD)", v.fvsd1d), ("1D Flow Volume (excl. SD)", v.fv1d),
    ("2D Total Volume", v.tv2d), ("2D Flow Volume", v.fv2d)]

/-- A value lies between the smallest and largest of a list, and both occur. -/
def IsRange (l : List K) (lo hi : K) : Prop := lo ∈ l ∧ hi ∈ l ∧ ∀ a ∈ l, lo ≤ a ∧ a ≤ hi

end Fm2prof.Spec
