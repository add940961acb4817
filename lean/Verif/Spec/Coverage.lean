import Verif.Spec.Project

/-!
# What the polygons of a file cover

The label that polygons give a point depends on which labels cover it, not on how the area with a label is cut up into polygons.
-/

namespace Fm2prof.Spec

open Fm2prof

variable {K : Type}

/-- A polygon with a label contains a point. -/
def Covers (inside : Ring K → Pt K → Bool) (property : String) (ps : List (Polygon K)) (p : Pt K) (label : Option String) : Prop :=
  ∃ q ∈ ps, inside q.coordinates p = true ∧ q.properties.get property = label

/-- Polygons of different labels do not overlap at any of the points. -/
def OneLabel (inside : Ring K → Pt K → Bool) (property : String) (ps : List (Polygon K)) (pts : List (Pt K)) : Prop :=
  ∀ p ∈ pts, ∀ l l', Covers inside property ps p l → Covers inside property ps p l' → l = l'

/-- Two lists of polygons cover the points with the same labels. -/
def SameCover (inside : Ring K → Pt K → Bool) (property : String) (ps ps' : List (Polygon K)) (pts : List (Pt K)) : Prop :=
  ∀ p ∈ pts, ∀ l, Covers inside property ps' p l ↔ Covers inside property ps p l

/-- The same features in another order. -/
def SameFeatures : Option (PolygonFile K) → Option (PolygonFile K) → Prop
  | none, none => True
  | some .damaged, some .damaged => True
  | some (.features l), some (.features l') => l.Perm l'
  | _, _ => False

end Fm2prof.Spec
