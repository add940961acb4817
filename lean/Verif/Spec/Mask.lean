import Verif.Model.Mask
import Verif.Spec.Runner

/-!
# What point files are expected to hold
-/

namespace Fm2prof.Spec

variable {K : Type}

/-- A face of the grid. -/
structure FaceRecord (K : Type) where
  x : Option K
  y : Option K
  region : Text
  sect : Text
  bed : Option K
  lake : Bool

/-- An edge of the grid. -/
structure EdgeRecord (K : Type) where
  x : Option K
  y : Option K
  sect : Text

/-- The data of a cross-section are those of the faces and edges, in this order. -/
def DataOf (d : MaskData K) (faces : List (FaceRecord K)) (edges : List (EdgeRecord K)) : Prop :=
  d.x = faces.map (·.x) ∧ d.y = faces.map (·.y) ∧ d.region = faces.map (·.region) ∧ d.sect = faces.map (·.sect) ∧
    d.bedlevel = faces.map (·.bed) ∧ d.islake = faces.map (·.lake) ∧
    d.edgeX = edges.map (·.x) ∧ d.edgeY = edges.map (·.y) ∧ d.edgeSection = edges.map (·.sect)

/-- The point of a face: its rounded coordinates, the cross-section, and what is known of it. -/
def facePoint (round : K → K) (name : Text) (f : FaceRecord K) : PointFeature K :=
  { coords := [f.x.map round, f.y.map round]
    properties :=
      [("cross_section_id".toList, .text name), ("is_lake".toList, .bool f.lake), ("bedlevel".toList, .num f.bed),
        ("region".toList, .text f.region), ("section".toList, .text f.sect)] }

/-- The point of an edge. -/
def edgePoint (round : K → K) (name : Text) (e : EdgeRecord K) : PointFeature K :=
  { coords := [e.x.map round, e.y.map round]
    properties := [("cross_section_id".toList, .text name), ("section".toList, .text e.sect)] }

/-- A path leads to a file of a given name: the name comes last, after a slash if there is more. -/
def LeadsTo (path name : Text) : Prop :=
  '/' ∉ name ∧ name ≠ [] ∧ name ≠ ['.'] ∧ (path = name ∨ ∃ dir, path = dir ++ '/' :: name)

/-- A name with one of the known extensions. -/
def Known (name : Text) : Prop :=
  ∃ stem, stem ≠ [] ∧ (name = stem ++ ".json".toList ∨ name = stem ++ ".geojson".toList)

end Fm2prof.Spec
