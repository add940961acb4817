import Verif.Model.Polygons

/-!
# Specifications for polygon files and their cache
-/

namespace Fm2prof.Spec

variable {K : Type}

/-- The polygons that contain a point, in file order. -/
def containing (inside : Ring K → Pt K → Bool) (ps : List (Polygon K)) (p : Pt K) : List (Polygon K) :=
  ps.filter fun q => inside q.coordinates p

/-- The value of a property of a feature, whatever the case of its key; the last one counts. -/
def propertyOf (properties : List (String × String)) (key : String) : Option String :=
  (properties.reverse.find? fun p => p.1.toLower = key).map (·.2)

/-- A geometry that is a single polygon without holes. -/
def SinglePolygon (g : FeatureGeometry K) (ring : Ring K) : Prop := g = .polygon [ring] ∨ g = .multiPolygon [[ring]]

/-- The names of the sections that the exporters know. -/
def knownSections : List String := ["main", "floodplain1", "floodplain2"]

/-- The section a number stands for. -/
def numberedSection : String → String
  | "1" => "main"
  | "2" => "floodplain1"
  | "3" => "floodplain2"
  | s => s

end Fm2prof.Spec
