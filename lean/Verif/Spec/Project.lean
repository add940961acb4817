import Verif.Model.Project
import Verif.Spec.Pipeline
import Verif.Spec.Polygons
import Verif.Spec.IniFile

/-! Specification of projects: what each parameter sets, and the labels that polygons give. -/

namespace Fm2prof.Spec

open Fm2prof

variable {K : Type} [Field K] [LinearOrder K] [IsStrictOrderedRing K] [FloorRing K]

/-- The locations of a location file, row by row. -/
structure RowsOf (c : CssColumns K) (ls : List (Loc K)) : Prop where
  id : ls.map (·.id) = c.id
  points : (ls.map fun l => (l.x, l.y)) = c.xy
  length : ls.map (·.length) = c.length
  branch : ls.map (·.branch) = c.branchid
  chainage : ls.map (·.chainage) = c.chainage

/-- Another way of building cross-sections. -/
def withBuild (f : BuildConfig K → BuildConfig K) (c : RunConfig K) : RunConfig K :=
  { c with pipeline := { c.pipeline with build := f c.pipeline.build } }

/-- Another way of finishing cross-sections. -/
def withPipeline (f : PipelineConfig K → PipelineConfig K) (c : RunConfig K) : RunConfig K := { c with pipeline := f c.pipeline }

/-- The parameters that are whole numbers, with what they set. -/
def wholeNumbers : List (String × (Int → RunConfig K → RunConfig K)) :=
  [("MaximumPointsInProfile", fun n => withPipeline fun p => { p with maximumPoints := n }),
    ("ConveyanceDetectionMethod", fun n => withBuild fun b => { b with conveyanceDetectionMethod := n }),
    ("LakeTimesteps", fun n => withBuild fun b => { b with lakeTimesteps := n }),
    ("SDOptimisationMethod", fun n => withPipeline fun p => { p with sdOptimisationMethod := n }),
    ("FrictionWeighingMethod", fun n c => { c with frictionWeighing := n }),
    ("SkipMaps", fun n => withBuild fun b => { b with skipMaps := n })]

/-- The parameters that are numbers, with what they set. -/
def decimalNumbers : List (String × (K → RunConfig K → RunConfig K)) :=
  [("AbsoluteVelocityThreshold", fun v => withBuild fun b => { b with absoluteVelocityThreshold := v }),
    ("RelativeVelocityThreshold", fun v => withBuild fun b => { b with relativeVelocityThreshold := v }),
    ("SDFloodplainBase", fun v c => { c with floodplainTolerance := v }),
    ("SDTransitionHeight", fun v => withPipeline fun p => { p with sdTransitionHeight := v }),
    ("MinimumTotalWidth", fun v => withPipeline fun p => { p with minimumWidth := v })]

/-- The parameters that are switches, with what they set. -/
def switches : List (String × (Bool → RunConfig K → RunConfig K)) :=
  [("ExtrapolateStorage", fun v => withBuild fun b => { b with extrapolateStorage := v }),
    ("SDCorrection", fun v => withPipeline fun p => { p with sdCorrection := v })]

/-- The parameters that are names, with what they set. -/
def names : List (String × (Text → Settings K → Settings K)) :=
  [("DefaultSection", fun t c => { c with defaultSection := t }), ("DefaultRegion", fun t c => { c with defaultRegion := t })]

/-- A path as it can be given: as a text or as a `Path`. -/
def givenPath (isText : Bool) (path : Text) : ConfigValue K := if isText then .str path else .path path

/-- The input files, with what setting them changes, to a text or to a `Path`. -/
def inputFiles : List (String × (Bool → Text → Settings K → Settings K)) :=
  [("2DMapOutput", fun b t c => { c with mapPath := t, mapIsText := b }), ("CrossSectionLocationFile", fun _ t c => { c with cssPath := t }),
    ("RegionPolygonFile", fun _ t c => { c with regionPath := t }), ("SectionPolygonFile", fun _ t c => { c with sectionPath := t })]

/-- Settings with another way of running. -/
def withRun (f : RunConfig K → RunConfig K) (c : Settings K) : Settings K := { c with run := f c.run }

/-- Whether a text is a value of a type. -/
def IsValueOf : ConfigType → ConfigValue K → Prop
  | .str, .str _ => True
  | .int, .int _ => True
  | .float, .float _ => True
  | .float, .int _ => True
  | .bool, .bool _ => True
  | .list, .list _ => True
  | _, _ => False

/-- The label that polygons give a point: that of the last one that contains it, or the default. -/
def polygonLabel (inside : Ring K → Pt K → Bool) (property default : String) (ps : List (Polygon K)) (p : Pt K) : Option String :=
  match (containing inside ps p).getLast? with
  | none => some default
  | some q => q.properties.get property

/-- The label that polygons give a location: that of the first one that contains it, or the default. -/
def locationLabel (within : Pt K → Ring K → Bool) (property default : String) (ps : List (Polygon K)) (p : Pt K) : Option String :=
  match (containing (fun r q => within q r) ps p).head? with
  | none => some default
  | some q => q.properties.get property

/-- The labels of faces or edges are those that polygons give to their first nodes. -/
def LabelledBy (inside : Ring K → Pt K → Bool) (property default : String) (ps : List (Polygon K)) (nodes : List (Pt K))
    (firstNodes : List Nat) (labels : List Text) : Prop :=
  labels.length = firstNodes.length ∧ ∀ (i n : Nat), firstNodes[i]? = some n → ∃ p l, nodes[n - 1]? = some p ∧
    polygonLabel inside property default ps p = some l ∧ labels[i]? = some l.toList

/-- There is a cache file for the map file as it is now. -/
def Cached (d : ProjectFiles K) (property : String) (path : Text) (m : MapFile K) : Prop :=
  ∃ key c, withSuffix ('.' :: property.toList ++ "_cache.json".toList) path = .ok key ∧ d.caches key = some (.labels c) ∧ c.stamp = m.stamp

end Fm2prof.Spec
