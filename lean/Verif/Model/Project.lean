import Verif.Model.Pipeline
import Verif.Model.IniFile
import Verif.Model.Polygons
import Verif.Model.Stats

/-!
# A project on its files

Puts the configuration, the location file, the polygon files with their cache and the map file together with a run
(`Model/Pipeline.lean`), the way `Fm2ProfRunner` does. The result of a call of `run` is a function of the configuration and of the
files.

Simplifications: what is in a map file is given (`Model/MapFile.lean` models how it is read), and the content of a polygon file after parsing
it as JSON. Names of properties in polygon files are texts.
-/

namespace Fm2prof

variable {K : Type} [Field K] [LinearOrder K] [IsStrictOrderedRing K] [FloorRing K]

/-! ## Settings -/

/-- The settings that a run reads from the configuration. -/
structure Settings (K : Type) where
  run : RunConfig K
  defaultRegion : Text
  defaultSection : Text
  mapPath : Text
  cssPath : Text
  regionPath : Text
  sectionPath : Text
  mapIsText : Bool

/-- `get_parameter` (ini_file.py:202-220) of a number that is a whole number. -/
def intSetting (key : String) (c : Config K) : Option Int :=
  match getParameter key.toList c with
  | .ok (some (.int n)) => some n
  | _ => none

/-- `get_parameter` (ini_file.py:202-220) of a number. Python's whole numbers can be used as well. -/
def numberSetting (key : String) (c : Config K) : Option K :=
  match getParameter key.toList c with
  | .ok (some (.float x)) => some x
  | .ok (some (.int n)) => some n
  | _ => none

/-- `bool(value)`: what `if get_parameter(...)` tests. -/
def truthy : ConfigValue K → Bool
  | .str t => decide (t ≠ [])
  | .int n => decide (n ≠ 0)
  | .float x => decide (x ≠ 0)
  | .bool b => b
  | .list l => decide (l ≠ [])
  | .path _ => true

/-- `get_parameter` (ini_file.py:202-220) of a switch. -/
def switchSetting (key : String) (c : Config K) : Option Bool :=
  match getParameter key.toList c with
  | .ok (some v) => some (truthy v)
  | _ => none

/-- `get_parameter` (ini_file.py:202-220) of a text. -/
def textSetting (key : String) (c : Config K) : Option Text :=
  match getParameter key.toList c with
  | .ok (some (.str t)) => some t
  | _ => none

/-- `get_parameter("CssSelection")` as used in `_get_css_range` (fm2prof_runner.py:602-609): nothing selected means all. -/
def selectionSetting (c : Config K) : Option (List Int) :=
  match getParameter "CssSelection".toList c with
  | .ok (some (.list l)) => some l
  | .ok (some v) => if truthy v then none else some []
  | _ => none

/-- `get_input_file` (ini_file.py:190-200) as a path. -/
def inputPath (ft : FloatText K) (key : String) (c : Config K) : Option Text :=
  match getInputFile key.toList c with
  | .ok v => some (valueText ft v)
  | .error _ => none

/-- Whether an input file (ini_file.py:190-200, 222-224) is kept as a Python text. The files of a configuration file are kept as `Path`
(ini_file.py:395-410), those that are set are kept as they are given. -/
def inputIsText (key : String) (c : Config K) : Bool :=
  match getInputFile key.toList c with
  | .ok (.str _) => true
  | _ => false

/-- The parameters read in cross_section.py (126-134 and the calls of `get_parameter`) and fm2prof_runner.py. `none` if a number is
missing or has been set to something else: what the code does then is not modelled. -/
def runConfigOf (c : Config K) : Option (RunConfig K) := do
  let skipMaps ← intSetting "SkipMaps" c
  let lakeTimesteps ← intSetting "LakeTimesteps" c
  let absolute ← numberSetting "AbsoluteVelocityThreshold" c
  let relative ← numberSetting "RelativeVelocityThreshold" c
  let method ← intSetting "ConveyanceDetectionMethod" c
  let extrapolate ← switchSetting "extrapolatestorage" c
  let correction ← switchSetting "SDCorrection" c
  let optimisation ← intSetting "sdoptimisationmethod" c
  let height ← numberSetting "SDTransitionHeight" c
  let width ← numberSetting "MinimumTotalWidth" c
  let points ← intSetting "MaximumPointsInProfile" c
  let friction ← intSetting "FrictionweighingMethod" c
  let tolerance ← numberSetting "sdfloodplainbase" c
  let selection ← selectionSetting c
  let cssData ← switchSetting "ExportCSSData" c
  let mapFiles ← switchSetting "ExportMapFiles" c
  return {
    pipeline := {
      build := {
        skipMaps := skipMaps, lakeTimesteps := lakeTimesteps, absoluteVelocityThreshold := absolute
        relativeVelocityThreshold := relative, conveyanceDetectionMethod := method, extrapolateStorage := extrapolate }
      sdCorrection := correction, sdOptimisationMethod := optimisation, sdTransitionHeight := height
      minimumWidth := width, maximumPoints := points }
    frictionWeighing := friction, floodplainTolerance := tolerance, cssSelection := selection
    exportCssData := cssData, exportMapFiles := mapFiles }

/-- All settings of a run: the parameters, and those read in `_initialise_fm2prof` and `_set_fm_model_data`
(fm2prof_runner.py:223-226, 421-426). -/
def settingsOf (ft : FloatText K) (c : Config K) : Option (Settings K) := do
  let run ← runConfigOf c
  let region ← textSetting "DefaultRegion" c
  let sect ← textSetting "DefaultSection" c
  let mapPath ← inputPath ft "2DMapOutput" c
  let cssPath ← inputPath ft "CrossSectionLocationFile" c
  let regionPath ← inputPath ft "RegionPolygonFile" c
  let sectionPath ← inputPath ft "SectionPolygonFile" c
  return ⟨run, region, sect, mapPath, cssPath, regionPath, sectionPath, inputIsText "2DMapOutput" c⟩

/-! ## Files -/

/-- A map file: what `import_dflow2d` makes of it, the nodes, the numbers of the first nodes of faces and internal edges
(polygon_file.py:293-327), and the modification time and size (polygon_file.py:196-197). -/
structure MapFile (K : Type) where
  data : Except PyErr (MapData K)
  nodes : List (Pt K)
  faceNodes : List Nat
  edgeNodes : List Nat
  stamp : Nat × Nat

/-- A polygon file: not JSON, or the list of features in it. -/
inductive PolygonFile (K : Type) where
  | damaged
  | features (l : List (Feature K))

/-- The labels kept in a cache file, of the faces and of the edges; `none` is null. -/
abbrev Labels := List (Option String) × List (Option String)

/-- What is in a cache file: no JSON, as when its writing was interrupted, or labels. Simplification: JSON of another kind is not
considered. -/
inductive CacheContent where
  | damaged
  | labels (c : CacheFile (Nat × Nat) Labels)

/-- The cache files, by path. -/
abbrev Caches := Text → Option CacheContent

/-- The files of a project, by path. -/
structure ProjectFiles (K : Type) where
  maps : Text → Option (MapFile K)
  texts : Text → Option Text
  polygons : Text → Option (PolygonFile K)
  caches : Caches

/-- MeshKernel and shapely: whether a ring contains a node, and whether a point is within a ring. -/
structure Geometries (K : Type) where
  inside : Ring K → Pt K → Bool
  within : Pt K → Ring K → Bool

/-! ## Reading -/

/-- The entries of the location table (data_import.py:302-327, `css_data_list`). -/
def locationsOf (c : CssColumns K) : List (Loc K) :=
  ((c.id.zip c.xy).zip (c.length.zip (c.branchid.zip c.chainage))).map fun p =>
    ⟨p.1.1, p.1.2.1, p.1.2.2, p.2.1, p.2.2.1, p.2.2.2⟩

/-- `MultiPolygon.from_file` (polygon_file.py:345-371) with `_validate_extension` (polygon_file.py:399-405). A file of length zero
is not JSON. -/
def readPolygons (d : ProjectFiles K) (path : Text) : Except PyErr (List (Polygon K)) :=
  match validateExtension path with
  | .error e => .error e
  | .ok _ =>
    match d.polygons path with
    | none => .error .osError
    | some .damaged => .error .polygonError
    | some (.features l) => polygonsFromFile l

/-- `SectionPolygon.from_file` (polygon_file.py:501-509). -/
def readSections (d : ProjectFiles K) (path : Text) : Except PyErr (List (Polygon K)) :=
  match readPolygons d path with
  | .error e => .error e
  | .ok ps => validateSections ps

/-- The labels of faces and edges (polygon_file.py:206-207). -/
def freshLabels (g : Geometries K) (property default : String) (ps : List (Polygon K)) (m : MapFile K) : Except PyErr Labels :=
  match gridPointLabels g.inside property default ps m.nodes m.faceNodes with
  | .error e => .error e
  | .ok faces =>
    match gridPointLabels g.inside property default ps m.nodes m.edgeNodes with
    | .error e => .error e
    | .ok edges => .ok (faces, edges)

/-- Writing a cache file (polygon_file.py:259-270). -/
def storeCache (key : Text) (c : CacheContent) (files : Caches) : Caches := fun k => if k = key then some c else files k

/-- `_load_cache` (polygon_file.py:253-257), if there is a file. `JSONDecodeError` is a `ValueError`. -/
def readCache : Option CacheContent → Except PyErr (Option (CacheFile (Nat × Nat) Labels))
  | none => .ok none
  | some .damaged => .error .valueError
  | some (.labels c) => .ok (some c)

/-- `get_gridpoints_in_polygon` (polygon_file.py:174-223) as it is called in a run with a `Path`: the labels, and the cache files afterwards. -/
def gridLabels (g : Geometries K) (property default : String) (ps : List (Polygon K)) (path : Text) (m : MapFile K)
    (caches : Caches) :
    Except PyErr Labels × Caches :=
  match withSuffix ('.' :: property.toList ++ "_cache.json".toList) path with
  | .error e => (.error e, caches)
  | .ok key =>
    match readCache (caches key) with
    | .error e => (.error e, caches)
    | .ok kept =>
      match kept.filter fun c => c.stamp = m.stamp with
      | some c => (.ok c.result, caches)
      | none =>
        match freshLabels g property default ps m with
        | .error e => (.error e, caches)
        | .ok ls => (.ok ls, storeCache key (.labels ⟨m.stamp, ls⟩) caches)

/-- The first statement of `get_gridpoints_in_polygon` (polygon_file.py:196): a text has no `stat`. -/
def gridLabelsAt (isText : Bool) (g : Geometries K) (property default : String) (ps : List (Polygon K)) (path : Text) (m : MapFile K)
    (caches : Caches) :
    Except PyErr Labels × Caches :=
  if isText then (.error .attributeError, caches) else gridLabels g property default ps path m caches

/-- Labels as texts. Simplification: a label is null where the polygon lacks the property, which is possible for regions. pandas finds
null equal to nothing, so that `predict` raises `ValueError` for want of points when a cross-section is there; the model always stops with
this error. -/
def labelTexts : List (Option String) → Except PyErr (List Text)
  | [] => .ok []
  | none :: _ => .error .valueError
  | some l :: ls =>
    match labelTexts ls with
    | .error e => .error e
    | .ok ts => .ok (l.toList :: ts)

/-- The labels of the locations (fm2prof_runner.py:446). -/
def locationLabels (g : Geometries K) (default : String) (ps : List (Polygon K)) (css : List (Loc K)) : Except PyErr (List Text) :=
  labelTexts (css.map fun l => pointLabel g.within "region" default ps (l.x, l.y))

/-- The labels of regions (fm2prof_runner.py:439-446). -/
def regionLabels (g : Geometries K) (default : String) (ps : List (Polygon K)) (css : List (Loc K)) (labels : Labels) :
    Except PyErr RegionLabels :=
  match labelTexts labels.1, labelTexts labels.2, locationLabels g default ps css with
  | .ok faces, .ok edges, .ok locations => .ok ⟨faces, edges, locations⟩
  | _, _, _ => .error .valueError

/-- The labels of sections (fm2prof_runner.py:469-472). -/
def sectionLabels (labels : Labels) : Except PyErr SectionLabels :=
  match labelTexts labels.1, labelTexts labels.2 with
  | .ok faces, .ok edges => .ok ⟨faces, edges⟩
  | _, _ => .error .valueError

/-- `RegionPolygon(...)` if there is a file (fm2prof_runner.py:421-423). -/
def optionalRegions (d : ProjectFiles K) (path : Text) : Except PyErr (Option (List (Polygon K))) :=
  if path = [] then .ok none else (readPolygons d path).map some

/-- `SectionPolygon(...)` if there is a file (fm2prof_runner.py:424-426). -/
def optionalSections (d : ProjectFiles K) (path : Text) : Except PyErr (Option (List (Polygon K))) :=
  if path = [] then .ok none else (readSections d path).map some

/-- What `_set_fm_model_data` reads (fm2prof_runner.py:405-472), and the cache files afterwards. Simplification: the labels of the
sections are found before the points are assigned to cross-sections; when both raise, the exception can be another one and the cache of
the sections has been written. -/
def projectInputs (ft : FloatText K) (g : Geometries K) (c : Settings K) (m : MapFile K) (d : ProjectFiles K) :
    Inputs K × Caches :=
  let css := (cssFile ft ',' (d.texts c.cssPath)).map locationsOf
  match m.data, css, optionalRegions d c.regionPath, optionalSections d c.sectionPath with
  | .error e, _, _, _ => (⟨.error e, css, none, none⟩, d.caches)
  | .ok a, .error e, _, _ => (⟨.ok a, .error e, none, none⟩, d.caches)
  | .ok a, .ok l, .error e, _ => (⟨.ok a, .ok l, some (.error e), none⟩, d.caches)
  | .ok a, .ok l, .ok _, .error e => (⟨.ok a, .ok l, none, some (.error e)⟩, d.caches)
  | .ok a, .ok l, .ok regions, .ok sections =>
    match regions with
    | none =>
      match sections with
      | none => (⟨.ok a, .ok l, none, none⟩, d.caches)
      | some ss =>
        match gridLabelsAt c.mapIsText g "section" (String.ofList c.defaultSection) ss c.mapPath m d.caches with
        | (ls, k) => (⟨.ok a, .ok l, none, some (ls.bind sectionLabels)⟩, k)
    | some rs =>
      match gridLabelsAt c.mapIsText g "region" (String.ofList c.defaultRegion) rs c.mapPath m d.caches with
      | (.error e, k) => (⟨.ok a, .ok l, some (.error e), none⟩, k)
      | (.ok labels, k) =>
        match sections with
        | none => (⟨.ok a, .ok l, some (regionLabels g (String.ofList c.defaultRegion) rs l labels), none⟩, k)
        | some ss =>
          match gridLabelsAt c.mapIsText g "section" (String.ofList c.defaultSection) ss c.mapPath m k with
          | (ls, k') =>
            (⟨.ok a, .ok l, some (regionLabels g (String.ofList c.defaultRegion) rs l labels), some (ls.bind sectionLabels)⟩, k')

/-- `run` (fm2prof_runner.py:121-153) of a project: the files in the output directory, the cache files and what is returned. Without
the map file or the location file, or when it is refused, a run reads nothing. -/
def projectRun (x : Tools K) (g : Geometries K) (o : Surroundings) (c : Settings K) (overwrite : Bool) (d : ProjectFiles K)
    (s : Store) : Store × ProjectFiles K × Except PyErr Bool :=
  match d.maps c.mapPath, d.texts c.cssPath with
  | some m, some _ =>
    let i := projectInputs x.ft g c m d
    let r := run (jobOf x c.run i.1 { o with configured := true, mapIsFile := true, cssIsFile := true }) overwrite s
    (r.1, { d with caches := if outputExists s && !overwrite then d.caches else i.2 }, r.2)
  | _, _ => (s, d, .ok false)

end Fm2prof
