import Verif.Model.Correction
import Verif.Model.Locations
import Verif.Model.Mask

/-!
# A run on its data

Puts the models of the other modules together the way `Fm2ProfRunner` does: `_set_fm_model_data`,
`_create_new_cross_section`, `_build_cross_section_geometry`, `_build_cross_section_roughness`, the exporters as they are
called by `_write_output`, and the point files. The result is a `Job`, so that `run` of `Model/Runner.lean` is the whole
program from the imported data to the files.

A run starts from the columns found in the map file (`Model/MapFile.lean` models the import). Polygons are given by the labels of the
points (`Model/Polygons.lean` models how they are found).
-/

namespace Fm2prof

variable {K : Type} [Field K] [LinearOrder K] [IsStrictOrderedRing K]

/-! ## Loading -/

/-- What `import_dflow2d` returns (data_import.py:79-170). `chezyMean` are the roughness series of the faces; all series have
`nMaps` values. -/
structure MapData (K : Type) where
  faces : FaceData Text K
  edges : EdgeData Text K
  chezyMean : List (List (Option K))
  nMaps : Nat

/-- The labels found with region polygons (fm2prof_runner.py:436-443). -/
structure RegionLabels where
  faces : List Text
  edges : List Text
  css : List Text

/-- The labels found with section polygons (fm2prof_runner.py:469-472). -/
structure SectionLabels where
  faces : List Text
  edges : List Text

/-- The input of a run: what reading each file gives. There need not be polygon files. -/
structure Inputs (K : Type) where
  map : Except PyErr (MapData K)
  css : Except PyErr (List (Loc K))
  regions : Option (Except PyErr RegionLabels)
  sections : Option (Except PyErr SectionLabels)

/-- The data of the 2D model as they are used for the cross-sections (fm2prof_runner.py:474-481). `numbered`: the sections of
the faces are numbers and not names. -/
structure Model2d (K : Type) where
  faces : FaceData Text K
  edges : EdgeData Text K
  nMaps : Nat
  stations : List (Loc K)
  numbered : Bool

/-- The points of faces or edges with their regions. -/
def gridPoints (x y : List K) (region : List Text) : List (GridPoint Text K) :=
  ((x.zip y).zip region).map fun p => ⟨p.1, p.2⟩

/-- The locations of the cross-sections with their regions. -/
def stationsOf (css : List (Loc K)) (region : List Text) : List (Station Text K) :=
  (css.zip region).map fun p => ⟨p.1.id, (p.1.x, p.1.y), p.2⟩

/-- Assigning the faces and edges to cross-sections (fm2prof_runner.py:421-449). The labels of edges are kept in an array of
strings of 99 characters (data_import.py:126-128); without regions the array is replaced. -/
def assignCss (nn : NearestPicker K) (m : MapData K) (css : List (Loc K)) :
    Option RegionLabels → Except PyErr (List Text × List Text)
  | none =>
    classifyWithoutRegions nn (stationsOf css (css.map fun _ => [])) (gridPoints m.faces.x m.faces.y (m.faces.x.map fun _ => []))
      (gridPoints m.edges.x m.edges.y (m.edges.x.map fun _ => []))
  | some r =>
    classifyWithRegions nn (List.take 99) [] (stationsOf css r.css) (gridPoints m.faces.x m.faces.y r.faces)
      (gridPoints m.edges.x m.edges.y r.edges)

/-- `_classify_roughness_sections_by_variance` (fm2prof_runner.py:484-532) on whole series. If the last value of a series is
NaN the code goes on with NaN; the model stops with `nanProfile`. -/
def sectionsByVariance [FloorRing K] (series : List (List (Option K))) : Except PyErr (List Nat) :=
  match allSome (series.map fun r => r.getLast?.join) with
  | none => .error .nanProfile
  | some values => classifySections values

/-- Assigning the faces and edges to sections (fm2prof_runner.py:452-472): the labels of the faces, of the edges, and whether
those of the faces are numbers. In the array of the edges, which holds strings, a number becomes its text. -/
def assignSections [FloorRing K] (m : MapData K) :
    Option SectionLabels → Except PyErr (List Text × List Text × Bool)
  | some s => .ok (s.faces, s.edges, false)
  | none =>
    match sectionsByVariance m.edges.chezy with
    | .error e => .error e
    | .ok edges =>
      match sectionsByVariance m.chezyMean with
      | .error e => .error e
      | .ok faces => .ok (faces.map natText, edges.map natText, true)

/-- Reading a file that need not be there. -/
def readOptional {α : Type} : Option (Except PyErr α) → Except PyErr (Option α)
  | none => .ok none
  | some (.error e) => .error e
  | some (.ok a) => .ok (some a)

/-- `_set_fm_model_data` (fm2prof_runner.py:380-481). -/
def setModelData [FloorRing K] (nn : NearestPicker K) (i : Inputs K) : Except PyErr (Model2d K) :=
  match i.map with
  | .error e => .error e
  | .ok m =>
    match i.css with
    | .error e => .error e
    | .ok css =>
      match readOptional i.regions with
      | .error e => .error e
      | .ok regions =>
        match readOptional i.sections with
        | .error e => .error e
        | .ok sections =>
          match assignCss nn m css regions with
          | .error e => .error e
          | .ok (faceCss, edgeCss) =>
            match assignSections m sections with
            | .error e => .error e
            | .ok (faceSect, edgeSect, numbered) =>
              .ok {
                faces := { m.faces with
                  sclass := faceCss
                  sect := faceSect
                  region := (regions.map fun r => r.faces).getD m.faces.region }
                edges := { m.edges with sclass := edgeCss, sect := edgeSect }
                nMaps := m.nMaps
                stations := css
                numbered := numbered }

/-! ## One cross-section -/

/-- The libraries used: the square root, the next larger number after `bump`, the logistic function, `scipy.optimize` and the log
for each cross-section, scikit-learn, the printing of numbers, `geojson`, `scipy.spatial` and `pickle`. -/
structure Tools (K : Type) [Field K] [LinearOrder K] [IsStrictOrderedRing K] [FloorRing K] where
  sqrt : K → K
  bump : K → K
  release : K → K → K → K
  opt : Text → Optimiser K
  log : Text → Nat → Option PyErr
  nn : NearestPicker K
  ft : FloatText K
  sig : K → Text
  gj : GeoJson K
  hull : List (List (Option K)) → Except PyErr (List Nat)
  envelopeText : List (Envelope K) → Text × Option PyErr
  pickle : Loc K → Selection Text K → Text
  pickleMask : Loc K → Selection Text K → List (List Bool) → Text

/-- The parameters of the configuration file that are used. -/
structure RunConfig (K : Type) where
  pipeline : PipelineConfig K
  frictionWeighing : Int
  floodplainTolerance : K
  cssSelection : List Int
  exportCssData : Bool
  exportMapFiles : Bool

/-- The value of a series at a map. -/
def mapSeries (r : List (Option K)) : Nat → Option K := fun t => r[t]?.join

/-- The data of a cross-section as used by `build_geometry` (cross_section.py:283-330). -/
def controlVolumeOf (nMaps : Nat) (s : Selection Text K) : ControlVolume K :=
  { nMaps := nMaps
    cells := ((s.area.zip s.bedlevel).zip (s.waterdepth.zip (s.waterlevel.zip s.velocity))).map fun p =>
      ⟨p.1.1, p.1.2, mapSeries p.2.1, mapSeries p.2.2.1, mapSeries p.2.2.2⟩ }

/-- The label of a face: the sections found without polygons are the numbers 1 and 2 (`Model2d` keeps their text). -/
def sectionLabelOf (numbered : Bool) (t : Text) : SectionLabel :=
  if numbered then (if t = natText 1 then .num 1 else .num 2) else .name (String.ofList t)

/-- The data of a cross-section as used by `_compute_section_widths` and `_compute_floodplain_base`. -/
def sectionFacesOf (numbered : Bool) (s : Selection Text K) : List (SectionFace K) :=
  ((s.area.zip s.bedlevel).zip s.sect).map fun p => ⟨p.1.1, some p.1.2, sectionLabelOf numbered p.2⟩

/-- The data of a cross-section as used by `_build_roughness_tables`. The faces of a link are used for weighing by area only, and
that always fails because the areas of all faces are not among the data (cross_section.py:968, data_import.py:271-287). -/
def linksOf (s : Selection Text K) : List (Link Text K) :=
  (s.edgeSection.zip s.chezy).map fun p => ⟨p.1, (0, 0), mapSeries p.2⟩

/-- A finished cross-section: the attributes used by the exporters, the arrays before reduction, and the data for its points. -/
structure Finished (K : Type) where
  out : ExportCss K
  css : Css K
  points : MaskData K

/-- The columns of the volume table (export.py:127-140). -/
def volumeTableOf (c : Css K) : VolumeTable K :=
  { z := c.raw.z.map some
    tv2d := c.raw.totalVolume2d
    fv2d := c.raw.flowVolume2d
    wa2d := c.raw.wetArea.map some
    fa2d := c.raw.flowArea.map some
    tvsd1d := c.totalVolumeCorrected.getD []
    tv1d := c.raw.totalVolume1d.map some
    fvsd1d := c.flowVolumeCorrected.getD []
    fv1d := c.raw.flowVolume1d.map some
    tw1d := c.raw.totalWidth.map some
    fw1d := c.raw.flowWidth.map some }

/-- The position among the faces of the one nearest to a location (nearest_neighbour.py:84-90). -/
def centreOf (nn : NearestPicker K) (s : Selection Text K) (l : Loc K) : Nat := nn.pick (s.x.zip s.y) (l.x, l.y)

/-- `assign_roughness` (cross_section.py:560-576) after the geometry: the tables, the section widths and the base level. -/
def assignRoughness [FloorRing K] (cfg : RunConfig K) (m : Model2d K) (s : Selection Text K) (length : K) (css : Css K) :
    Except PyErr (Tables Text K × SectionWidths K × Option K) :=
  match allSome css.raw.zRoughness with
  | none => .error .nanProfile
  | some level =>
    match buildRoughnessTables cfg.frictionWeighing none (sliceStart m.nMaps cfg.pipeline.build.skipMaps) m.nMaps level
        (linksOf s) with
    | .error e => .error e
    | .ok tables =>
      match computeSectionWidths length (sectionFacesOf m.numbered s) css.flowWidth css.raw.flowWidth with
      | .error e => .error e
      | .ok widths =>
        .ok (tables, widths, floodplainBase css.crestLevel cfg.floodplainTolerance (sectionFacesOf m.numbered s))

/-- `_build_cross_section_geometry` and `_build_cross_section_roughness` for a location (fm2prof_runner.py:661-670). When the
correction has given NaN, the code goes on and prints it; the model stops with `nanProfile`. -/
def buildCss [FloorRing K] (x : Tools K) (cfg : RunConfig K) (m : Model2d K) (l : Loc K) : Except PyErr (Finished K) :=
  let s := getSelection x.sqrt m.faces m.edges l.id
  match buildCrossSectionGeometry (x.opt l.id) cfg.pipeline x.bump x.release (x.log l.id) l.length (centreOf x.nn s l)
      (controlVolumeOf m.nMaps s) with
  | .error e => .error e
  | .ok css =>
    match assignRoughness cfg m s l.length css with
    | .error e => .error e
    | .ok (tables, widths, base) =>
      match css.crestLevel, css.extraFlowArea, css.extraTotalArea, css.extraTotalVolume with
      | some crest, some flowArea, some totalArea, some totalVolume =>
        .ok {
          out := { name := l.id, branch := l.branch, chainage := l.chainage, z := css.z, flowWidth := css.flowWidth
                   totalWidth := css.totalWidth, crestLevel := crest, extraFlowArea := flowArea
                   extraTotalArea := totalArea, extraTotalVolume := totalVolume, floodplainBase := base
                   widths := widths, tables := tables, volumes := volumeTableOf css }
          css := css
          points := maskData l.id s }
      | _, _, _, _ => .error .nanProfile

/-! ## Exporting -/

/-- Lines written one by one until one raises. -/
def linesUntil {α β : Type} (f : α → Except PyErr β) : List α → List β × Option PyErr
  | [] => ([], none)
  | a :: as =>
    match f a with
    | .error e => ([], some e)
    | .ok b => (b :: (linesUntil f as).1, (linesUntil f as).2)

variable [FloorRing K]

/-- One row of the volume table (export.py:129-146). Before the geometry is built the corrected volumes are `None`
(cross_section.py:199-201) and indexing them raises `TypeError`; that does not happen in a run. -/
def volumesLine (ft : FloatText K) (p : Finished K × Nat) : Except PyErr Text :=
  match p.1.css.totalVolumeCorrected, p.1.css.flowVolumeCorrected with
  | some _, some _ => volumeRow ft p.1.out.name p.1.out.volumes p.2
  | _, _ => .error .typeError

/-- `export_volumes` (export.py:106-146): what is in the file afterwards, and the exception. -/
def volumesText (ft : FloatText K) (cs : List (Finished K)) : Text × Option PyErr :=
  let r := linesUntil (volumesLine ft) (cs.flatMap fun c => (List.range c.css.raw.z.length).map fun i => (c, i))
  (unlines (volumeHeader :: r.1), r.2)

/-- `_write_roughness_sobek3` (export.py:432-486): the sections in order until an unknown one raises `ValueError`. -/
def sobekRoughnessText (ft : FloatText K) (cs : List (ExportCss K)) : Text × Option PyErr :=
  let names := npUnique (cs.flatMap fun c => c.tables.map (·.1))
  (unlines (sobekRoughnessHeader ::
      ((names.takeWhile fun s => (sobekSection s).isSome).map (sobekRoughnessRows ft cs)).flatten),
    if names.all fun s => (sobekSection s).isSome then none else some .valueError)

/-- One row of the test format (export.py:184-190). -/
def testLine (ft : FloatText K) (p : ExportCss K × Nat) : Except PyErr Text :=
  match p.1.z[p.2]?, p.1.totalWidth[p.2]?, p.1.flowWidth[p.2]? with
  | some z, some t, some f =>
    .ok (ft.repr p.1.chainage ++ ", ".toList ++ ft.repr z ++ ", ".toList ++ ft.repr t ++ ",".toList ++ ft.repr f)
  | _, _, _ => .error .indexError

/-- `_write_geometry_testformat` (export.py:177-190). -/
def testText (ft : FloatText K) (cs : List (ExportCss K)) : Text × Option PyErr :=
  let r := linesUntil (testLine ft) (cs.flatMap fun c => (List.range c.z.length).map fun i => (c, i))
  (unlines ("chainage,z,total width,flow width".toList :: r.1), r.2)

/-- The file with all points (fm2prof_runner.py:545-556, mask_output_file.py:86-104); its extension is a known one. -/
def pointText (g : GeoJson K) (cs : List (Finished K)) (kind : Text) : Except PyErr (Text × Option PyErr) :=
  match collect (fun c => pointList g c.points kind) cs with
  | .error e => .error e
  | .ok ls =>
    if ls.flatten = [] then .error .valueError
    else if ls.flatten.all PointFeature.compliant then .ok (g.dump ls.flatten, none)
    else .ok (g.torn ls.flatten, some .valueError)

/-- The exporters. -/
def exporterOf (x : Tools K) : Exporter (Finished K) :=
  { locations := fun cs => (exportLocations x.ft (cs.map (·.out)), none)
    definitions := fun cs => (exportDefinitions x.ft (cs.map (·.out)), none)
    sections := fun c => c.out.tables.map (·.1)
    roughness := fun cs section' => (exportRoughness x.ft x.sig (cs.map (·.out)) section', none)
    sobekGeometry := fun cs => (exportSobekGeometry x.ft (cs.map (·.out)), none)
    sobekRoughness := fun cs => sobekRoughnessText x.ft (cs.map (·.out))
    testGeometry := fun cs => testText x.ft (cs.map (·.out))
    volumes := fun cs => volumesText x.ft cs
    mapFile := fun cs kind => pointText x.gj cs kind
    envelope := fun cs => (envelopes x.gj x.hull (cs.map (·.points))).map x.envelopeText }

/-- A cross-section with other roughness tables. -/
def Finished.withTables (c : Finished K) (t : Tables Text K) : Finished K := { c with out := { c.out with tables := t } }

/-- `interpolate_friction_across_cross_sections` on the cross-sections themselves; what it returns is not used
(fm2prof_runner.py:326). -/
def harmoniseCss (cs : List (Finished K)) : List (Finished K) :=
  List.zipWith Finished.withTables cs (harmonise (cs.map fun c => c.out.tables)).1

/-! ## The run -/

/-- The surroundings of a run: whether the configuration could be loaded, which files there are, and what goes wrong with writing. -/
structure Surroundings where
  configured : Bool
  mapIsFile : Bool
  cssIsFile : Bool
  dirExists : Bool
  faults : WriteFaults

/-- Whether `build_geometry` comes as far as the flow mask for a location with faces (cross_section.py:313-331): there are maps, and
the map of `LakeTimesteps` is one of them. -/
def reachesMask (cfg : BuildConfig K) (nMaps : Nat) : Bool :=
  decide (0 < nMaps - sliceStart nMaps cfg.skipMaps) &&
    match pyIndex (nMaps - sliceStart nMaps cfg.skipMaps) cfg.lakeTimesteps with
    | .ok _ => true
    | .error _ => false

/-- The flow mask of each face at each map (cross_section.py:331). -/
def flowMasks (cfg : BuildConfig K) (raw : ControlVolume K) : List (List Bool) :=
  let cv := getTimeseries cfg.skipMaps raw
  cv.cells.zipIdx.map fun (c, i) => (List.range cv.nMaps).map (flowMask cfg cv i c)

/-- The run of a project (fm2prof_runner.py:187-215). A location without an id has no data (fm2prof_runner.py:735-747); the
importer of the locations gives all other fields. -/
def jobOf (x : Tools K) (cfg : RunConfig K) (i : Inputs K) (o : Surroundings) : Job (Loc K) (Finished K) :=
  { configured := o.configured
    mapIsFile := o.mapIsFile
    cssIsFile := o.cssIsFile
    skipMaps := cfg.pipeline.build.skipMaps
    cssSelection := cfg.cssSelection
    exportCssData := cfg.exportCssData
    exportMapFiles := cfg.exportMapFiles
    dirExists := o.dirExists
    load := (setModelData x.nn i).map fun m => ⟨m.stations, m.nMaps⟩
    valid := fun l => decide (l.id ≠ [])
    name := fun l => l.id
    faces := fun l =>
      match setModelData x.nn i with
      | .error _ => 0
      | .ok m => (getSelection x.sqrt m.faces m.edges l.id).x.length
    pickle := fun l =>
      match setModelData x.nn i with
      | .error _ => []
      | .ok m => x.pickle l (getSelection x.sqrt m.faces m.edges l.id)
    mask := fun l =>
      match setModelData x.nn i with
      | .error _ => none
      | .ok m =>
        if reachesMask cfg.pipeline.build m.nMaps then
          some (x.pickleMask l (getSelection x.sqrt m.faces m.edges l.id)
            (flowMasks cfg.pipeline.build (controlVolumeOf m.nMaps (getSelection x.sqrt m.faces m.edges l.id))))
        else none
    build := fun l =>
      match setModelData x.nn i with
      | .error e => .error e
      | .ok m => buildCss x cfg m l
    harmonise := harmoniseCss
    exporter := exporterOf x
    faults := o.faults }

end Fm2prof
