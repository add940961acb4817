import Mathlib.Data.Char
import Mathlib.Data.List.Lex
import Verif.Model.Text
import Verif.Model.Roughness
import Verif.Model.Export

/-!
# A run

Models `Fm2ProfRunner.run` and everything it controls (`fm2prof_runner.py`): refusing existing output, initialisation and
validation, generating the cross-sections one by one, and writing the results, with files that cannot be opened and
writes that break off. What a run computes from its data is a parameter here; `Model/Pipeline.lean` fills it in with the
models of the other modules.

Only the files in the output directory are written by a run, so they are all that is kept of the disk. The log is not
modelled.
-/

namespace Fm2prof

/-- The files of the output directory, by name. -/
abbrev Store := Text → Option Text

/-- Writing or replacing a file. -/
def Store.set (s : Store) (file text : Text) : Store := fun f => if f = file then some text else s f

/-- What can go wrong outside the program: files that cannot be opened, and files of which only some text arrives before
writing raises. -/
structure WriteFaults where
  refuses : Text → Bool
  breaks : Text → Option Text

/-- Opening a file for writing and writing to it. `raises` is the exception of the program itself while it produces the
text; then `text` is what it has written before. -/
def writeFile (w : WriteFaults) (file text : Text) (raises : Option PyErr) (s : Store) : Store × Option PyErr :=
  if w.refuses file then (s, some .osError)
  else
    match w.breaks file with
    | some t => (s.set file t, some .osError)
    | none => (s.set file text, raises)

/-- A step of an export: writing one file, or an exception between files. -/
inductive ExportStep where
  | write (file text : Text) (raises : Option PyErr)
  | fail (e : PyErr)

/-- Executing a step. -/
def ExportStep.run (w : WriteFaults) (s : Store) : ExportStep → Store × Option PyErr
  | .write file text raises => writeFile w file text raises s
  | .fail e => (s, some e)

/-- A `try` block: the steps in order until one raises; the exception is caught and logged. -/
def tryBlock (w : WriteFaults) : List ExportStep → Store → Store
  | [], s => s
  | x :: xs, s =>
    match x.run w s with
    | (s', none) => tryBlock w xs s'
    | (s', some _) => s'

/-- `OutputFiles` (export.py:21-42), as `output_files` lists them (fm2prof_runner.py:1068-1077). -/
def outputFiles : List Text :=
  ["CrossSectionLocations.ini".toList, "CrossSectionDefinitions.ini".toList, "roughness-Main.ini".toList,
    "roughness-FloodPlain1.ini".toList, "roughness-FloodPlain2.ini".toList, "geometry.csv".toList,
    "roughness.csv".toList, "geometry_test.csv".toList, "roughness_test.csv".toList, "volumes.csv".toList]

/-- What the exporters make of a list of cross-sections: the text written and the exception raised after it, if any.
`mapFile` and `envelope` can raise before their file is opened. -/
structure Exporter (C : Type) where
  locations : List C → Text × Option PyErr
  definitions : List C → Text × Option PyErr
  sections : C → List Text
  roughness : List C → Text → Text × Option PyErr
  sobekGeometry : List C → Text × Option PyErr
  sobekRoughness : List C → Text × Option PyErr
  testGeometry : List C → Text × Option PyErr
  volumes : List C → Text × Option PyErr
  mapFile : List C → Text → Except PyErr (Text × Option PyErr)
  envelope : List C → Except PyErr (Text × Option PyErr)

/-- `section_file_key_dict` (fm2prof_runner.py:813-823): file and section id; other sections raise `KeyError`. -/
def sectionFile (s : Text) : Option (Text × Text) :=
  if s = "main".toList then some ("roughness-Main.ini".toList, "Main".toList)
  else if s = "floodplain1".toList then some ("roughness-FloodPlain1.ini".toList, "FloodPlain1".toList)
  else if s = "floodplain2".toList then some ("roughness-FloodPlain2.ini".toList, "FloodPlain2".toList)
  else none

/-- The roughness file of one section (fm2prof_runner.py:824-833). -/
def roughnessStep {C : Type} (x : Exporter C) (cs : List C) (s : Text) : ExportStep :=
  match sectionFile s with
  | some (file, id) => .write file (x.roughness cs id).1 (x.roughness cs id).2
  | none => .fail .keyError

/-- The D-Flow 1D files (fm2prof_runner.py:795-833). -/
def dimrBlock {C : Type} (x : Exporter C) (cs : List C) : List ExportStep :=
  .write "CrossSectionLocations.ini".toList (x.locations cs).1 (x.locations cs).2 ::
    .write "CrossSectionDefinitions.ini".toList (x.definitions cs).1 (x.definitions cs).2 ::
    (npUnique (cs.flatMap x.sections)).map (roughnessStep x cs)

/-- The SOBEK 3 files (fm2prof_runner.py:844-857). -/
def sobekBlock' {C : Type} (x : Exporter C) (cs : List C) : List ExportStep :=
  [.write "geometry.csv".toList (x.sobekGeometry cs).1 (x.sobekGeometry cs).2,
    .write "roughness.csv".toList (x.sobekRoughness cs).1 (x.sobekRoughness cs).2]

/-- The other files (fm2prof_runner.py:867-874). -/
def otherBlock {C : Type} (x : Exporter C) (cs : List C) : List ExportStep :=
  [.write "geometry_test.csv".toList (x.testGeometry cs).1 (x.testGeometry cs).2,
    .write "volumes.csv".toList (x.volumes cs).1 (x.volumes cs).2]

/-- `_write_output` (fm2prof_runner.py:765-883). -/
def writeOutput {C : Type} (w : WriteFaults) (x : Exporter C) (dirExists : Bool) (cs : List C) (s : Store) : Store :=
  if cs.isEmpty || !dirExists then s
  else tryBlock w (otherBlock x cs) (tryBlock w (sobekBlock' x cs) (tryBlock w (dimrBlock x cs) s))

/-- A file whose contents are computed before it is opened. -/
def preparedStep (file : Text) : Except PyErr (Text × Option PyErr) → ExportStep
  | .ok (text, raises) => .write file text raises
  | .error e => .fail e

/-- `_generate_geojson_output` (fm2prof_runner.py:534-563). -/
def writeMapFiles {C : Type} (w : WriteFaults) (x : Exporter C) (cs : List C) (s : Store) : Store :=
  tryBlock w [preparedStep "edge_output.geojson".toList (x.mapFile cs "edge".toList)]
    (tryBlock w [preparedStep "face_output.geojson".toList (x.mapFile cs "face".toList)] s)

/-- What `_set_fm_model_data` loads (fm2prof_runner.py:380-481): the cross-section locations and the number of maps. -/
structure Loaded (S : Type) where
  stations : List S
  nMaps : Nat

/-- Everything a run depends on besides the files of the output directory: the configuration, the input, and the
computations. `configured` is false when the configuration could not be loaded; `mask` is the flow mask of a location as stored, if
building its cross-section comes that far. -/
structure Job (S C : Type) where
  configured : Bool
  mapIsFile : Bool
  cssIsFile : Bool
  skipMaps : Int
  cssSelection : List Int
  exportCssData : Bool
  exportMapFiles : Bool
  dirExists : Bool
  load : Except PyErr (Loaded S)
  valid : S → Bool
  name : S → Text
  faces : S → Nat
  pickle : S → Text
  mask : S → Option Text
  build : S → Except PyErr C
  harmonise : List C → List C
  exporter : Exporter C
  faults : WriteFaults

variable {S C : Type}

/-- `_initialise_fm2prof` with `_validate_config_after_initalization` (fm2prof_runner.py:217-321). A `PolygonError` while
loading becomes an `InitializationError`; other exceptions pass. -/
def initialise (j : Job S C) : Except PyErr (Loaded S) :=
  if !j.mapIsFile || !j.cssIsFile then .error .initializationError
  else
    match j.load with
    | .error .polygonError => .error .initializationError
    | .error e => .error e
    | .ok m => if (m.nMaps : Int) ≤ j.skipMaps then .error .initializationError else .ok m

/-- One element of numpy's indexing with a list of numbers. -/
def pickStation (stations : List S) (i : Int) : Except PyErr S :=
  match pyIndex stations.length i with
  | .error e => .error e
  | .ok k =>
    match stations[k]? with
    | some x => .ok x
    | none => .error .indexError

/-- `_get_css_range` and the selection (fm2prof_runner.py:577-582, 602-609): numpy's indexing with a list of numbers. -/
def requested (selection : List Int) (stations : List S) : Except PyErr (List S) :=
  if selection.isEmpty then .ok stations
  else collect (pickStation stations) selection

/-- The data of a location are stored if asked for (fm2prof_runner.py:753-756). -/
def storeData (j : Job S C) (x : S) (s : Store) : Store × Option PyErr :=
  if j.exportCssData then writeFile j.faults (j.name x ++ ".pickle".toList) (j.pickle x) none s else (s, none)

/-- The flow mask of a location is stored if asked for, by `build_geometry` (cross_section.py:333-339). -/
def storeMask (j : Job S C) (x : S) (s : Store) : Store × Option PyErr :=
  if j.exportCssData then
    match j.mask x with
    | some text => writeFile j.faults (j.name x ++ "_flowmask.pickle".toList) text none s
    | none => (s, none)
  else (s, none)

/-- `_generate_cross_section` with `_create_new_cross_section` (fm2prof_runner.py:611-674, 723-762): nothing for a location
without data or with fewer than ten faces. The data of the cross-section are stored first if asked for, and the flow mask while
it is built; what is done before that reads and writes no files, so all of building comes after it here. -/
def attempt (j : Job S C) (x : S) (s : Store) : Store × Except PyErr (Option C) :=
  if !j.valid x then (s, .ok none)
  else
    match storeData j x s with
    | (s', some e) => (s', .error e)
    | (s', none) =>
      if j.faces x < 10 then (s', .ok none)
      else
        match storeMask j x s' with
        | (s'', some e) => (s'', .error e)
        | (s'', none) =>
          match j.build x with
          | .error e => (s'', .error e)
          | .ok c => (s'', .ok (some c))

/-- The loop of `_generate_cross_section_list` (fm2prof_runner.py:584-598). -/
def attemptAll (j : Job S C) : List S → Store → Store × Except PyErr (List C)
  | [], s => (s, .ok [])
  | x :: xs, s =>
    match attempt j x s with
    | (s', .error e) => (s', .error e)
    | (s', .ok r) =>
      match attemptAll j xs s' with
      | (s'', .error e) => (s'', .error e)
      | (s'', .ok cs) => (s'', .ok (r.toList ++ cs))

/-- `_generate_cross_section_list` (fm2prof_runner.py:565-600). -/
def generate (j : Job S C) (m : Loaded S) (s : Store) : Store × Except PyErr (List C) :=
  match requested j.cssSelection m.stations with
  | .error e => (s, .error e)
  | .ok xs => attemptAll j xs s

/-- `_finalise_fm2prof` (fm2prof_runner.py:323-378). -/
def finalise (j : Job S C) (cs : List C) (s : Store) : Store :=
  let cs' := j.harmonise cs
  let s₁ := writeOutput j.faults j.exporter j.dirExists cs' s
  let s₂ := if j.exportMapFiles then writeMapFiles j.faults j.exporter cs' s₁ else s₁
  tryBlock j.faults [preparedStep "cross_section_volumes.geojson".toList (j.exporter.envelope cs')] s₂

/-- `_run_inifile` (fm2prof_runner.py:187-215). -/
def runInifile (j : Job S C) (s : Store) : Store × Except PyErr Bool :=
  match initialise j with
  | .error .initializationError => (s, .ok false)
  | .error e => (s, .error e)
  | .ok m =>
    match generate j m s with
    | (s', .error e) => (s', .error e)
    | (s', .ok cs) => (finalise j cs s', .ok true)

/-- `_output_exists` (fm2prof_runner.py:963-973). -/
def outputExists (s : Store) : Bool := outputFiles.any fun f => (s f).isSome

/-- `run` (fm2prof_runner.py:121-153). -/
def run (j : Job S C) (overwrite : Bool) (s : Store) : Store × Except PyErr Bool :=
  if !j.configured then (s, .ok false)
  else if outputExists s && !overwrite then (s, .ok false)
  else runInifile j s

end Fm2prof
