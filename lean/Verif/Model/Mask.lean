import Verif.Model.Classify
import Verif.Model.Runner

/-!
# Point files

Models `mask_output_file.py`, the lists of points kept by a cross-section (`set_face_output_list`, `set_edge_output_list`,
cross_section.py), the files with all points and with the envelopes (`_generate_geojson_output`, `_export_envelope`,
fm2prof_runner.py). The libraries `geojson`, `json` and `scipy.spatial.ConvexHull` are parameters. A number that is NaN is
`none`. Files are named by the path that is given.
-/

namespace Fm2prof

variable {K : Type}

/-- A value of a property. -/
inductive Json (K : Type) where
  | text (t : Text)
  | num (x : Option K)
  | bool (b : Bool)
  deriving DecidableEq

/-- A `geojson.Feature` with a point. -/
structure PointFeature (K : Type) where
  coords : List (Option K)
  properties : List (Text × Json K)
  deriving DecidableEq

/-- JSON has no NaN: `geojson.dump` raises `ValueError` on one (`allow_nan=False`). -/
def Json.compliant : Json K → Bool
  | .num none => false
  | _ => true

/-- A feature without NaN. -/
def PointFeature.compliant (f : PointFeature K) : Bool := f.coords.all Option.isSome && f.properties.all fun p => p.2.compliant

/-- What is used of the library `geojson`: rounding of coordinates to six decimals (`Geometry.clean_coordinates`), the check of
a feature (`is_valid`), writing a collection and reading a file. `torn` is what has been written when a NaN is met. Reading
gives nothing if the file holds something else than a collection of features. -/
structure GeoJson (K : Type) where
  round : K → K
  valid : PointFeature K → Bool
  dump : List (PointFeature K) → Text
  torn : List (PointFeature K) → Text
  load : Text → Except PyErr (Option (List (PointFeature K)))
  load_dump : ∀ fs, (∀ f ∈ fs, f.compliant = true) → load (dump fs) = .ok (some fs)

/-- `create_mask_point` (mask_output_file.py:32-47). -/
def createMaskPoint (g : GeoJson K) (coords : List (Option K)) (properties : List (Text × Json K)) : Except PyErr (PointFeature K) :=
  if coords.isEmpty then .error .valueError else .ok ⟨coords.map fun c => c.map g.round, properties⟩

/-- The name of a path, `PurePosixPath.name`: the last part that is not empty and not a single dot. -/
def pathName (path : Text) : Text := ((splitSep '/' path).filter fun p => p ≠ [] ∧ p ≠ ['.']).getLast?.getD []

/-- The part of a name from its last dot on, with what precedes it. -/
def lastDot : Text → Option (Text × Text)
  | [] => none
  | c :: cs =>
    match lastDot cs with
    | some (a, b) => some (c :: a, b)
    | none => if c = '.' then some ([], c :: cs) else none

/-- `PurePath.suffix` (up to Python 3.13): nothing if the dot is the first or last character. -/
def pathSuffix (path : Text) : Text :=
  match lastDot (pathName path) with
  | some (a, b) => if a = [] ∨ b.length ≤ 1 then [] else b
  | none => []

/-- `validate_extension` (mask_output_file.py:50-62), for a string or a path. -/
def validateExtension (path : Text) : Except PyErr Unit :=
  if pathSuffix path = ".json".toList ∨ pathSuffix path = ".geojson".toList then .ok () else .error .osError

/-- `read_mask_output_file` (mask_output_file.py:65-83). `FileNotFoundError` is an `OSError`. -/
def readMaskFile (g : GeoJson K) (s : Store) (path : Text) : Except PyErr (List (PointFeature K)) :=
  match s path with
  | none => .error .osError
  | some text =>
    match validateExtension path with
    | .error e => .error e
    | .ok () =>
      match g.load text with
      | .error e => .error e
      | .ok none => .error .osError
      | .ok (some fs) => .ok fs

/-- `write_mask_output_file` (mask_output_file.py:86-104). -/
def writeMaskFile (g : GeoJson K) (w : WriteFaults) (path : Text) (points : List (PointFeature K)) (s : Store) :
    Store × Option PyErr :=
  if path = [] then (s, some .valueError)
  else if points = [] then (s, some .valueError)
  else
    match validateExtension path with
    | .error e => (s, some e)
    | .ok () =>
      if points.all PointFeature.compliant then writeFile w path (g.dump points) none s
      else writeFile w path (g.torn points) (some .valueError) s

/-- The loop of `set_face_output_list` and `set_edge_output_list` (cross_section.py:669-691, 717-735): the points before the first
exception, which is caught; those that are not valid are left out. -/
def pointLoop (g : GeoJson K) (point : Nat → Except PyErr (PointFeature K)) : List Nat → List (PointFeature K)
  | [] => []
  | i :: is =>
    match point i with
    | .error _ => []
    | .ok f => if g.valid f then f :: pointLoop g point is else pointLoop g point is

/-- The data of a cross-section used for its points, column by column. -/
structure MaskData (K : Type) where
  name : Text
  x : List (Option K)
  y : List (Option K)
  region : List Text
  sect : List Text
  bedlevel : List (Option K)
  islake : List Bool
  edgeX : List (Option K)
  edgeY : List (Option K)
  edgeSection : List Text

/-- Indexing a list. -/
def at? {α : Type} (l : List α) (i : Nat) : Except PyErr α :=
  match l[i]? with
  | some a => .ok a
  | none => .error .indexError

/-- One turn of the loop of `set_face_output_list` (cross_section.py:671-684). -/
def facePointAt (g : GeoJson K) (d : MaskData K) (i : Nat) : Except PyErr (PointFeature K) := do
  let lake ← at? d.islake i
  let bed ← at? d.bedlevel i
  let region ← at? d.region i
  let sect ← at? d.sect i
  let x ← at? d.x i
  let y ← at? d.y i
  createMaskPoint g [x, y]
    [("cross_section_id".toList, .text d.name), ("is_lake".toList, .bool lake), ("bedlevel".toList, .num bed),
      ("region".toList, .text region), ("section".toList, .text sect)]

/-- `set_face_output_list` (cross_section.py:648-697): the list of a cross-section afterwards, if it was empty. -/
def facePoints (g : GeoJson K) (d : MaskData K) : List (PointFeature K) :=
  pointLoop g (facePointAt g d) (List.range d.x.length)

/-- One turn of the loop of `set_edge_output_list` (cross_section.py:718-728). -/
def edgePointAt (g : GeoJson K) (d : MaskData K) (i : Nat) : Except PyErr (PointFeature K) := do
  let sect ← at? d.edgeSection i
  let x ← at? d.edgeX i
  let y ← at? d.edgeY i
  createMaskPoint g [x, y] [("cross_section_id".toList, .text d.name), ("section".toList, .text sect)]

/-- `set_edge_output_list` (cross_section.py:699-741). -/
def edgePoints (g : GeoJson K) (d : MaskData K) : List (PointFeature K) :=
  pointLoop g (edgePointAt g d) (List.range d.edgeX.length)

/-- What `_set_face_output_list` uses of the selected data of a cross-section. In the code all names are strings. -/
def maskData (name : Text) (s : Selection Text K) : MaskData K :=
  { name := name
    x := s.x.map some
    y := s.y.map some
    region := s.region
    sect := s.sect
    bedlevel := s.bedlevel.map some
    islake := s.islake
    edgeX := s.edgeX.map some
    edgeY := s.edgeY.map some
    edgeSection := s.edgeSection }

/-- The column `islake` made on import (data_import.py:111); nothing changes it later. -/
def importedIsLake (bedlevel : List K) : List Bool := List.replicate bedlevel.length false

/-- `get_point_list` (cross_section.py:252-259). -/
def pointList (g : GeoJson K) (d : MaskData K) (kind : Text) : Except PyErr (List (PointFeature K)) :=
  if kind = "face".toList then .ok (facePoints g d)
  else if kind = "edge".toList then .ok (edgePoints g d)
  else .error .valueError

/-- The body of the loop of `_generate_geojson_output` (fm2prof_runner.py:545-556). The exception is caught and logged. -/
def pointFile (g : GeoJson K) (w : WriteFaults) (dir : Text) (cs : List (MaskData K)) (kind : Text) (s : Store) :
    Store × Option PyErr :=
  match collect (fun d => pointList g d kind) cs with
  | .error e => (s, some e)
  | .ok ls => writeMaskFile g w (dir ++ '/' :: kind ++ "_output.geojson".toList) ls.flatten s

/-- `_generate_geojson_output` (fm2prof_runner.py:534-563). -/
def pointFiles (g : GeoJson K) (w : WriteFaults) (dir : Text) (cs : List (MaskData K)) (s : Store) : Store :=
  (pointFile g w dir cs "edge".toList (pointFile g w dir cs "face".toList s).1).1

/-- An envelope: the name of the cross-section and the corners of the polygon. -/
abbrev Envelope (K : Type) := Text × List (List (Option K))

/-- The envelope of one cross-section (fm2prof_runner.py:361-375): an `IndexError` of the hull is logged, other exceptions pass.
The hull gives the numbers of its points. -/
def envelopeOf (hull : List (List (Option K)) → Except PyErr (List Nat)) (name : Text) (points : List (PointFeature K)) :
    Except PyErr (Option (Envelope K)) :=
  match hull (points.map (·.coords)) with
  | .error .indexError => .ok none
  | .error e => .error e
  | .ok vertices => .ok (some (name, vertices.filterMap fun i => (points.map (·.coords))[i]?))

/-- The envelopes collected by `_export_envelope` (fm2prof_runner.py:358-376); the file is opened afterwards. -/
def envelopes (g : GeoJson K) (hull : List (List (Option K)) → Except PyErr (List Nat)) (cs : List (MaskData K)) :
    Except PyErr (List (Envelope K)) :=
  (collect (fun d => envelopeOf hull d.name (facePoints g d)) cs).map (·.filterMap id)

end Fm2prof
