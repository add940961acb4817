import Mathlib.Algebra.Order.Field.Basic
import Verif.Model.Basic
import Verif.Model.Classify

/-!
# Region and section polygons

Models `polygon_file.py`: reading features, validating sections, classifying points, and the cache of
classifications. Values of feature properties are strings here. Whether a point is in a polygon and whether two
polygons intersect is decided by the libraries MeshKernel and Shapely: parameters `inside`, `within` and `intersects`.
Files are given by their parsed content; reading JSON is not modelled.
-/

namespace Fm2prof

variable {K : Type}

/-- The corners of a polygon. -/
abbrev Ring (K : Type) := List (Pt K)

/-- A Python dictionary with string keys and values: distinct keys in order of insertion. -/
abbrev Dict := List (String × String)

/-- `d.get(key)`. -/
def Dict.get (d : Dict) (key : String) : Option String := (d.find? fun p => p.1 = key).map (·.2)

/-- `d[key] = value`. -/
def Dict.insert (d : Dict) (key value : String) : Dict :=
  if (d.get key).isSome then d.map fun p => if p.1 = key then (key, value) else p else d ++ [(key, value)]

/-- The geometry of a GeoJSON feature. -/
inductive FeatureGeometry (K : Type) where
  | polygon (rings : List (Ring K))
  | multiPolygon (polygons : List (List (Ring K)))
  | other

/-- A GeoJSON feature. -/
structure Feature (K : Type) where
  properties : Dict
  geometry : FeatureGeometry K

/-- `Polygon` (polygon_file.py:60-89). -/
structure Polygon (K : Type) where
  coordinates : Ring K
  properties : Dict

/-- `{k.lower(): v for k, v in feature.get("properties").items()}` (polygon_file.py:373). Lean's `String.toLower`
changes ASCII letters only. -/
def lowerKeys (d : Dict) : Dict := d.foldl (fun acc p => Dict.insert acc p.1.toLower p.2) []

/-- The coordinates of a feature (polygon_file.py:379-394). -/
def featureRing : FeatureGeometry K → Except PyErr (Ring K)
  | .other => .error .polygonError
  | .polygon rings =>
    match rings with
    | [ring] => .ok ring
    | _ => .error .polygonError
  | .multiPolygon polygons =>
    match polygons with
    | [] => .error .indexError
    | first :: rest =>
      if rest ≠ [] ∧ first.length ≠ 1 then .error .polygonError
      else
        match first with
        | [] => .error .indexError
        | ring :: _ => .ok ring

/-- One round of `_polygons_from_geojson_data` (polygon_file.py:372-395). -/
def polygonFromFeature (f : Feature K) : Except PyErr (Polygon K) :=
  if ((lowerKeys f.properties).get "name").isNone then .error .polygonError
  else
    match featureRing f.geometry with
    | .error e => .error e
    | .ok ring => .ok ⟨ring, lowerKeys f.properties⟩

/-- `_polygons_from_geojson_data` (polygon_file.py:370-397). -/
def polygonsFromFeatures : List (Feature K) → Except PyErr (List (Polygon K))
  | [] => .ok []
  | f :: fs =>
    match polygonFromFeature f with
    | .error e => .error e
    | .ok p =>
      match polygonsFromFeatures fs with
      | .error e => .error e
      | .ok ps => .ok (p :: ps)

/-- The names of polygons. -/
def polygonNames (ps : List (Polygon K)) : List (Option String) := ps.map fun p => p.properties.get "name"

/-- The setter of `MultiPolygon.polygons` (polygon_file.py:128-142). -/
def setPolygons (ps : List (Polygon K)) : Except PyErr (List (Polygon K)) :=
  if (polygonNames ps).all (fun n => n ≠ none && n ≠ some "") then
    if (polygonNames ps).length ≠ (polygonNames ps).dedup.length then .error .valueError else .ok ps
  else .error .valueError

/-- `MultiPolygon.from_file` (polygon_file.py:345-368) after parsing the JSON. `RegionPolygon` does nothing else. -/
def polygonsFromFile (features : List (Feature K)) : Except PyErr (List (Polygon K)) :=
  if features = [] then .error .polygonError
  else
    match polygonsFromFeatures features with
    | .error e => .error e
    | .ok ps => setPolygons ps

/-- `valid_section_keys` (polygon_file.py:537). -/
def validSectionKeys : List String := ["main", "floodplain1", "floodplain2", "1", "2", "3"]

/-- `map_section_keys` (polygon_file.py:538-542). -/
def mapSectionKeys : String → Option String
  | "1" => some "main"
  | "2" => some "floodplain1"
  | "3" => some "floodplain2"
  | _ => none

/-- One round of `_validate_sections` (polygon_file.py:545-569): the polygon afterwards. -/
def validateSection (p : Polygon K) : Except PyErr (Polygon K) :=
  match p.properties.get "section" with
  | none => .error .polygonError
  | some s =>
    if s.toLower ∈ validSectionKeys then
      match mapSectionKeys s.toLower with
      | some name => .ok ⟨p.coordinates, p.properties.insert "section" name⟩
      | none => .ok p
    else .error .polygonError

/-- The loop of `_validate_sections`. -/
def validateSections : List (Polygon K) → Except PyErr (List (Polygon K))
  | [] => .ok []
  | p :: ps =>
    match validateSection p with
    | .error e => .error e
    | .ok p' =>
      match validateSections ps with
      | .error e => .error e
      | .ok ps' => .ok (p' :: ps')

/-- `SectionPolygon.from_file` (polygon_file.py:501-509). -/
def sectionPolygonsFromFile (features : List (Feature K)) : Except PyErr (List (Polygon K)) :=
  match polygonsFromFile features with
  | .error e => .error e
  | .ok ps => validateSections ps

/-- `check_overlap` (polygon_file.py:332-343): the pairs of names for which a warning is logged. -/
def overlapWarnings (intersects : Ring K → Ring K → Bool) (ps : List (Polygon K)) :
    List (Option String × Option String) :=
  ps.zipIdx.flatMap fun a => ps.zipIdx.filterMap fun b =>
    if a.2 = b.2 then none
    else if intersects a.1.coordinates b.1.coordinates then
      some (a.1.properties.get "name", b.1.properties.get "name")
    else none

/-! ## Classifying points -/

/-- Setting the entries at some indices (polygon_file.py:308-309). -/
def setAll {α : Type} (labels : List α) (indices : List Nat) (v : α) : List α :=
  indices.foldl (fun ls j => ls.set j v) labels

/-- The indices of the nodes in a polygon, as returned by MeshKernel. -/
def nodesInside (inside : Ring K → Pt K → Bool) (ring : Ring K) (nodes : List (Pt K)) : List Nat :=
  (List.range nodes.length).filter fun (j : Nat) => (nodes[j]?).any (inside ring)

/-- Labels of the nodes (polygon_file.py:299-309). A label is `none` when the polygon lacks the property. -/
def nodeLabels (inside : Ring K → Pt K → Bool) (property default : String) (ps : List (Polygon K))
    (nodes : List (Pt K)) : List (Option String) :=
  ps.foldl (fun labels p => setAll labels (nodesInside inside p.coordinates nodes) (p.properties.get property))
    (nodes.map fun _ => some default)

/-- Labels of faces or edges: the label of their first node (polygon_file.py:312-328). Node numbers start at 1. -/
def labelsByFirstNode (labels : List (Option String)) : List Nat → Except PyErr (List (Option String))
  | [] => .ok []
  | n :: ns =>
    match labels[n - 1]? with
    | none => .error .indexError
    | some l =>
      match labelsByFirstNode labels ns with
      | .error e => .error e
      | .ok ls => .ok (l :: ls)

/-- `meshkernel_inpolygon` (polygon_file.py:272-330) for faces or edges given by their first nodes. -/
def gridPointLabels (inside : Ring K → Pt K → Bool) (property default : String) (ps : List (Polygon K))
    (nodes : List (Pt K)) (firstNodes : List Nat) : Except PyErr (List (Option String)) :=
  labelsByFirstNode (nodeLabels inside property default ps nodes) firstNodes

/-- `get_points_in_polygon` (polygon_file.py:225-251) for one point: the first polygon that contains it. -/
def pointLabel (within : Pt K → Ring K → Bool) (property default : String) (ps : List (Polygon K)) (p : Pt K) :
    Option String :=
  match ps.find? fun q => within p q.coordinates with
  | some q => q.properties.get property
  | none => some default

/-! ## The cache -/

/-- A cache file: the modification time and size of the map file, and the labels. -/
structure CacheFile (M R : Type) where
  stamp : M
  result : R

/-- One call of `get_gridpoints_in_polygon`: which cache file it uses (the path of the map file and the property), the
content of the map file with its modification time and size, the polygons with the default label, and whether the
cache is to be ignored. -/
structure CacheRun (Key Map M Poly : Type) where
  key : Key
  map : Map
  stamp : M
  polys : Poly
  force : Bool

/-- `get_gridpoints_in_polygon` (polygon_file.py:174-223): the labels returned and the cache files afterwards. -/
def cachedLabels {Key Map M Poly R : Type} [DecidableEq Key] [DecidableEq M] (classify : Key → Map → Poly → R)
    (files : Key → Option (CacheFile M R)) (run : CacheRun Key Map M Poly) : R × (Key → Option (CacheFile M R)) :=
  let fresh := classify run.key run.map run.polys
  let written := fun k => if k = run.key then some ⟨run.stamp, fresh⟩ else files k
  match files run.key with
  | none => (fresh, written)
  | some c => if run.force then (fresh, written) else if run.stamp = c.stamp then (c.result, files) else (fresh, written)

/-- A history of calls: the labels each returned. -/
def cachedHistory {Key Map M Poly R : Type} [DecidableEq Key] [DecidableEq M] (classify : Key → Map → Poly → R) :
    (Key → Option (CacheFile M R)) → List (CacheRun Key Map M Poly) → List R
  | _, [] => []
  | files, run :: runs =>
    (cachedLabels classify files run).1 :: cachedHistory classify (cachedLabels classify files run).2 runs

end Fm2prof
