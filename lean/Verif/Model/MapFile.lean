import Verif.Model.Project

/-!
# Reading a map file

`FMDataImporter` (data_import.py:18-170) on the variables of a D-Flow FM map file, and what is read of the grid for the polygons
(polygon_file.py:290-327).

Simplifications: the file follows the UGRID conventions, so that a variable on faces or edges has one value for each of them, and a
result one for each of them and each map. The grid itself, the nodes with the first nodes of faces and edges, is always there, and node
numbers start at 1. Attributes of variables are not modelled.
-/

namespace Fm2prof

variable {K : Type} [Field K] [LinearOrder K] [IsStrictOrderedRing K] [FloorRing K]

/-- A stored value: a number or NaN, and whether it is the fill value of its variable, which stands for a missing value. -/
structure Stored (K : Type) where
  value : Option K
  missing : Bool

/-- A map file: numbers of faces, edges, nodes and maps, the variables by name, and the grid. A result has a value for each map and each
face or edge, in this order. -/
structure NcFile (K : Type) where
  nFaces : Nat
  nEdges : Nat
  nNodes : Nat
  nMaps : Nat
  face : Text → Option (Nat → K)
  edge : Text → Option (Nat → K)
  edgeType : Option (Nat → Int)
  edgeFaces : Option (Nat → Int × Int)
  faceResult : Text → Option (Nat → Nat → Stored K)
  edgeResult : Text → Option (Nat → Nat → Stored K)
  node : Nat → Pt K
  faceNode : Nat → Nat
  edgeNode : Nat → Nat
  stamp : Nat × Nat

/-- `map_file.variables[name]`. -/
def variable' {α : Type} (vars : Text → Option α) (name : String) : Except PyErr α :=
  match vars name.toList with
  | none => .error .keyError
  | some v => .ok v

/-- `np.array(map_file.variables[name])` (data_import.py:101-103): one value per face or edge. -/
def columnOf {α : Type} (n : Nat) (v : Nat → α) : List α := (List.range n).map v

/-- `np.array(map_file.variables[name]).T` (data_import.py:151, 166): a row per face or edge, with a value per map. `np.array` keeps the
data of a masked array and forgets the mask. -/
def rowsOfResult (n maps : Nat) (v : Nat → Nat → Stored K) : List (List (Option K)) :=
  (List.range n).map fun i => (List.range maps).map fun t => (v t i).value

/-- `internal_edges` (data_import.py:117). -/
def internalMask (n : Nat) (types : Nat → Int) : List Bool := (columnOf n types).map fun t => decide (t = 1)

/-- `array[mask]`. -/
def selectMask {α : Type} (mask : List Bool) (l : List α) : List α := ((l.zip mask).filter (·.2)).map (·.1)

/-- The roughness of the edges, in older files under another name (data_import.py:144-163). -/
def edgeChezyVariable (f : NcFile K) : Except PyErr (Nat → Nat → Stored K) :=
  match variable' f.edgeResult "mesh2d_czu" with
  | .ok v => .ok v
  | .error _ => variable' f.edgeResult "mesh2d_cftrt"

/-- `import_dflow2d` (data_import.py:79-170). Coordinates of edges may be missing, which raises when they are used
(nearest_neighbour.py): the model raises at once. -/
def importDflow2d (f : NcFile K) : Except PyErr (MapData K) := do
  let x ← variable' f.face "mesh2d_face_x"
  let y ← variable' f.face "mesh2d_face_y"
  let area ← variable' f.face "mesh2d_flowelem_ba"
  let bedlevel ← variable' f.face "mesh2d_flowelem_bl"
  let types ← (match f.edgeType with | none => .error .keyError | some v => .ok v : Except PyErr (Nat → Int))
  let internal := internalMask f.nEdges types
  let edgeX ← variable' f.edge "mesh2d_edge_x"
  let edgeY ← variable' f.edge "mesh2d_edge_y"
  let waterdepth ← variable' f.faceResult "mesh2d_waterdepth"
  let waterlevel ← variable' f.faceResult "mesh2d_s1"
  let chezyMean ← variable' f.faceResult "mesh2d_czs"
  let chezyEdge ← edgeChezyVariable f
  let velocityX ← variable' f.faceResult "mesh2d_ucx"
  let velocityY ← variable' f.faceResult "mesh2d_ucy"
  let _ ← variable' f.edgeResult "mesh2d_u1"
  return {
    faces := {
      x := columnOf f.nFaces x, y := columnOf f.nFaces y, area := columnOf f.nFaces area, bedlevel := columnOf f.nFaces bedlevel
      region := List.replicate f.nFaces [], islake := List.replicate f.nFaces false, sect := List.replicate f.nFaces "main".toList
      sclass := List.replicate f.nFaces []
      waterdepth := rowsOfResult f.nFaces f.nMaps waterdepth, waterlevel := rowsOfResult f.nFaces f.nMaps waterlevel
      velocityX := rowsOfResult f.nFaces f.nMaps velocityX, velocityY := rowsOfResult f.nFaces f.nMaps velocityY }
    edges := {
      x := selectMask internal (columnOf f.nEdges edgeX), y := selectMask internal (columnOf f.nEdges edgeY)
      sect := (internal.filter id).map fun _ => "main".toList, sclass := (internal.filter id).map fun _ => []
      edgeFaces := f.edgeFaces.map fun v => selectMask internal (columnOf f.nEdges v)
      chezy := selectMask internal (rowsOfResult f.nEdges f.nMaps chezyEdge) }
    chezyMean := rowsOfResult f.nFaces f.nMaps chezyMean
    nMaps := f.nMaps }

/-- A map file as a run uses it: what is imported, and the first nodes of faces and internal edges (polygon_file.py:311-327). -/
def mapFileOf (f : NcFile K) : MapFile K :=
  { data := importDflow2d f, nodes := columnOf f.nNodes f.node, faceNodes := columnOf f.nFaces f.faceNode
    edgeNodes := selectMask (internalMask f.nEdges (f.edgeType.getD fun _ => 0)) (columnOf f.nEdges f.edgeNode)
    stamp := f.stamp }

end Fm2prof
