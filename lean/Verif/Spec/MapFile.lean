import Verif.Model.MapFile
import Verif.Spec.Project

/-! Specification of reading map files: which variable goes where, and which ones are needed. -/

namespace Fm2prof.Spec

open Fm2prof

variable {K : Type} [Field K] [LinearOrder K] [IsStrictOrderedRing K] [FloorRing K]

/-- The internal edges of a grid, in the order of the file. -/
def internalEdges (f : NcFile K) : List Nat :=
  (List.range f.nEdges).filter fun e => decide ((f.edgeType.map fun t => t e) = some 1)

/-- The values of faces, with their place. -/
def faceColumnsOf : List (String × (MapData K → List K)) :=
  [("mesh2d_face_x", fun d => d.faces.x), ("mesh2d_face_y", fun d => d.faces.y), ("mesh2d_flowelem_ba", fun d => d.faces.area),
    ("mesh2d_flowelem_bl", fun d => d.faces.bedlevel)]

/-- The values of edges, with their place. -/
def edgeColumnsOf : List (String × (MapData K → List K)) :=
  [("mesh2d_edge_x", fun d => d.edges.x), ("mesh2d_edge_y", fun d => d.edges.y)]

/-- The results on faces, with their place. -/
def faceResultsOf : List (String × (MapData K → List (List (Option K)))) :=
  [("mesh2d_waterdepth", fun d => d.faces.waterdepth), ("mesh2d_s1", fun d => d.faces.waterlevel),
    ("mesh2d_ucx", fun d => d.faces.velocityX), ("mesh2d_ucy", fun d => d.faces.velocityY), ("mesh2d_czs", fun d => d.chezyMean)]

/-- A column has the values of a variable at the given faces or edges. -/
def HoldsAt (items : List Nat) (v : Nat → K) (column : List K) : Prop :=
  column.length = items.length ∧ ∀ (i e : Nat), items[i]? = some e → column[i]? = some (v e)

/-- A table has in row `i` and column `t` the value in map `t` of a variable at the `i`-th of the given faces or edges. -/
def SeriesAt (items : List Nat) (maps : Nat) (v : Nat → Nat → Stored K) (table : List (List (Option K))) : Prop :=
  table.length = items.length ∧ ∀ (i e : Nat), items[i]? = some e → ∃ row, table[i]? = some row ∧ row.length = maps ∧
    ∀ t, t < maps → row[t]? = some (v t e).value

/-- The file has all variables that are read. -/
structure Complete (f : NcFile K) : Prop where
  face : ∀ name ∈ ["mesh2d_face_x", "mesh2d_face_y", "mesh2d_flowelem_ba", "mesh2d_flowelem_bl"], (f.face name.toList).isSome
  edge : ∀ name ∈ ["mesh2d_edge_x", "mesh2d_edge_y"], (f.edge name.toList).isSome
  types : f.edgeType.isSome
  results : ∀ name ∈ ["mesh2d_waterdepth", "mesh2d_s1", "mesh2d_czs", "mesh2d_ucx", "mesh2d_ucy"], (f.faceResult name.toList).isSome
  roughness : (f.edgeResult "mesh2d_czu".toList).isSome ∨ (f.edgeResult "mesh2d_cftrt".toList).isSome
  velocity : (f.edgeResult "mesh2d_u1".toList).isSome

/-- The same file with other values for a result on faces, or without it. -/
def withFaceResult (f : NcFile K) (name : String) (v : Option (Nat → Nat → Stored K)) : NcFile K :=
  { f with faceResult := fun n => if n = name.toList then v else f.faceResult n }

/-- The same for a result on edges. -/
def withEdgeResult (f : NcFile K) (name : String) (v : Option (Nat → Nat → Stored K)) : NcFile K :=
  { f with edgeResult := fun n => if n = name.toList then v else f.edgeResult n }

/-- The same file with other values marked as missing. -/
structure SameNumbers (f f' : NcFile K) : Prop where
  other : f' = { f with faceResult := f'.faceResult, edgeResult := f'.edgeResult }
  face : ∀ name, (f'.faceResult name).map (fun v t i => (v t i).value) = (f.faceResult name).map fun v t i => (v t i).value
  edge : ∀ name, (f'.edgeResult name).map (fun v t i => (v t i).value) = (f.edgeResult name).map fun v t i => (v t i).value

end Fm2prof.Spec
