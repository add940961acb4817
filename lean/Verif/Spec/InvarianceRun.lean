import Verif.Spec.Invariance
import Verif.Spec.Pipeline

/-!
# Whole runs on the same river described in another way

The input of a run, face by face and edge by edge, so that the faces and edges can be put in another order and the axes can be
turned.
-/

namespace Fm2prof.Spec

open Fm2prof

variable {K : Type} [Field K] [LinearOrder K] [IsStrictOrderedRing K]

/-- One face: its data in the map file, its mean roughness at each map, and the region and section polygon it lies in. -/
structure InFace (K : Type) where
  row : FaceRow K
  chezyMean : List (Option K)
  inRegion : Text
  inSection : Text

/-- One edge: its data in the map file, and the region and section polygon it lies in. -/
structure InEdge (K : Type) where
  row : EdgeRow K
  inRegion : Text
  inSection : Text

/-- The input of a run with these faces and edges in this order. `edgeFaces` are the numbers of the faces of the edges. `regions`:
the regions of the cross-sections if there are region polygons. `sections`: there are section polygons. -/
def inputsOf (faces : List (InFace K)) (edges : List (InEdge K)) (edgeFaces : Option (List (Int × Int))) (nMaps : Nat)
    (css : List (Loc K)) (regions : Option (List Text)) (sections : Bool) : Inputs K :=
  { map := .ok ⟨faceColumns (faces.map (·.row)), edgeColumns (edges.map (·.row)) edgeFaces, faces.map (·.chezyMean), nMaps⟩
    css := .ok css
    regions := regions.map fun r => .ok ⟨faces.map (·.inRegion), edges.map (·.inRegion), r⟩
    sections := if sections then some (.ok ⟨faces.map (·.inSection), edges.map (·.inSection)⟩) else none }

/-- For each cross-section with enough faces, one of its faces is nearer to its location than all others. -/
def ClearCentres [FloorRing K] (nn : NearestPicker K) (i : Inputs K) : Prop :=
  ∀ m, setModelData nn i = .ok m → ∀ l ∈ m.stations, Usable m l → OneNearest m l

/-! ## Other axes -/

/-- A face seen from axes that are turned and moved. -/
def InFace.turn (c s p q : K) (f : InFace K) : InFace K := { f with row := FaceRow.turn c s p q f.row }

/-- An edge seen from these axes. -/
def InEdge.turn (c s p q : K) (e : InEdge K) : InEdge K :=
  { e with row := { e.row with x := c * e.row.x - s * e.row.y + p, y := s * e.row.x + c * e.row.y + q } }

/-- The square of the distance between a point and the location of a cross-section. -/
def distance2 (px py : K) (l : Loc K) : K := (l.x - px) ^ 2 + (l.y - py) ^ 2

/-- No two cross-sections of a list with different ids are both nearest to a point. -/
def OneNearestCss (css : List (Loc K)) (px py : K) : Prop :=
  ∀ a ∈ css, ∀ b ∈ css, (∀ c ∈ css, distance2 px py a ≤ distance2 px py c) → distance2 px py b = distance2 px py a → b.id = a.id

/-- The cross-sections in a region; all of them if there are no regions. -/
def cssIn (css : List (Loc K)) (regions : Option (List Text)) (r : Text) : List (Loc K) :=
  match regions with
  | none => css
  | some rs => ((css.zip rs).filter fun p => decide (p.2 = r)).map (·.1)

/-- It is clear for all faces and edges to which cross-section they belong. -/
def ClearCss (faces : List (InFace K)) (edges : List (InEdge K)) (css : List (Loc K)) (regions : Option (List Text)) : Prop :=
  (∀ f ∈ faces, OneNearestCss (cssIn css regions f.inRegion) f.row.x f.row.y) ∧
  ∀ e ∈ edges, OneNearestCss (cssIn css regions e.inRegion) e.row.x e.row.y

/-! ## Another reference level, and another unit of length along the river -/

/-- The input of a run with all bed and water levels `d` higher. -/
def Inputs.raise (d : K) (i : Inputs K) : Inputs K :=
  { i with map := i.map.map fun m => { m with faces := { m.faces with
      bedlevel := m.faces.bedlevel.map (· + d)
      waterlevel := m.faces.waterlevel.map (List.map (Option.map (· + d))) } } }

/-- The input of a run with all faces `k` times as large and all cross-sections `k` times as long. -/
def Inputs.scale (k : K) (i : Inputs K) : Inputs K :=
  { i with
    map := i.map.map fun m => { m with faces := { m.faces with area := m.faces.area.map (k * ·) } }
    css := i.css.map (List.map fun l => { l with length := k * l.length }) }

end Fm2prof.Spec
