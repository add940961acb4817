import Verif.Spec.Pipeline

/-!
# The part of the grid that belongs to a cross-section

Cross-sections and grid points with the regions they are in; without region polygons all are in one region without a name.
-/

namespace Fm2prof.Spec

open Fm2prof

variable {K : Type} [Field K] [LinearOrder K] [IsStrictOrderedRing K]

/-- The cross-sections with their regions. -/
def placed (css : List (Loc K)) : Option RegionLabels → List (Station Text K)
  | none => css.map fun l => ⟨l.id, (l.x, l.y), []⟩
  | some r => (css.zip r.css).map fun p => ⟨p.1.id, (p.1.x, p.1.y), p.2⟩

/-- The faces with their regions. -/
def placedFaces (d : MapData K) : Option RegionLabels → List (GridPoint Text K)
  | none => (d.faces.x.zip d.faces.y).map fun p => ⟨p, []⟩
  | some r => ((d.faces.x.zip d.faces.y).zip r.faces).map fun p => ⟨p.1, p.2⟩

/-- The edges with their regions. -/
def placedEdges (d : MapData K) : Option RegionLabels → List (GridPoint Text K)
  | none => (d.edges.x.zip d.edges.y).map fun p => ⟨p, []⟩
  | some r => ((d.edges.x.zip d.edges.y).zip r.edges).map fun p => ⟨p.1, p.2⟩

/-- A point belongs to a cross-section: it is in its region and nearer to it than to any other cross-section of the region. -/
def Belongs (css : List (Station Text K)) (c : Station Text K) (p : GridPoint Text K) : Prop :=
  p.region = c.region ∧ ∀ d ∈ css, d.region = c.region → d ≠ c → squaredDistance c.pos p.pos < squaredDistance d.pos p.pos

/-- A point does not belong to a cross-section: it is in another region or nearer to another cross-section of the region. -/
def Apart (css : List (Station Text K)) (c : Station Text K) (p : GridPoint Text K) : Prop :=
  p.region ≠ c.region ∨ ∃ d ∈ css, d.region = c.region ∧ squaredDistance d.pos p.pos < squaredDistance c.pos p.pos

deriving instance DecidableEq for Station

instance (css : List (Station Text K)) (c : Station Text K) (p : GridPoint Text K) : Decidable (Belongs css c p) := by
  unfold Belongs; infer_instance

instance (css : List (Station Text K)) (c : Station Text K) (p : GridPoint Text K) : Decidable (Apart css c p) := by
  unfold Apart; infer_instance

/-- Another location file for the same 2D model and the same polygons: other cross-sections, and the regions they are in. -/
def Inputs.withCss (css : List (Loc K)) (regions : List Text) (i : Inputs K) : Inputs K :=
  { i with
    css := .ok css
    regions := i.regions.map fun r => r.map fun r => { r with css := regions } }

/-- The regions of the other cross-sections in place of the first ones. -/
def withRegions (labels : List Text) (regions : Option RegionLabels) : Option RegionLabels :=
  regions.map fun r => { r with css := labels }

/-- A cross-section is in a list, no other one there has its name, and the names fit in the table of the edges (99 characters, needed with
regions only). -/
structure Named (css : List (Station Text K)) (c : Station Text K) (regions : Option RegionLabels) : Prop where
  mem : c ∈ css
  only : ∀ d ∈ css, d.id = c.id → d = c
  short : regions ≠ none → ∀ d ∈ css, d.id.length ≤ 99

end Fm2prof.Spec
