import Verif.Model.Pipeline
import Verif.Spec.Runner
import Verif.Spec.Export
import Verif.Spec.Classify
import Verif.Spec.Geometry

/-!
# What a run on its data is expected to do
-/

namespace Fm2prof.Spec

open Fm2prof

variable {K : Type} [Field K] [LinearOrder K] [IsStrictOrderedRing K] [FloorRing K]

/-- A location for which there is a cross-section: it has a name, and at least ten faces are assigned to it. -/
def Usable (m : Model2d K) (l : Loc K) : Prop := l.id ≠ [] ∧ 10 ≤ (rowsOf m.faces.sclass l.id).length

instance (m : Model2d K) (l : Loc K) : Decidable (Usable m l) := by unfold Usable; infer_instance

/-- All columns of a map file have one entry per face or per edge. -/
structure Columns (d : MapData K) : Prop where
  y : d.faces.y.length = d.faces.x.length
  area : d.faces.area.length = d.faces.x.length
  bedlevel : d.faces.bedlevel.length = d.faces.x.length
  region : d.faces.region.length = d.faces.x.length
  islake : d.faces.islake.length = d.faces.x.length
  waterdepth : d.faces.waterdepth.length = d.faces.x.length
  waterlevel : d.faces.waterlevel.length = d.faces.x.length
  velocityX : d.faces.velocityX.length = d.faces.x.length
  velocityY : d.faces.velocityY.length = d.faces.x.length
  chezyMean : d.chezyMean.length = d.faces.x.length
  edgeY : d.edges.y.length = d.edges.x.length
  edgeChezy : d.edges.chezy.length = d.edges.x.length

/-- The files that a run reads fit together: the columns of the map file, and as many labels as there are faces, edges and
cross-sections. -/
structure Consistent (i : Inputs K) : Prop where
  map : ∀ d, i.map = .ok d → Columns d
  regions : ∀ d css r, i.map = .ok d → i.css = .ok css → i.regions = some (.ok r) →
    r.faces.length = d.faces.x.length ∧ r.edges.length = d.edges.x.length ∧ r.css.length = css.length
  sections : ∀ d r, i.map = .ok d → i.sections = some (.ok r) →
    r.faces.length = d.faces.x.length ∧ r.edges.length = d.edges.x.length

/-- The numbers of a cross-section that are printed in full are floats. -/
def FullNumbers (ft : FloatText K) (c : Finished K) : Prop :=
  ft.representable c.out.extraFlowArea ∧ ∀ b, c.out.floodplainBase = some b → ft.representable b

/-- The names of the sections that have a roughness file, the file and the name in it. -/
def roughnessFiles : List (String × String × String) :=
  [("main", "roughness-Main.ini", "Main"), ("floodplain1", "roughness-FloodPlain1.ini", "FloodPlain1"),
    ("floodplain2", "roughness-FloodPlain2.ini", "FloodPlain2")]

/-- There is an edge of a cross-section that is in a section. -/
def HasEdge (m : Model2d K) (l : Loc K) (sect : Text) : Prop :=
  ∃ e : Nat, m.edges.sclass[e]? = some l.id ∧ m.edges.sect[e]? = some sect

/-- The edges of a cross-section that are in a section. -/
def edgesIn (m : Model2d K) (l : Loc K) (sect : Text) : List Nat :=
  (rowsOf m.edges.sclass l.id).filter fun e => decide (m.edges.sect[e]? = some sect)

/-- The roughness of these edges at a map. -/
def edgeRoughness (m : Model2d K) (l : Loc K) (sect : Text) (t : Nat) : List (Option K) :=
  (edgesIn m l sect).map fun e => m.edges.chezy[e]?.bind fun r => r[t]?.join

instance (m : Model2d K) (l : Loc K) (sect : Text) : Decidable (HasEdge m l sect) :=
  decidable_of_iff (edgesIn m l sect ≠ []) (by
    unfold HasEdge edgesIn rowsOf
    rw [← List.length_pos_iff_ne_nil, List.length_pos_iff_exists_mem]
    refine exists_congr fun e => ?_
    rw [List.mem_filter, List.mem_filter, List.mem_range]
    simp only [decide_eq_true_eq]
    constructor
    · exact fun h => ⟨h.1.2, h.2⟩
    · exact fun h => ⟨⟨(List.getElem?_eq_some_iff.1 h.1).1, h.1⟩, h.2⟩)

/-- One face of the 2D model as a cell: its area and bed level, and its depth, level and velocity per map. The level is missing where
the depth is zero, and the velocity is the root of the summed squares. -/
def gridCell (sqrt : K → K) (f : FaceData Text K) (r : Nat) : Option (Cell K) :=
  f.area[r]?.bind fun area => f.bedlevel[r]?.bind fun bed => f.waterdepth[r]?.bind fun depth =>
    f.waterlevel[r]?.bind fun level => f.velocityX[r]?.bind fun vx => f.velocityY[r]?.map fun vy =>
      { area := area, bed := bed
        depth := fun t => depth[t]?.join
        level := fun t => depth[t]?.bind fun d => level[t]?.bind fun z => if d = some 0 then none else z
        velocity := fun t => vx[t]?.bind fun u => vy[t]?.bind fun v => u.bind fun a => v.map fun b => sqrt (a ^ 2 + b ^ 2) }

/-- All faces of the 2D model as cells. -/
def gridCells (sqrt : K → K) (f : FaceData Text K) : List (Cell K) :=
  (List.range f.sclass.length).filterMap (gridCell sqrt f)

/-- A map file without its first maps. -/
def MapData.dropMaps (s : Nat) (d : MapData K) : MapData K :=
  { faces := { d.faces with
      waterdepth := d.faces.waterdepth.map (List.drop s), waterlevel := d.faces.waterlevel.map (List.drop s)
      velocityX := d.faces.velocityX.map (List.drop s), velocityY := d.faces.velocityY.map (List.drop s) }
    edges := { d.edges with chezy := d.edges.chezy.map (List.drop s) }
    chezyMean := d.chezyMean.map (List.drop s)
    nMaps := d.nMaps - s }

/-- The input of a run with the first maps left out of the map file. -/
def Inputs.dropMaps (s : Nat) (i : Inputs K) : Inputs K := { i with map := i.map.map (MapData.dropMaps s) }

/-- A configuration that skips a number of maps. -/
def skipping (s : Nat) (cfg : RunConfig K) : RunConfig K :=
  { cfg with pipeline := { cfg.pipeline with build := { cfg.pipeline.build with skipMaps := s } } }

/-- What is known of a face: its place, area, bed level and section, and its depths, levels and velocities. -/
structure GridRecord (K : Type) where
  x : Option K
  y : Option K
  area : Option K
  bedlevel : Option K
  sect : Option Text
  waterdepth : Option (List (Option K))
  waterlevel : Option (List (Option K))
  velocityX : Option (List (Option K))
  velocityY : Option (List (Option K))
  deriving DecidableEq

/-- The record of a face. -/
def gridRecord (f : FaceData Text K) (r : Nat) : GridRecord K :=
  ⟨f.x[r]?, f.y[r]?, f.area[r]?, f.bedlevel[r]?, f.sect[r]?, f.waterdepth[r]?, f.waterlevel[r]?, f.velocityX[r]?, f.velocityY[r]?⟩

/-- What is known of an edge: its section and roughness. -/
def edgeRecord (e : EdgeData Text K) (r : Nat) := (e.sect[r]?, e.chezy[r]?)

/-- Two 2D models have the same faces and edges, in the same order, for a cross-section. -/
structure SameData (m m' : Model2d K) (id : Text) : Prop where
  faces : (rowsOf m.faces.sclass id).map (gridRecord m.faces) = (rowsOf m'.faces.sclass id).map (gridRecord m'.faces)
  edges : (rowsOf m.edges.sclass id).map (edgeRecord m.edges) = (rowsOf m'.edges.sclass id).map (edgeRecord m'.edges)
  nMaps : m.nMaps = m'.nMaps
  numbered : m.numbered = m'.numbered

end Fm2prof.Spec
