import Verif.Spec.Pipeline

/-!
# Map files with maps left out
-/

namespace Fm2prof.Spec

open Fm2prof

variable {K : Type} [Field K] [LinearOrder K]

/-- A map file with each of its series changed in the same way, and the number of maps that are left. -/
def MapData.editMaps (g : List (Option K) → List (Option K)) (n : Nat) (d : MapData K) : MapData K :=
  { faces := { d.faces with
      waterdepth := d.faces.waterdepth.map g, waterlevel := d.faces.waterlevel.map g
      velocityX := d.faces.velocityX.map g, velocityY := d.faces.velocityY.map g }
    edges := { d.edges with chezy := d.edges.chezy.map g }
    chezyMean := d.chezyMean.map g
    nMaps := n }

/-- The input of a run with only the first maps in the map file. -/
def Inputs.firstMaps (n : Nat) (i : Inputs K) : Inputs K := { i with map := i.map.map (MapData.editMaps (List.take n) n) }

/-- The input of a run with one map left out of the map file. -/
def Inputs.withoutMap (p : Nat) (i : Inputs K) : Inputs K :=
  { i with map := i.map.map fun d => MapData.editMaps (fun r => r.eraseIdx p) (d.nMaps - 1) d }

/-- All series of a map file have a value for each map. -/
def MapData.Whole (d : MapData K) : Prop :=
  ∀ r ∈ d.faces.waterdepth ++ d.faces.waterlevel ++ d.faces.velocityX ++ d.faces.velocityY ++ d.edges.chezy ++ d.chezyMean,
    r.length = d.nMaps

end Fm2prof.Spec
