import Verif.Spec.Territory

/-!
# Other names for the cross-sections

A location file in which the cross-sections have other names, branches and chainages, at the same places and with the same lengths.
-/

namespace Fm2prof.Spec

open Fm2prof

variable {K : Type} [Field K] [LinearOrder K] [IsStrictOrderedRing K]

/-- A cross-section with another name, on another branch, at another chainage. -/
def Loc.renamed (name : Text → Text) (branch : Loc K → Text) (chainage : Loc K → K) (l : Loc K) : Loc K :=
  { l with id := name l.id, branch := branch l, chainage := chainage l }

/-- The inputs with another location file. -/
def Inputs.renamed (name : Text → Text) (branch : Loc K → Text) (chainage : Loc K → K) (i : Inputs K) : Inputs K :=
  { i with css := i.css.map fun css => css.map (Loc.renamed name branch chainage) }

/-- The new names can stand for the old ones: different names stay different, a blank name stays blank, and no region in which faces are
found is called like a cross-section. With regions names have at most 99 characters, the room for them in the table of the edges. -/
structure Renaming (name : Text → Text) (d : MapData K) (css : List (Loc K)) (regions : Option RegionLabels) : Prop where
  injective : ∀ l ∈ css, ∀ l' ∈ css, name l.id = name l'.id → l.id = l'.id
  blank : ∀ l ∈ css, name l.id = [] ↔ l.id = []
  free : ∀ p ∈ placedFaces d regions, ∀ l ∈ css, l.id ≠ [] → p.region ≠ l.id ∧ p.region ≠ name l.id
  short : regions ≠ none → ∀ l ∈ css, l.id.length ≤ 99 ∧ (name l.id).length ≤ 99

/-- The optimiser and the logging of a second run: what they do for a cross-section is what they did for it under its old name. -/
structure SameHelp [FloorRing K] (name : Text → Text) (css : List (Loc K)) (x y : Tools K) : Prop where
  opt : ∀ l ∈ css, y.opt (name l.id) = x.opt l.id
  log : ∀ l ∈ css, y.log (name l.id) = x.log l.id
  rest : ∃ opt log, y = { x with opt := opt, log := log }

/-- The files with roughness tables for D-Flow 1D. -/
def IsRoughness (f : Text) : Prop := ∃ p ∈ roughnessFiles, f = p.2.1.toList

end Fm2prof.Spec
