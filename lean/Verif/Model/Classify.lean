import Mathlib.Algebra.Order.Field.Basic
import Mathlib.Algebra.Order.Floor.Ring
import Mathlib.Data.List.Dedup
import Verif.Model.Build

/-!
# Assigning 2D points to cross-sections and sections

Models `nearest_neighbour.py` (`classify_with_regions`, `classify_without_regions`, `_get_class_tree`),
`Fm2ProfRunner._classify_roughness_sections_by_variance` (`fm2prof_runner.py`) and `FmModelData`
(`data_import.py`). Names of cross-sections and regions are elements of an arbitrary type `ι` (strings in the code):
the code compares names of regions with ids of cross-sections, so both have the same type.
-/

namespace Fm2prof

variable {K : Type} [Field K] [LinearOrder K] [IsStrictOrderedRing K]
variable {ι : Type} [DecidableEq ι]

/-- A location. -/
abbrev Pt (K : Type) := K × K

/-- Squared distance. -/
def sqDist (a b : Pt K) : K := (a.1 - b.1) ^ 2 + (a.2 - b.2) ^ 2

/-- The search tree of `KNeighborsClassifier(n_neighbors=1)` (scikit-learn, not modelled): it picks one nearest
sample; which one among equally near samples is left open. -/
structure NearestPicker (K : Type) [Field K] [LinearOrder K] where
  pick : List (Pt K) → Pt K → Nat
  pick_lt : ∀ l p, l ≠ [] → pick l p < l.length
  pick_nearest : ∀ l p q c, l[pick l p]? = some q → c ∈ l → sqDist q p ≤ sqDist c p

/-- A cross-section: its id, its location and the region it is in. -/
structure Station (ι K : Type) where
  id : ι
  pos : Pt K
  region : ι

/-- A face or edge of the grid: its location and the region it is in. -/
structure GridPoint (ι K : Type) where
  pos : Pt K
  region : ι

/-- `_get_class_tree(xy, id)` followed by `predict(points)` (nearest_neighbour.py:101-113, 47-49, 64-72).
scikit-learn raises `ValueError` when there is no sample to fit and when there is no point to predict. -/
def predict (nn : NearestPicker K) (css : List (Station ι K)) (pts : List (GridPoint ι K)) : Except PyErr (List ι) :=
  if css = [] ∨ pts = [] then .error .valueError
  else .ok (pts.filterMap fun p => (css[nn.pick (css.map (·.pos)) p.pos]?).map (·.id))

/-- `classify_without_regions` (nearest_neighbour.py:57-74): the labels of the faces and of the edges. -/
def classifyWithoutRegions (nn : NearestPicker K) (css : List (Station ι K)) (faces edges : List (GridPoint ι K)) :
    Except PyErr (List ι × List ι) :=
  match predict nn css faces with
  | .error e => .error e
  | .ok f =>
    match predict nn css edges with
    | .error e => .error e
    | .ok g => .ok (f, g)

/-- numpy's masked assignment `arr[mask] = values`. -/
def scatter {α : Type} : List Bool → List α → List α → List α
  | true :: ms, _ :: os, v :: vs => v :: scatter ms os vs
  | true :: _, o :: os, [] => o :: os
  | false :: ms, o :: os, vs => o :: scatter ms os vs
  | _, os, _ => os

/-- One round of the loop in `classify_with_regions` (nearest_neighbour.py:29-53). `trunc` is writing an id into the
array of 99-character strings that holds the labels of the edges (data_import.py:126). -/
def classifyRegion (nn : NearestPicker K) (trunc : ι → ι) (css : List (Station ι K)) (faces edges : List (GridPoint ι K))
    (r : ι) (labels : List ι × List ι) : Except PyErr (List ι × List ι) :=
  if css.filter (fun c => c.region = r) = [] then .ok labels
  else
    match predict nn (css.filter fun c => c.region = r) (faces.filter fun p => p.region = r) with
    | .error e => .error e
    | .ok f =>
      match predict nn (css.filter fun c => c.region = r) (edges.filter fun p => p.region = r) with
      | .error e => .error e
      | .ok g =>
        .ok (scatter (faces.map fun p => decide (p.region = r)) labels.1 f,
          scatter (edges.map fun p => decide (p.region = r)) labels.2 (g.map trunc))

/-- The loop over the regions. -/
def classifyRegions (nn : NearestPicker K) (trunc : ι → ι) (css : List (Station ι K))
    (faces edges : List (GridPoint ι K)) : List ι → List ι × List ι → Except PyErr (List ι × List ι)
  | [], labels => .ok labels
  | r :: rs, labels =>
    match classifyRegion nn trunc css faces edges r labels with
    | .error e => .error e
    | .ok labels' => classifyRegions nn trunc css faces edges rs labels'

/-- `Series.unique()`: without repetitions, in order of appearance. -/
def pdUnique (l : List ι) : List ι := l.reverse.dedup.reverse

/-- `classify_with_regions` (nearest_neighbour.py:15-55): faces start with the name of their region as label, edges
with the empty name `blank` (data_import.py:126). -/
def classifyWithRegions (nn : NearestPicker K) (trunc : ι → ι) (blank : ι) (css : List (Station ι K))
    (faces edges : List (GridPoint ι K)) : Except PyErr (List ι × List ι) :=
  classifyRegions nn trunc css faces edges (pdUnique (faces.map (·.region)))
    (faces.map (·.region), edges.map fun _ => blank)

/-! ## Sections without polygons -/

/-- `np.var`. -/
def npVar (l : List K) : K :=
  (l.map fun x => (x - l.sum / (l.length : K)) ^ 2).sum / (l.length : K)

/-- Index of the first smallest element (`np.nanargmin` of numbers), `none` for an empty list. -/
def argminFirst : List K → Option Nat
  | [] => none
  | x :: xs =>
    match argminFirst xs with
    | none => some 0
    | some k => if x ≤ xs.getD k 0 then some 0 else some (k + 1)

/-- `split_candidates` (fm2prof_runner.py:511): `np.arange(min, max, 1)`. -/
def splitCandidates [FloorRing K] (lo hi : K) : List K :=
  (List.range ⌈hi - lo⌉.toNat).map fun (k : Nat) => lo + (k : K)

/-- The larger of the variances of the two classes (fm2prof_runner.py:515-523). -/
def splitVariance (values : List K) (split : K) : K :=
  max (npVar (values.filter fun v => split < v)) (npVar (values.filter fun v => v ≤ split))

/-- `_classify_roughness_sections_by_variance` (fm2prof_runner.py:484-532) on the roughness values of the last map:
one label per point. The label is the number 1 or 2 for faces; in the array of edges it is stored as text. Values are
numbers (no NaN). `min` of an empty list raises `ValueError`. -/
def classifySections [FloorRing K] (values : List K) : Except PyErr (List Nat) :=
  match values.min?, values.max? with
  | some lo, some hi =>
    if (splitCandidates lo hi).length < 2 then .ok (values.map fun _ => 1)
    else
      match argminFirst ((splitCandidates lo hi).map (splitVariance values)) with
      | none => .error .valueError
      | some k =>
        match (splitCandidates lo hi)[k]? with
        | none => .error .indexError
        | some split => .ok (values.map fun v => if split < v then 1 else 2)
  | _, _ => .error .valueError

/-! ## The data of the 2D model -/

/-- `FmModelData.get_ordered_css_list` (data_import.py:206-232): the columns of the dictionary become one dictionary
per cross-section. -/
def orderedCssList {κ α : Type} (columns : List (κ × List α)) : List (List (κ × α)) :=
  match columns with
  | [] => []
  | (_, first) :: _ =>
    (List.range first.length).map fun (i : Nat) =>
      (columns.map (·.1)).zip ((columns.map (·.2)).filterMap fun v => v[i]?)

/-- The data of the faces, column by column; time series are rows per face. -/
structure FaceData (ι K : Type) where
  x : List K
  y : List K
  area : List K
  bedlevel : List K
  region : List ι
  islake : List Bool
  sect : List ι
  sclass : List ι
  waterdepth : List (List (Option K))
  waterlevel : List (List (Option K))
  velocityX : List (List (Option K))
  velocityY : List (List (Option K))

/-- The data of the edges, column by column. The faces of the edges are not always there. -/
structure EdgeData (ι K : Type) where
  x : List K
  y : List K
  sect : List ι
  sclass : List ι
  edgeFaces : Option (List (Int × Int))
  chezy : List (List (Option K))

/-- What `get_selection` returns. -/
structure Selection (ι K : Type) where
  x : List K
  y : List K
  area : List K
  bedlevel : List K
  waterdepth : List (List (Option K))
  waterlevel : List (List (Option K))
  velocity : List (List (Option K))
  sect : List ι
  chezy : List (List (Option K))
  region : List ι
  islake : List Bool
  edgeFaces : Option (List (Int × Int))
  edgeX : List K
  edgeY : List K
  edgeSection : List ι

/-- `(vx**2 + vy**2) ** 0.5` for one value; missing when a component is. -/
def speed (sqrt : K → K) (vx vy : Option K) : Option K :=
  match vx, vy with
  | some a, some b => some (sqrt (a ^ 2 + b ^ 2))
  | _, _ => none

/-- `waterlevel[waterdepth == 0] = np.nan` for one value. -/
def dryToNan (depth level : Option K) : Option K := if depth = some 0 then none else level

/-- `FmModelData.get_selection` (data_import.py:234-287). -/
def getSelection (sqrt : K → K) (f : FaceData ι K) (e : EdgeData ι K) (name : ι) : Selection ι K :=
  let mask := f.sclass.map fun c => decide (c = name)
  let edgeMask := e.sclass.map fun c => decide (c = name)
  { x := maskSelect mask f.x
    y := maskSelect mask f.y
    area := maskSelect mask f.area
    bedlevel := maskSelect mask f.bedlevel
    waterdepth := maskSelect mask f.waterdepth
    waterlevel := List.zipWith (List.zipWith dryToNan) (maskSelect mask f.waterdepth) (maskSelect mask f.waterlevel)
    velocity :=
      List.zipWith (List.zipWith (speed sqrt)) (maskSelect mask f.velocityX) (maskSelect mask f.velocityY)
    sect := maskSelect mask f.sect
    chezy := maskSelect edgeMask e.chezy
    region := maskSelect mask f.region
    islake := maskSelect mask f.islake
    edgeFaces := e.edgeFaces.map (maskSelect edgeMask)
    edgeX := maskSelect edgeMask e.x
    edgeY := maskSelect edgeMask e.y
    edgeSection := maskSelect edgeMask e.sect }

end Fm2prof
