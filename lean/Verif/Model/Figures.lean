import Verif.Model.Visualise
import Verif.Model.Roughness
import Verif.Model.Runner

/-!
# Figures of the results (utils.py:418-960)

Drawing itself (matplotlib) is not modelled. A figure is the data that are drawn in it; matplotlib turns it into the content of a
file, or fails. Axis titles, colours and the reference curves that a user can add are left out.
-/

namespace Fm2prof

variable {K : Type} [Field K] [LinearOrder K] [IsStrictOrderedRing K] [FloorRing K]

/-! ## Branches -/

/-- Names of cross-sections split one after the other until one raises. -/
def splitAll (ft : FloatText K) : List Text → Except PyErr (List (Text × K × Text))
  | [] => .ok []
  | n :: ns =>
    match splitCss ft n with
    | .error e => .error e
    | .ok p =>
      match splitAll ft ns with
      | .error e => .error e
      | .ok ps => .ok (p :: ps)

/-- `branches` (utils.py:448-454) of the split names: the branches, and their parts before the first underscore. -/
def branchesOf (names : List (Text × K × Text)) : List Text × List Text :=
  let branches := npUnique (names.map (·.2.2))
  (branches, npUnique (branches.map fun b => (splitSep '_' b).head?.getD []))

/-- The truth value of `array == text` for an array of texts: numpy raises `ValueError` when there is more than one. For an empty array
it is false. -/
def arrayIs (array : List Text) (t : Text) : Except PyErr Bool :=
  match array with
  | [] => .ok false
  | [a] => .ok (decide (a = t))
  | _ => .error .valueError

/-- `branch in self.branches` (utils.py:518), where `branches` is a pair of arrays. -/
def inBranches (b : List Text × List Text) (branch : Text) : Except PyErr Bool :=
  match arrayIs b.1 branch with
  | .error e => .error e
  | .ok true => .ok true
  | .ok false => arrayIs b.2 branch

/-- `get_css_for_branch` (utils.py:542-545). -/
def cssForBranch (names : List (Text × K × Text)) (branch : Text) : List (Text × K × Text) :=
  names.filter fun n => branch.isPrefixOf n.2.2

/-- The loop over the parts of a branch (utils.py:525-531); `previous` is the part before. -/
def chainParts (names : List (Text × K × Text)) : Option Text → K → List Text → List (Text × K × Text)
  | _, _, [] => []
  | previous, running, sub :: subs =>
    let running' := match previous with
      | none => running
      | some p => running + (((cssForBranch names p).getLast?).map (·.2.1)).getD 0
    (cssForBranch names sub).map (fun s => (s.1, s.2.1 + running', s.2.2)) ++ chainParts names (some sub) running' subs

/-- `get_cross_sections_for_branch` (utils.py:507-533), from the text of the definition file. -/
def crossSectionsForBranch (ft : FloatText K) (text branch : Text) : Except PyErr (List (Text × K × Text)) :=
  match readDefinitions ft text with
  | .error e => .error e
  | .ok defs =>
    match splitAll ft (defs.map (·.id)) with
    | .error e => .error e
    | .ok names =>
      match inBranches (branchesOf names) branch with
      | .error e => .error e
      | .ok false => .error .keyError
      | .ok true => .ok (chainParts names none 0 (npUnique ((branchesOf names).1.filter fun b => branch.isPrefixOf b)))

/-! ## What is drawn -/

/-- The upper part of a figure (utils.py:759-830). The widths are drawn on both sides of the middle, at levels of which the first occurs
twice. -/
structure GeometryPlot (K : Type) where
  title : Text
  levels : List K
  totalLeft : List K
  totalRight : List K
  flowLeft : List K
  flowRight : List K
  mainSection : K × K
  floodplainSection : K × K
  sectionLevel : K
  lowestWater : Option K
  crest : CrestStyle × K
  deriving DecidableEq

/-- A labelled line or area. -/
structure Series (K : Type) where
  label : String
  x : List (Option K)
  y : List (Option K)
  deriving DecidableEq

/-- A figure. -/
structure FigureData (K : Type) where
  geometry : GeometryPlot K
  volume : List (Series K)
  roughness : List (Series K)
  levelRange : K × K
  deriving DecidableEq

/-- `_plot_geometry` (utils.py:759-830); `volumes` is the text of the volume file. Numbers in the definition that are not a number are
not modelled, nor are widths of different number. -/
def plotGeometry (ft : FloatText K) (volumes : Text) (d : CssDef K) : Except PyErr (GeometryPlot K) :=
  match allSome d.totalWidth, allSome d.flowWidth, allSome d.levels, d.mainSectionWidth, d.fp1SectionWidth, d.sdCrest with
  | some tw, some fw, some levels, some main, some fp1, some crest =>
    match listMin levels, levels.head? with
    | some lo, some first =>
      match lowestWaterLevel ft volumes d.id with
      | .error e => .error e
      | .ok water =>
        match sdPlotInfo levels crest with
        | .error e => .error e
        | .ok c =>
          if tw.length = levels.length ∧ fw.length = levels.length then
            .ok { title := d.id, levels := first :: levels
                  totalLeft := (0 :: tw).map fun w => -1 * w / 2, totalRight := (0 :: tw).map fun w => 1 * w / 2
                  flowLeft := (0 :: fw).map fun w => -1 * w / 2, flowRight := (0 :: fw).map fun w => 1 * w / 2
                  mainSection := (-(1 / 2) * main, 1 / 2 * main)
                  floodplainSection := (-(1 / 2) * (main + fp1), 1 / 2 * (main + fp1)), sectionLevel := lo - 1 / 4
                  lowestWater := water, crest := c }
          else .error .valueError
    | _, _ => .error .indexError
  | _, _, _, _, _, _ => .error .nanProfile

/-- `_plot_volume` (utils.py:832-895). -/
def plotVolume (ft : FloatText K) (volumes : Text) (d : CssDef K) : Except PyErr (List (Series K)) :=
  match readVolumes ft volumes d.id with
  | .error e => .error e
  | .ok v =>
    if v.z = [] then .error .valueError
    else .ok [⟨"1D Total Volume (incl. SD)", v.z, v.tvsd1d⟩, ⟨"1D Total Volume (excl. SD)", v.z, v.tv1d⟩,
      ⟨"1D Flow Volume (incl. SD)", v.z, v.fv1d⟩, ⟨"1D Flow Volume (excl. SD)", v.z, v.fv1d⟩,
      ⟨"2D Total Volume", v.z, v.tv2d⟩, ⟨"2D Flow Volume", v.z, v.fv2d⟩]

/-- `ax.plot(levels, values)` for what has been read of the roughness: nothing is drawn without data, and `ValueError` is raised when the
numbers of levels and values differ. -/
def roughnessSeries (label : String) (r : RoughnessInfo K) : Except PyErr (List (Series K)) :=
  match r.levels, r.values with
  | some l, some v => if l.length = v.length then .ok [⟨label, l, v⟩] else .error .valueError
  | _, _ => .ok []

/-- `_plot_roughness` (utils.py:897-923). The files are opened by `get_roughness_info_for_css` (utils.py:547-563) after which its name is
split. A missing file of the main channel raises `FileNotFoundError`; that of the floodplain does not matter. -/
def plotRoughness (ft : FloatText K) (main fp1 : Option Text) (d : CssDef K) : Except PyErr (List (Series K)) :=
  match main with
  | none => .error .osError
  | some text =>
    match readRoughness ft text d.id with
    | .error e => .error e
    | .ok r =>
      let first := match roughnessSeries "Main channel" r with
        | .error _ => []
        | .ok l => l
      match fp1 with
      | none => .ok first
      | some text =>
        match readRoughness ft text d.id with
        | .error e => .error e
        | .ok r =>
          match roughnessSeries "Floodplain1" r with
          | .error e => .error e
          | .ok l => .ok (first ++ l)

/-- What `figure_cross_section` draws for a cross-section (utils.py:638-640), from the files in the output directory. -/
def figureData (ft : FloatText K) (s : Store) (d : CssDef K) : Except PyErr (FigureData K) :=
  match s "volumes.csv".toList with
  | none => .error .osError
  | some volumes =>
    match plotGeometry ft volumes d with
    | .error e => .error e
    | .ok g =>
      match plotVolume ft volumes d with
      | .error e => .error e
      | .ok v =>
        match plotRoughness ft (s "roughness-Main.ini".toList) (s "roughness-FloodPlain1.ini".toList) d with
        | .error e => .error e
        | .ok r =>
          match (allSome d.levels).bind listMin, (allSome d.levels).bind listMax with
          | some lo, some hi => .ok ⟨g, v, r, (lo, hi)⟩
          | _, _ => .error .valueError

/-- The file of a figure (utils.py:624-627). -/
def figureFile (id : Text) : Text := "figures/cross_sections/".toList ++ id ++ ".png".toList

/-- `figure_cross_section` (utils.py:606-664) when it saves to a file: what is in the directory afterwards, and whether an error was
logged. `save` is matplotlib. Exceptions are caught. -/
def figureCrossSection (ft : FloatText K) (save : FigureData K → Except PyErr Text) (d : CssDef K) (overwrite : Bool) (s : Store) :
    Store × Bool :=
  if (s (figureFile d.id)).isSome ∧ overwrite = false then (s, false)
  else
    match figureData ft s d with
    | .error _ => (s, true)
    | .ok f =>
      match save f with
      | .error _ => (s, true)
      | .ok image => (s.set (figureFile d.id) image, false)

/-- `plot_cross_sections` (utils.py:666-678). It calls `figure_cross_section` with an argument `pbar`, which that does not have: this raises
`TypeError` for the first cross-section. -/
def plotCrossSections (ft : FloatText K) (s : Store) : Store × Except PyErr Unit :=
  match s "CrossSectionDefinitions.ini".toList with
  | none => (s, .error .osError)
  | some text =>
    match readDefinitions ft text with
    | .error e => (s, .error e)
    | .ok [] => (s, .ok ())
    | .ok (_ :: _) => (s, .error .typeError)

/-! ## Roughness along a branch -/

/-- The smallest and the largest roughness at each of the cross-sections (utils.py:486-491): without values `min(None)` raises `TypeError`, with none `ValueError`. -/
def roughnessMinMax (ft : FloatText K) (main : Text) : List (Text × K × Text) → Except PyErr (List (K × K × K))
  | [] => .ok []
  | n :: ns =>
    match readRoughness ft main n.1 with
    | .error e => .error e
    | .ok r =>
      match r.values with
      | none => .error .typeError
      | some v =>
        match (allSome v).bind listMin, (allSome v).bind listMax with
        | some lo, some hi =>
          match roughnessMinMax ft main ns with
          | .error e => .error e
          | .ok l => .ok ((n.2.1 / 1000, lo, hi) :: l)
        | _, _ => .error .valueError

/-- `figure_roughness_longitudinal` (utils.py:473-505): chainage in kilometres, smallest and largest roughness. -/
def roughnessLongitudinal (ft : FloatText K) (s : Store) (branch : Text) : Except PyErr (List (K × K × K)) :=
  match s "CrossSectionDefinitions.ini".toList with
  | none => .error .osError
  | some text =>
    match crossSectionsForBranch ft text branch with
    | .error e => .error e
    | .ok css =>
      match css, s "roughness-Main.ini".toList with
      | [], _ => .error .indexError
      | _ :: _, none => .error .osError
      | _ :: _, some main => roughnessMinMax ft main css

end Fm2prof
