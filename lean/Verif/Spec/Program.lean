import Verif.Model.Program
import Verif.Spec.Project
import Verif.Spec.Cli

/-!
# What a configuration file means, and what commands leave alone
-/

namespace Fm2prof.Spec

variable {K : Type} [Field K] [LinearOrder K] [IsStrictOrderedRing K] [FloorRing K]

/-- The whole number that a configuration file gives a parameter; the default if there is none or it is not a whole number. -/
def wholeNumberIn (f : FileContent) (key : String) (default : Int) : Int :=
  ((fileValue f "parameters".toList key.toList).bind parseInt).getD default

/-- The number that a configuration file gives a parameter. -/
def numberIn (ft : FloatText K) (f : FileContent) (key : String) (default : K) : K :=
  ((fileValue f "parameters".toList key.toList).bind ft.parse).getD default

/-- The switch that a configuration file sets: every text except `true`, in any capitalisation, is off. -/
def switchIn (f : FileContent) (sect key : String) (default : Bool) : Bool :=
  match fileValue f sect.toList key.toList with
  | none => default
  | some t => decide (strip (lower t) = "true".toList)

/-- The text that a configuration file gives a parameter. -/
def textIn (f : FileContent) (key default : String) : Text := (fileValue f "parameters".toList key.toList).getD default.toList

/-- The cross-sections that a configuration file selects; none means all. -/
def selectionIn (f : FileContent) : List Int :=
  ((fileValue f "debug".toList "CssSelection".toList).bind fun t => parseInts (splitSep ',' (stripBrackets t))).getD []

/-- The input file that a configuration file names, in the directory of the configuration file, if it exists. -/
def namedFile (dir : Text) (files : List Text) (f : FileContent) (key : String) : Option Text :=
  ((fileValue f "input".toList key.toList).map (joinPath dir)).filter fun p => decide (p ∈ files)

/-- What a configuration file tells a run, with the defaults of the documentation. -/
def settingsIn (ft : FloatText K) (dir : Text) (files : List Text) (f : FileContent) : Settings K where
  run := {
    pipeline := {
      build := {
        skipMaps := wholeNumberIn f "SkipMaps" 0
        lakeTimesteps := wholeNumberIn f "LakeTimesteps" 10
        absoluteVelocityThreshold := numberIn ft f "AbsoluteVelocityThreshold" (1 / 10)
        relativeVelocityThreshold := numberIn ft f "RelativeVelocityThreshold" (3 / 20)
        conveyanceDetectionMethod := wholeNumberIn f "ConveyanceDetectionMethod" 1
        extrapolateStorage := switchIn f "parameters" "ExtrapolateStorage" true }
      sdCorrection := switchIn f "parameters" "SDCorrection" true
      sdOptimisationMethod := wholeNumberIn f "SDOptimisationMethod" 0
      sdTransitionHeight := numberIn ft f "SDTransitionHeight" (1 / 2)
      minimumWidth := numberIn ft f "MinimumTotalWidth" (1 / 2)
      maximumPoints := wholeNumberIn f "MaximumPointsInProfile" 20 }
    frictionWeighing := wholeNumberIn f "FrictionWeighingMethod" 0
    floodplainTolerance := numberIn ft f "SDFloodplainBase" (1 / 2)
    cssSelection := selectionIn f
    exportCssData := switchIn f "debug" "ExportCSSData" false
    exportMapFiles := switchIn f "debug" "ExportMapFiles" false }
  defaultRegion := textIn f "DefaultRegion" "undefined"
  defaultSection := textIn f "DefaultSection" "floodplain1"
  mapPath := (namedFile dir files f "2DMapOutput").getD []
  cssPath := (namedFile dir files f "CrossSectionLocationFile").getD []
  regionPath := (namedFile dir files f "RegionPolygonFile").getD []
  sectionPath := (namedFile dir files f "SectionPolygonFile").getD []
  mapIsText := (namedFile dir files f "2DMapOutput").isNone

/-- The surroundings of a run with all mandatory files and an output directory. -/
def ready (faults : WriteFaults) : Surroundings := ⟨true, true, true, true, faults⟩

/-- The files of an output directory when a project has been opened: its log file is longer. -/
def opened (logText : Text) (s : Store) : Store := s.set "fm2prof.log".toList ((s "fm2prof.log".toList).getD [] ++ logText)

/-- A project as it is documented: a plain configuration file with the sections `input` and `output`, and an output directory. No
file has the empty path. -/
structure ProjectAt (w : AllFiles K) (name path : Text) (f : FileContent) (out : Text) : Prop where
  named : withSuffix ".ini".toList name = .ok path
  plain : PlainFile f
  text : w.inputs.texts path = some (fileText f)
  input : ∃ t ∈ f, lower t.1 = "input".toList
  output : ∃ t ∈ f, lower t.1 = "output".toList
  directory : ∃ o, fileValue f "output".toList "OutputDirectory".toList = some o ∧ out = joinPath (parentPath path) o
  free : out ∉ w.disk.files
  real : [] ∉ w.disk.files

/-- A configuration file without the line for an input file. -/
def withoutInput (key : String) (f : FileContent) : FileContent :=
  f.map fun s => if lower s.1 = "input".toList then (s.1, s.2.filter fun i => decide (lower (rstrip i.1) ≠ lower key.toList)) else s

/-- The same files, with another text at a path. -/
def withText (w : AllFiles K) (path t : Text) : AllFiles K :=
  { w with inputs := { w.inputs with texts := Store.set w.inputs.texts path t } }

end Fm2prof.Spec
