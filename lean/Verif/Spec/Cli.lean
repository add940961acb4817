import Verif.Model.Cli
import Verif.Spec.IniFile
import Verif.Spec.Runner
import Verif.Spec.Stats

/-!
# What commands are expected to do
-/

namespace Fm2prof.Spec

variable {K : Type} [Field K] [LinearOrder K] [IsStrictOrderedRing K] [FloorRing K] {S C : Type}

/-- A name of a file, without the directory. -/
def FileName (base : Text) : Prop := base ≠ [] ∧ '/' ∉ base

/-- The configuration file of a project, as documented: `create MyProject` makes `MyProject.ini`. -/
def projectFile (name : Text) : Text := name ++ ".ini".toList

/-- The defaults print as text that can be read back. -/
def ReadableDefaults (ft : FloatText K) : Prop :=
  PrintsPlain ft (template (K := K)) ∧ ∀ e ∈ parameterTemplate (K := K) ++ debugTemplate, Printable ft e.type e.value

/-- The configuration a command works with. -/
def configurationOf (x : Setup K S C) (name : Text) (w : World) : Except PyErr (Opened K) :=
  match withSuffix ".ini".toList name with
  | .error e => .error e
  | .ok path => (openRunner x path w).2

/-- What `run` of the project returns to a Python program. -/
def runReturns (x : Setup K S C) (name : Text) (overwrite : Bool) (w : World) : Except PyErr Bool :=
  match withSuffix ".ini".toList name with
  | .error e => .error e
  | .ok path =>
    match openRunner x path w with
    | (_, .error e) => .error e
    | (w', .ok p) => (runProject x p overwrite w').2

/-- Files are kept and directories are only added. -/
def Grows (d d' : Disk) : Prop := d'.files = d.files ∧ ∀ p ∈ d.dirs, p ∈ d'.dirs

/-- All files in output directories are the same, except for log files. -/
def SameResults (w w' : World) : Prop := ∀ d f, f ≠ "fm2prof.log".toList → w'.results d f = w.results d f

/-- The files of a comparison: the tables of levels and discharges, the stations, the rating curves, and figures. -/
def ComparisonFile (f : Text) : Prop :=
  f ∈ ["1D_H.csv".toList, "1D_Q.csv".toList, "2D_H.csv".toList, "2D_Q.csv".toList, "map_1d_2d.csv".toList,
    "1D_H_digitized.csv".toList, "2D_H_digitized.csv".toList] ∨ ∃ r, f = "figures/".toList ++ r

/-- The command is a comparison. -/
def Compares : Command → Prop
  | .compare _ _ _ _ => True
  | _ => False

/-- The command may replace results. -/
def Overwrites : Command → Prop
  | .run _ overwrite _ => overwrite = true
  | _ => False

end Fm2prof.Spec
