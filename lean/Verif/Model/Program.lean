import Verif.Model.Cli
import Verif.Model.Project

/-!
# The whole program: commands on the files of projects

`Model/Cli.lean` leaves the computations of a run open. Here they are those of `Model/Project.lean`, on the files that the commands find,
and the cache files are kept from one command to the next.
-/

namespace Fm2prof

variable {K : Type} [Field K] [LinearOrder K] [IsStrictOrderedRing K] [FloorRing K]

/-- What the program depends on besides the files: the libraries, what `mkdir` does, where files can be written, the current directory,
what the log file gets when a project is opened, whether drawing the figures raises an exception, what `compare` uses, and a run of a
configuration that has a value of a wrong type, which no configuration file leads to. -/
structure Computer (K : Type) [Field K] [LinearOrder K] [IsStrictOrderedRing K] [FloorRing K] where
  tools : Tools K
  geometries : Geometries K
  faults : WriteFaults
  mkdir : Text → MkdirResult
  writable : Text → Bool
  cwd : Text
  logText : Text
  figures : Store → Option PyErr
  compare : CompareTools K
  other : Job (Loc K) (Finished K)

/-- All files: those that are read, which files and directories exist, and the files in each output directory. -/
structure AllFiles (K : Type) where
  inputs : ProjectFiles K
  disk : Disk
  results : Text → Store

/-- Whether an input file (ini_file.py:190-200) of the configuration is a file (fm2prof_runner.py:231-239). -/
def inputIsFile (ft : FloatText K) (key : String) (c : Config K) (disk : Disk) : Bool :=
  match getInputFile key.toList c with
  | .ok v => decide (valueText ft v ∈ disk.files)
  | .error _ => false

/-- The surroundings of a run (fm2prof_runner.py:121-153, 231-239, 765-780). -/
def Computer.surroundings (e : Computer K) (dir : Text) (c : Config K) (disk : Disk) : Surroundings :=
  { configured := true
    mapIsFile := inputIsFile e.tools.ft "2DMapOutput" c disk
    cssIsFile := inputIsFile e.tools.ft "CrossSectionLocationFile" c disk
    dirExists := match getOutputDirectory e.tools.ft dir c with
      | .ok out => decide (out ∈ disk.dirs)
      | .error _ => false
    faults := e.faults }

/-- The computations of a run (fm2prof_runner.py:187-215, 405-472) of a configuration, with the files that it reads. Opening a file that
is not a netCDF file raises `OSError`. -/
def Computer.job (e : Computer K) (d : ProjectFiles K) (dir : Text) (c : Config K) (disk : Disk) : Job (Loc K) (Finished K) :=
  match settingsOf e.tools.ft c with
  | none =>
    { e.other with
      configured := true
      mapIsFile := inputIsFile e.tools.ft "2DMapOutput" c disk
      cssIsFile := inputIsFile e.tools.ft "CrossSectionLocationFile" c disk }
  | some p =>
    match d.maps p.mapPath with
    | none => jobOf e.tools p.run ⟨.error .osError, .ok [], none, none⟩ (e.surroundings dir c disk)
    | some m => jobOf e.tools p.run (projectInputs e.tools.ft e.geometries p m d).1 (e.surroundings dir c disk)

/-- The command line (cli.py) on these files. -/
def Computer.setup (e : Computer K) (d : ProjectFiles K) : Setup K (Loc K) (Finished K) where
  ft := e.tools.ft
  mkdir := e.mkdir
  writable := e.writable
  cwd := e.cwd
  logText := e.logText
  figures := e.figures
  compare := e.compare
  job := e.job d
  configured dir c disk := by
    unfold Computer.job
    split
    · rfl
    · split <;> rfl
  mapFile dir c disk v h := by
    have : inputIsFile e.tools.ft "2DMapOutput" c disk = decide (valueText e.tools.ft v ∈ disk.files) := by
      unfold inputIsFile; rw [h]
    rw [← this]
    unfold Computer.job
    split
    · rfl
    · split <;> rfl
  cssFile dir c disk v h := by
    have : inputIsFile e.tools.ft "CrossSectionLocationFile" c disk = decide (valueText e.tools.ft v ∈ disk.files) := by
      unfold inputIsFile; rw [h]
    rw [← this]
    unfold Computer.job
    split
    · rfl
    · split <;> rfl

/-- The part of the files that commands use. -/
def AllFiles.world (w : AllFiles K) : World := ⟨w.inputs.texts, w.disk, w.results⟩

/-- The cache files after `run` (fm2prof_runner.py:121-153) of an open project: they change only when the input is read. -/
def Computer.cachesAfterRun (e : Computer K) (d : ProjectFiles K) (p : Opened K) (overwrite : Bool) (w : World) : Caches :=
  match p with
  | none => d.caches
  | some (dir, c) =>
    match settingsOf e.tools.ft c, getOutputDirectory e.tools.ft dir c with
    | some q, .ok out =>
      if outputExists (w.results out) && !overwrite then d.caches
      else if (e.surroundings dir c w.disk).mapIsFile && (e.surroundings dir c w.disk).cssIsFile then
        match d.maps q.mapPath with
        | some m => (projectInputs e.tools.ft e.geometries q m d).2
        | none => d.caches
      else d.caches
    | _, _ => d.caches

/-- The cache files after a command (cli.py:22-89). -/
def Computer.cachesAfter (e : Computer K) (w : AllFiles K) : Command → Caches
  | .run name overwrite _ =>
    match withSuffix ".ini".toList name with
    | .error _ => w.inputs.caches
    | .ok path =>
      match openRunner (e.setup w.inputs) path w.world with
      | (_, .error _) => w.inputs.caches
      | (w', .ok p) => e.cachesAfterRun w.inputs p overwrite w'
  | _ => w.inputs.caches

/-- A command (cli.py:22-89): the files it leaves and the exit status. -/
def program (e : Computer K) (w : AllFiles K) (a : Command) : AllFiles K × Nat :=
  let r := command (e.setup w.inputs) w.world a
  (⟨{ w.inputs with texts := r.1.texts, caches := e.cachesAfter w a }, r.1.disk, r.1.results⟩, r.2)

/-- Several commands. -/
def programs (e : Computer K) : List Command → AllFiles K → AllFiles K
  | [], w => w
  | a :: as, w => programs e as (program e w a).1

end Fm2prof
