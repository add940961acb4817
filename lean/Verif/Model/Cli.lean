import Verif.Model.Longitudinal
import Verif.Model.IniFile
import Verif.Model.Runner

/-!
# The command line (cli.py) and opening a project (fm2prof_runner.py:78-170)
-/

namespace Fm2prof

variable {K : Type} [Field K] [LinearOrder K] [IsStrictOrderedRing K] [FloorRing K]

/-- What commands find and leave behind: the texts of configuration files by path, the files and directories that exist, and the
files in each output directory. Simplification: that configuration files are also listed in `disk` is not required. -/
structure World where
  texts : Store
  disk : Disk
  results : Text → Store

/-- `Path(path).parent`. Paths are in the normal form of `pathlib`. -/
def parentPath (path : Text) : Text :=
  match (splitSep '/' path).dropLast with
  | [] => ['.']
  | [[]] => ['/']
  | parts => joinWith ['/'] parts

/-- What `compare` depends on besides the files of the project: dates and times, the results of both models by path, the routes that a text
stands for (`ast.literal_eval`, utils.py:1675-1680), the order in which numbers are sorted, and pictures. The routes are none when the text
stands for something that cannot be iterated. Simplification: text, tuples and other things that can be iterated are lists, and the names
in them are texts. -/
structure CompareTools (K : Type) [Field K] [LinearOrder K] where
  clock : Clock
  read1 : Text → Except PyErr (His1d K)
  read2 : Text → Except PyErr (His2d K)
  routes : Text → Except PyErr (Option (List (List Text)))
  order : ArgSort K
  image : FigureContent K → Text

/-- What commands depend on besides the files: how numbers are printed, what `mkdir` does, where files can be written, the current
directory, what the log file gets when a project is opened, whether drawing the figures raises an exception, what `compare` uses, and the
computations of a run, of which it is only known when they are started (fm2prof_runner.py:130, 217-247). -/
structure Setup (K S C : Type) [Field K] [LinearOrder K] [IsStrictOrderedRing K] [FloorRing K] where
  ft : FloatText K
  mkdir : Text → MkdirResult
  writable : Text → Bool
  cwd : Text
  logText : Text
  figures : Store → Option PyErr
  compare : CompareTools K
  job : Text → Config K → Disk → Job S C
  configured : ∀ dir c disk, (job dir c disk).configured = true
  mapFile : ∀ dir c disk v, getInputFile "2DMapOutput".toList c = .ok v →
    (job dir c disk).mapIsFile = decide (valueText ft v ∈ disk.files)
  cssFile : ∀ dir c disk v, getInputFile "CrossSectionLocationFile".toList c = .ok v →
    (job dir c disk).cssIsFile = decide (valueText ft v ∈ disk.files)

/-- An open project: its directory and configuration, or none when reading it was given up (fm2prof_runner.py:95-99). -/
abbrev Opened (K : Type) := Option (Text × Config K)

variable {S C : Type}

/-- `load_configuration` (fm2prof_runner.py:155-170): the directory, the configuration with the disk, and an exception. -/
def loadProject (x : Setup K S C) (path : Text) (w : World) : Text × IniState K × Option PyErr :=
  match w.texts path with
  | none => (x.cwd, ⟨template, w.disk⟩, none)
  | some t =>
    (parentPath path,
      loadConfiguration x.ft (fun d => decide (x.mkdir d = .made)) (parentPath path) (some t) ⟨template, w.disk⟩)

/-- The directory where a first `mkdir` failed with `FileNotFoundError`: a value of the output directory for which no directory
can be made because its parent is missing. Only this error is caught (fm2prof_runner.py:97). Simplification: it is told from the other
errors of `mkdir` by whether any output directory of the file has no parent. -/
def parentMissing (x : Setup K S C) (text : Text) : Bool :=
  match iniParams text with
  | .error _ => false
  | .ok supplied =>
    ((dictGet supplied "output".toList).getD []).any fun item =>
      decide (lower item.1 = "outputdirectory".toList ∧ x.mkdir item.2 = .notFound)

/-- `Project(path)` (fm2prof_runner.py:78-119). The log file is opened for appending. -/
def openRunner (x : Setup K S C) (path : Text) (w : World) : World × Except PyErr (Opened K) :=
  match loadProject x path w with
  | (dir, s, some e) =>
    let w' := { w with disk := s.disk }
    if e = .osError ∧ parentMissing x ((w.texts path).getD []) = true then (w', .ok none) else (w', .error e)
  | (dir, s, none) =>
    match hasOutputDirectory x.ft x.mkdir dir s with
    | .error e => ({ w with disk := s.disk }, .error e)
    | .ok (false, s') => ({ w with disk := s'.disk }, .ok (some (dir, s'.config)))
    | .ok (true, s') =>
      match getOutputDirectory x.ft dir s'.config with
      | .error e => ({ w with disk := s'.disk }, .error e)
      | .ok out =>
        if out ∈ s'.disk.dirs then
          (⟨w.texts, s'.disk, fun d => if d = out then
            (w.results out).set "fm2prof.log".toList (((w.results out) "fm2prof.log".toList).getD [] ++ x.logText)
            else w.results d⟩, .ok (some (dir, s'.config)))
        else ({ w with disk := s'.disk }, .error .osError)

/-- `Project(path).run(overwrite=…)` (fm2prof_runner.py:121-153). Simplification: the log of the run itself is left out. -/
def runProject (x : Setup K S C) (p : Opened K) (overwrite : Bool) (w : World) : World × Except PyErr Bool :=
  match p with
  | none => (w, .ok false)
  | some (dir, c) =>
    match getOutputDirectory x.ft dir c with
    | .error e => (w, .error e)
    | .ok out =>
      let r := run (x.job dir c w.disk) overwrite (w.results out)
      ({ w with results := fun d => if d = out then r.1 else w.results d }, r.2)

/-- `pp` (cli.py:80-85): the results in the output directory are drawn. -/
def postProcess (x : Setup K S C) (p : Opened K) (w : World) : Option PyErr :=
  match p with
  | none => some .attributeError
  | some (dir, c) =>
    match getOutputDirectory x.ft dir c with
    | .error e => some e
    | .ok out => x.figures (w.results out)

/-- `Compare1D2D(…).eval()` (utils.py:1626-1669) with results and routes as texts, in an output directory with these files. Without start
and stop time. Simplification: the directories for figures can be made, and the log of the comparison is left out. -/
def compareResults (y : CompareTools K) (ft : FloatText K) (isFile : Text → Bool) (path1 path2 routes : Text) (s : Store) :
    Store × Except PyErr Unit :=
  match y.routes routes with
  | .error e => (s, .error e)
  | .ok rs =>
    match initCompare y.clock ft isFile y.read1 y.read2 (some path1) (some path2) s with
    | (s1, .error e) => (s1, .error e)
    | (s1, .ok (one, two)) =>
      match openComparison ft ⟨none, none⟩ one two s1 with
      | (s2, .error e) => (s2, .error e)
      | (s2, .ok (session, r1, r2)) => (evalFigures y.order ft.parse y.image ⟨session, one.2, two.2, r1, r2, rs⟩ s2).2

/-- What `compare` does with an open project (utils.py:1603-1606, cli.py:49-57): the output directory must exist. -/
def compareProject (x : Setup K S C) (p : Opened K) (path1 path2 routes : Text) (w : World) : World × Except PyErr Unit :=
  match p with
  | none => (w, .error .attributeError)
  | some (dir, c) =>
    match getOutputDirectory x.ft dir c with
    | .error e => (w, .error e)
    | .ok out =>
      if out ∈ w.disk.dirs then
        let r := compareResults x.compare x.ft (fun p => decide (p ∈ w.disk.files)) path1 path2 routes (w.results out)
        ({ w with results := fun d => if d = out then r.1 else w.results d }, r.2)
      else (w, .error .valueError)

/-- Commands of the command line (cli.py:22-89). -/
inductive Command where
  | create (name : Text)
  | check (name : Text)
  | run (name : Text) (overwrite post : Bool)
  | compare (name path1 path2 routes : Text)
  deriving DecidableEq

/-- `create` (cli.py:22-31). -/
def cliCreate (x : Setup K S C) (name : Text) (w : World) : World × Nat :=
  let path := name ++ ".ini".toList
  if x.writable path then ({ w with texts := w.texts.set path (printConfiguration x.ft template) }, 0) else (w, 1)

/-- `check` (cli.py:34-39). -/
def cliCheck (x : Setup K S C) (name : Text) (w : World) : World × Nat :=
  match withSuffix ".ini".toList name with
  | .error _ => (w, 1)
  | .ok path =>
    match openRunner x path w with
    | (w', .error _) => (w', 1)
    | (w', .ok _) => (w', 0)

/-- `run` (cli.py:60-89). The result of the run is not used. -/
def cliRun (x : Setup K S C) (name : Text) (overwrite post : Bool) (w : World) : World × Nat :=
  match withSuffix ".ini".toList name with
  | .error _ => (w, 1)
  | .ok path =>
    match openRunner x path w with
    | (w', .error _) => (w', 1)
    | (w', .ok p) =>
      match runProject x p overwrite w' with
      | (w'', .error _) => (w'', 1)
      | (w'', .ok _) =>
        if post then
          match postProcess x p w'' with
          | some _ => (w'', 1)
          | none => (w'', 0)
        else (w'', 0)

/-- `compare` (cli.py:42-57). -/
def cliCompare (x : Setup K S C) (name path1 path2 routes : Text) (w : World) : World × Nat :=
  match withSuffix ".ini".toList name with
  | .error _ => (w, 1)
  | .ok path =>
    match openRunner x path w with
    | (w', .error _) => (w', 1)
    | (w', .ok p) =>
      match compareProject x p path1 path2 routes w' with
      | (w'', .error _) => (w'', 1)
      | (w'', .ok _) => (w'', 0)

/-- A command: what it leaves behind and the exit status, 0 for `typer.Exit` and 1 for an exception. -/
def command (x : Setup K S C) (w : World) : Command → World × Nat
  | .create name => cliCreate x name w
  | .check name => cliCheck x name w
  | .run name overwrite post => cliRun x name overwrite post w
  | .compare name path1 path2 routes => cliCompare x name path1 path2 routes w

/-- Several commands. -/
def commands (x : Setup K S C) : List Command → World → World
  | [], w => w
  | a :: as, w => commands x as (command x w a).1

end Fm2prof
