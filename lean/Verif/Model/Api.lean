import Verif.Model.Program

/-!
# Scripts that use `Project`

`Project` (fm2prof_runner.py:976-1080) is the Python interface: a project is opened, values are set and `run` is called, as often as wanted
and in any order.
-/

namespace Fm2prof

variable {K : Type} [Field K] [LinearOrder K] [IsStrictOrderedRing K] [FloorRing K]

/-- A script with an open project: all files, the directory of the configuration file, and the configuration. -/
structure Script (K : Type) where
  files : AllFiles K
  dir : Text
  config : Config K

/-- Calls that change something: `set_parameter` (fm2prof_runner.py:985-997), `set_input_file` (fm2prof_runner.py:1013-1023),
`set_output_directory` (fm2prof_runner.py:1035-1047) and `run` (fm2prof_runner.py:121-153). -/
inductive Call (K : Type) where
  | setParameter (name : Text) (v : ConfigValue K)
  | setInputFile (name : Text) (v : ConfigValue K)
  | setOutputDirectory (path : Text)
  | run (overwrite : Bool)

/-- `Project(path)` (fm2prof_runner.py:78-119); none when an exception is raised or reading the project is given up. Files are kept as
`program` keeps them. -/
def openScript (e : Computer K) (path : Text) (w : AllFiles K) : Option (Script K) :=
  match openRunner (e.setup w.inputs) path w.world with
  | (w', .ok (some (dir, c))) => some ⟨⟨{ w.inputs with texts := w'.texts }, w'.disk, w'.results⟩, dir, c⟩
  | _ => none

/-- A call (fm2prof_runner.py:121-153, 985-1047): what it leaves, and what `run` returns or the exception. -/
def call (e : Computer K) (s : Script K) : Call K → Script K × Except PyErr (Option Bool)
  | .setParameter name v =>
    match setParameter name v s.config with
    | .error er => (s, .error er)
    | .ok (c, _) => ({ s with config := c }, .ok none)
  | .setInputFile name v =>
    match setInputFile name v s.config with
    | .error er => (s, .error er)
    | .ok (c, _) => ({ s with config := c }, .ok none)
  | .setOutputDirectory path =>
    match setOutputDirectory (fun d => decide (e.mkdir d = .made)) path ⟨s.config, s.files.disk⟩ with
    | (t, some er) => ({ s with config := t.config, files := { s.files with disk := t.disk } }, .error er)
    | (t, none) => ({ s with config := t.config, files := { s.files with disk := t.disk } }, .ok none)
  | .run overwrite =>
    let r := runProject (e.setup s.files.inputs) (some (s.dir, s.config)) overwrite s.files.world
    let caches := e.cachesAfterRun s.files.inputs (some (s.dir, s.config)) overwrite s.files.world
    ({ s with files := ⟨{ s.files.inputs with texts := r.1.texts, caches := caches }, r.1.disk, r.1.results⟩ },
      match r.2 with
      | .error er => .error er
      | .ok b => .ok (some b))

/-- Calls one after the other; the script ends at the first exception. -/
def script (e : Computer K) : List (Call K) → Script K → Script K × Option PyErr
  | [], s => (s, none)
  | a :: as, s =>
    match call e s a with
    | (s', .error er) => (s', some er)
    | (s', .ok _) => script e as s'

end Fm2prof
