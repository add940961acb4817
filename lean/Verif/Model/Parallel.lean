import Verif.Model.ProjectCrash

/-!
# Runs at the same time

Two or more runs that are started at the same time take turns in using the files. Here a run is given step by step: it looks at the
files of its output directory, it reads and writes the cache files next to the map file, and it opens its result files, which empties
them, and writes them piece by piece. Between two steps other runs can do anything. That the steps of a run on its own lead to the
files of `Model/Project.lean` is a theorem (`C189_alone`).

Simplifications: the map file, the location file and the polygon files do not change while runs are going on; opening a project and its
log file are left out; a cache file is read in one step, and is no JSON from its opening until all of it is written.
-/

namespace Fm2prof

variable {K : Type} [Field K] [LinearOrder K] [IsStrictOrderedRing K] [FloorRing K]

/-- What runs have in common: the files in each output directory, and the cache files. -/
structure Shared where
  results : Text → Store
  caches : Caches

/-- Changing a file of an output directory. -/
def Shared.setFile (σ : Shared) (dir file text : Text) : Shared :=
  { σ with results := fun d => if d = dir then (σ.results dir).set file text else σ.results d }

/-- Changing a cache file. -/
def Shared.setCache (σ : Shared) (key : Text) (c : CacheContent) : Shared := { σ with caches := storeCache key c σ.caches }

/-- A program that uses these files, step by step: it has ended, it looks at a file, or it changes one. -/
inductive Proc (R : Type) where
  | done (r : R)
  | lookFile (dir file : Text) (k : Option Text → Proc R)
  | changeFile (dir file : Text) (f : Option Text → Text) (k : Proc R)
  | lookCache (key : Text) (k : Option CacheContent → Proc R)
  | changeCache (key : Text) (c : CacheContent) (k : Proc R)

variable {R : Type}

/-- One step. -/
def Proc.step : Proc R → Shared → Proc R × Shared
  | .done r, σ => (.done r, σ)
  | .lookFile dir file k, σ => (k (σ.results dir file), σ)
  | .changeFile dir file f k, σ => (k, σ.setFile dir file (f (σ.results dir file)))
  | .lookCache key k, σ => (k (σ.caches key), σ)
  | .changeCache key c k, σ => (k, σ.setCache key c)

/-- A program on its own: the files it leaves and how it ends. -/
def Proc.alone : Proc R → Shared → Shared × R
  | .done r, σ => (σ, r)
  | .lookFile dir file k, σ => (k (σ.results dir file)).alone σ
  | .changeFile dir file f k, σ => k.alone (σ.setFile dir file (f (σ.results dir file)))
  | .lookCache key k, σ => (k (σ.caches key)).alone σ
  | .changeCache key c k, σ => k.alone (σ.setCache key c)

/-- Programs taking turns: `turns is` says whose turn it is, step by step. -/
def turns {ι : Type} [DecidableEq ι] : List ι → (ι → Proc R) → Shared → (ι → Proc R) × Shared
  | [], ps, σ => (ps, σ)
  | i :: is, ps, σ => turns is (fun j => if j = i then ((ps i).step σ).1 else ps j) ((ps i).step σ).2

/-! ## The steps of a run -/

/-- `_output_exists` (fm2prof_runner.py:963-973): file by file, up to the first one. -/
def outputCheck (dir : Text) : List Text → (Bool → Proc R) → Proc R
  | [], k => k false
  | f :: fs, k => .lookFile dir f fun t => if t.isSome then k true else outputCheck dir fs k

/-- Labels that are computed, and the cache file with them (polygon_file.py:206-208, 259-270). -/
def freshStep (g : Geometries K) (property default : String) (ps : List (Polygon K)) (m : MapFile K) (key : Text)
    (k : Except PyErr Labels → Proc R) : Proc R :=
  match freshLabels g property default ps m with
  | .error e => k (.error e)
  | .ok ls => .changeCache key .damaged (.changeCache key (.labels ⟨m.stamp, ls⟩) (k (.ok ls)))

/-- `get_gridpoints_in_polygon` (polygon_file.py:174-223): the three conditions look whether there is a cache file, one after the other.
When it appears between the first and the last, no branch is taken and the labels are not bound (`UnboundLocalError`, a `NameError`).
A cache file that has gone when it is opened raises an `OSError`. -/
def labelSteps (isText : Bool) (g : Geometries K) (property default : String) (ps : List (Polygon K)) (path : Text) (m : MapFile K)
    (k : Except PyErr Labels → Proc R) : Proc R :=
  if isText then k (.error .attributeError)
  else
    match withSuffix ('.' :: property.toList ++ "_cache.json".toList) path with
    | .error e => k (.error e)
    | .ok key =>
      .lookCache key fun first =>
        if first.isSome then
          .lookCache key fun
            | none => k (.error .osError)
            | some .damaged => k (.error .valueError)
            | some (.labels c) =>
              if c.stamp = m.stamp then k (.ok c.result) else freshStep g property default ps m key k
        else
          .lookCache key fun _ =>
            .lookCache key fun last =>
              if last.isSome then k (.error .nameError) else freshStep g property default ps m key k

/-- What `_set_fm_model_data` does after it has the labels of regions (fm2prof_runner.py:439-472). -/
def regionSteps (g : Geometries K) (c : Settings K) (m : MapFile K) (a : MapData K) (l : List (Loc K)) (rs : List (Polygon K))
    (sections : Option (List (Polygon K))) (k : Inputs K → Proc R) : Except PyErr Labels → Proc R
  | .error e => k ⟨.ok a, .ok l, some (.error e), none⟩
  | .ok labels =>
    match sections with
    | none => k ⟨.ok a, .ok l, some (regionLabels g (String.ofList c.defaultRegion) rs l labels), none⟩
    | some ss =>
      labelSteps c.mapIsText g "section" (String.ofList c.defaultSection) ss c.mapPath m fun ls =>
        k ⟨.ok a, .ok l, some (regionLabels g (String.ofList c.defaultRegion) rs l labels), some (ls.bind sectionLabels)⟩

/-- What `_set_fm_model_data` reads (fm2prof_runner.py:405-472). -/
def inputSteps (ft : FloatText K) (g : Geometries K) (c : Settings K) (m : MapFile K) (d : ProjectFiles K) (k : Inputs K → Proc R) :
    Proc R :=
  let css := (cssFile ft ',' (d.texts c.cssPath)).map locationsOf
  match m.data, css, optionalRegions d c.regionPath, optionalSections d c.sectionPath with
  | .error e, _, _, _ => k ⟨.error e, css, none, none⟩
  | .ok a, .error e, _, _ => k ⟨.ok a, .error e, none, none⟩
  | .ok a, .ok l, .error e, _ => k ⟨.ok a, .ok l, some (.error e), none⟩
  | .ok a, .ok l, .ok _, .error e => k ⟨.ok a, .ok l, none, some (.error e)⟩
  | .ok a, .ok l, .ok none, .ok none => k ⟨.ok a, .ok l, none, none⟩
  | .ok a, .ok l, .ok none, .ok (some ss) =>
    labelSteps c.mapIsText g "section" (String.ofList c.defaultSection) ss c.mapPath m fun ls =>
      k ⟨.ok a, .ok l, none, some (ls.bind sectionLabels)⟩
  | .ok a, .ok l, .ok (some rs), .ok sections =>
    labelSteps c.mapIsText g "region" (String.ofList c.defaultRegion) rs c.mapPath m (regionSteps g c m a l rs sections k)

/-- The content of a file after a piece is written at some place: what is there is replaced, and a gap is filled with zeros. -/
def putAt (offset : Nat) (piece : Text) (old : Option Text) : Text :=
  let t := old.getD []
  (t ++ List.replicate (offset - t.length) '\x00').take offset ++ piece ++ t.drop (offset + piece.length)

/-- Writing the pieces of a file one after the other. -/
def pieceSteps (dir file : Text) : Nat → List Text → Proc R → Proc R
  | _, [], k => k
  | n, p :: ps, k => .changeFile dir file (putAt n p) (pieceSteps dir file (n + p.length) ps k)

/-- Writing files one after the other: opening a file empties it; how its text is cut into pieces depends on buffers. -/
def writeSteps (dir : Text) (cut : Text → Text → List Text) : List (Text × Text) → Proc R → Proc R
  | [], k => k
  | w :: ws, k => .changeFile dir w.1 (fun _ => []) (pieceSteps dir w.1 0 (cut w.1 w.2) (writeSteps dir cut ws k))

/-- A run that is started: libraries, surroundings, settings, output directory, and how texts are cut into pieces when they are
written. -/
structure Launch (K : Type) [Field K] [LinearOrder K] [IsStrictOrderedRing K] [FloorRing K] where
  tools : Tools K
  geometries : Geometries K
  surroundings : Surroundings
  settings : Settings K
  overwrite : Bool
  dir : Text
  cut : Text → Text → List Text
  whole : ∀ file text, (cut file text).flatten = text

/-- The computations of a run on what it has read (fm2prof_runner.py:187-215). -/
def Launch.job (a : Launch K) (i : Inputs K) : Job (Loc K) (Finished K) :=
  jobOf a.tools a.settings.run i { a.surroundings with configured := true, mapIsFile := true, cssIsFile := true }

/-- `run` (fm2prof_runner.py:121-153) step by step: looking for results, reading, and writing. -/
def Launch.steps (a : Launch K) (d : ProjectFiles K) : Proc (Except PyErr Bool) :=
  outputCheck a.dir outputFiles fun found =>
    if found && !a.overwrite then .done (.ok false)
    else
      match d.maps a.settings.mapPath, d.texts a.settings.cssPath with
      | some m, some _ =>
        inputSteps a.tools.ft a.geometries a.settings m d fun i =>
          writeSteps a.dir a.cut (inifileWrites (a.job i)) (.done (runInifile (a.job i) fun _ => none).2)
      | _, _ => .done (.ok false)

end Fm2prof
