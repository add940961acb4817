import Verif.Model.Reader

/-!
# A reader of results as an object

A `ModelOutputReader` is used by assigning to its properties and calling its methods, in any order and any number of times.
Here its attributes are a state and each assignment, call or access is an operation.

Not modelled: log messages, and failures of the disk while a file is written.
-/

set_option linter.unusedSectionVars false

namespace Fm2prof

variable {K : Type} [Field K] [LinearOrder K] [IsStrictOrderedRing K] [FloorRing K]

/-- The attributes of a `ModelOutputReader` (utils.py:1191-1216). A path that was not set is `none`; a table that was not read
is `none`, whether the attribute holds `None` (`_data_1d_q`) or does not exist (the other three). -/
structure ReaderState (K : Type) where
  out : Text
  path1 : Option Text
  path2 : Option Text
  offset : Int
  window : Window Int
  h1 : Option (Frame K)
  q1 : Option (Frame K)
  h2 : Option (Frame K)
  q2 : Option (Frame K)

/-- `ModelOutputReader.__init__` (utils.py:1191-1216). The output path is the current directory. -/
def ReaderState.new (window : Window Int) : ReaderState K :=
  { out := ".".toList, path1 := none, path2 := none, offset := 0, window := window
    h1 := none, q1 := none, h2 := none, q2 := none }

/-- What the reader finds outside its output directories: which paths are files and directories, and the results in files. -/
structure ReaderWorld (K : Type) where
  isFile : Text → Bool
  isDir : Text → Bool
  read1 : Text → Except PyErr (His1d K)
  read2 : Text → Except PyErr (His2d K)

/-- The four tables a reader shows (utils.py:1395-1413). -/
inductive ReaderTable where
  | h1 | h2 | q1 | q2

/-- What can be done with a reader. Times are `none` when something else than a `datetime` is assigned. -/
inductive ReaderOp where
  | setPath1 (p : Text)
  | setPath2 (p : Text)
  | setOutput (d : Text)
  | setOffset (seconds : Int)
  | setStart (t : Option Int)
  | setStop (t : Option Int)
  | load1d
  | getMap
  | load2d
  | readAll
  | show (t : ReaderTable)

/-- What an operation gives: nothing, or the rows of a table, or an exception. -/
abbrev ReaderAnswer (K : Type) := Except PyErr (Option (List (Int × List (Option K))))

/-- The setter of `path_flow1d` (utils.py:1243-1250). -/
def ReaderState.setPath1 (w : ReaderWorld K) (p : Text) (r : ReaderState K) : ReaderState K × Except PyErr Unit :=
  if w.isFile p then ({ r with path1 := some p }, .ok ()) else (r, .error .valueError)

/-- The setter of `path_flow2d` (utils.py:1257-1264). -/
def ReaderState.setPath2 (w : ReaderWorld K) (p : Text) (r : ReaderState K) : ReaderState K × Except PyErr Unit :=
  if w.isFile p then ({ r with path2 := some p }, .ok ()) else (r, .error .valueError)

/-- The setter of `output_path` (utils.py:1360-1368). -/
def ReaderState.setOutput (w : ReaderWorld K) (d : Text) (r : ReaderState K) : ReaderState K × Except PyErr Unit :=
  if w.isDir d then ({ r with out := d }, .ok ()) else (r, .error .valueError)

/-- The setter of `start_time` (utils.py:1222-1225): anything but a time is ignored. -/
def ReaderState.setStart (t : Option Int) (r : ReaderState K) : ReaderState K :=
  match t with
  | some t => { r with window := { r.window with start := some t } }
  | none => r

/-- The setter of `stop_time` (utils.py:1232-1235). -/
def ReaderState.setStop (t : Option Int) (r : ReaderState K) : ReaderState K :=
  match t with
  | some t => { r with window := { r.window with stop := some t } }
  | none => r

/-- `load_flow1d_data` (utils.py:1265-1292) as it changes the reader and the files in its output directory. When the second
table cannot be read, the first has been replaced already. -/
def ReaderState.load1d (clock : Clock) (ft : FloatText K) (w : ReaderWorld K) (r : ReaderState K) (dir : Store) :
    ReaderState K × Store × Except PyErr Unit :=
  if (dir file1dQ).isSome && (dir file1dH).isSome then
    match readFile clock ft dir file1dQ with
    | .error e => (r, dir, .error e)
    | .ok q =>
      match readFile clock ft dir file1dH with
      | .error e => ({ r with q1 := some q }, dir, .error e)
      | .ok h => ({ r with q1 := some q, h1 := some h }, dir, .ok ())
  else
    match openPath w.read1 r.path1 with
    | .error e => (r, dir, .error e)
    | .ok his =>
      match import1d clock r.offset his with
      | .error e => (r, dir, .error e)
      | .ok hq => ({ r with q1 := some hq.2, h1 := some hq.1 }, writeAll dir (writes1d clock ft hq), .ok ())

/-- `get_1d2d_map` (utils.py:1336-1344, 1530-1553). The file is opened and its first line written before the 1D stations are
asked for, so without 1D levels (`AttributeError`, utils.py:1526-1528) a mapping of no station stays behind. -/
def ReaderState.getMap (w : ReaderWorld K) (r : ReaderState K) (dir : Store) : Store × Except PyErr Unit :=
  if (dir fileMap).isSome then (dir, .ok ())
  else
    match openPath w.read2 r.path2 with
    | .error e => (dir, .error e)
    | .ok his =>
      match r.h1 with
      | none => (dir.set fileMap (stationMapText his.hnames his.qnames []), .error .attributeError)
      | some h => (dir.set fileMap (stationMapText his.hnames his.qnames h.columns), .ok ())

/-- Reading the two 2D tables (utils.py:1304-1315 and 1322-1333): discharges first. -/
def ReaderState.read2d (clock : Clock) (ft : FloatText K) (r : ReaderState K) (dir : Store) :
    ReaderState K × Except PyErr Unit :=
  match readFile clock ft dir file2dQ with
  | .error e => (r, .error e)
  | .ok q =>
    match readFile clock ft dir file2dH with
    | .error e => ({ r with q2 := some q }, .error e)
    | .ok h => ({ r with q2 := some q, h2 := some h }, .ok ())

/-- `load_flow2d_data` (utils.py:1294-1334). -/
def ReaderState.load2d (clock : Clock) (ft : FloatText K) (w : ReaderWorld K) (r : ReaderState K) (dir : Store) :
    ReaderState K × Store × Except PyErr Unit :=
  if (dir file2dQ).isSome && (dir file2dH).isSome then
    ((r.read2d clock ft dir).1, dir, (r.read2d clock ft dir).2)
  else
    match import2d clock ft (openPath w.read2 r.path2) dir with
    | (dir', .error e) => (r, dir', .error e)
    | (dir', .ok _) => ((r.read2d clock ft dir').1, dir', (r.read2d clock ft dir').2)

/-- `read_all_data` (utils.py:1346-1350): the first exception ends it. -/
def ReaderState.readAll (clock : Clock) (ft : FloatText K) (w : ReaderWorld K) (r : ReaderState K) (dir : Store) :
    ReaderState K × Store × Except PyErr Unit :=
  match r.load1d clock ft w dir with
  | (r1, dir1, .error e) => (r1, dir1, .error e)
  | (r1, dir1, .ok _) =>
    match r1.getMap w dir1 with
    | (dir2, .error e) => (r1, dir2, .error e)
    | (dir2, .ok _) => r1.load2d clock ft w dir2

/-- The table behind a property. -/
def ReaderState.table (r : ReaderState K) : ReaderTable → Option (Frame K)
  | .h1 => r.h1
  | .h2 => r.h2
  | .q1 => r.q1
  | .q2 => r.q2

/-- The properties `data_1d_h`, … (utils.py:1395-1413, 1424-1459). Without a table this is an `AttributeError`; only the 1D
discharges are `None` at first, so that a start that is not before the stop is noticed before. -/
def ReaderState.data (r : ReaderState K) (t : ReaderTable) : ReaderState K × ReaderAnswer K :=
  match r.table t with
  | some f =>
    ({ r with window := (windowed r.window f).1 },
      match (windowed r.window f).2 with
      | .error e => .error e
      | .ok rows => .ok (some rows))
  | none =>
    (r, match t, r.window.start, r.window.stop with
      | .q1, some a, some b => if b ≤ a then .error .valueError else .error .attributeError
      | _, _, _ => .error .attributeError)

/-- An operation that gives nothing. -/
def noValue : Except PyErr Unit → ReaderAnswer K
  | .ok _ => .ok none
  | .error e => .error e

/-- A reader and the directories of the computer. -/
abbrev ReaderPlace (K : Type) := ReaderState K × (Text → Store)

/-- A directory with other files. -/
def setDir (dirs : Text → Store) (d : Text) (s : Store) : Text → Store := fun d' => if d' = d then s else dirs d'

/-- One operation (utils.py:1150-1459). -/
def readerStep (clock : Clock) (ft : FloatText K) (w : ReaderWorld K) (s : ReaderPlace K) :
    ReaderOp → ReaderPlace K × ReaderAnswer K
  | .setPath1 p => (((s.1.setPath1 w p).1, s.2), noValue (s.1.setPath1 w p).2)
  | .setPath2 p => (((s.1.setPath2 w p).1, s.2), noValue (s.1.setPath2 w p).2)
  | .setOutput d => (((s.1.setOutput w d).1, s.2), noValue (s.1.setOutput w d).2)
  | .setOffset n => (({ s.1 with offset := n }, s.2), .ok none)
  | .setStart t => ((s.1.setStart t, s.2), .ok none)
  | .setStop t => ((s.1.setStop t, s.2), .ok none)
  | .load1d =>
    let x := s.1.load1d clock ft w (s.2 s.1.out)
    ((x.1, setDir s.2 s.1.out x.2.1), noValue x.2.2)
  | .getMap =>
    let x := s.1.getMap w (s.2 s.1.out)
    ((s.1, setDir s.2 s.1.out x.1), noValue x.2)
  | .load2d =>
    let x := s.1.load2d clock ft w (s.2 s.1.out)
    ((x.1, setDir s.2 s.1.out x.2.1), noValue x.2.2)
  | .readAll =>
    let x := s.1.readAll clock ft w (s.2 s.1.out)
    ((x.1, setDir s.2 s.1.out x.2.1), noValue x.2.2)
  | .show t => (((s.1.data t).1, s.2), (s.1.data t).2)

/-- A script: operations one after the other, going on after exceptions. The files outside the output directories may be
others at each operation. -/
def readerScript (clock : Clock) (ft : FloatText K) (s : ReaderPlace K) :
    List (ReaderWorld K × ReaderOp) → ReaderPlace K × List (ReaderAnswer K)
  | [] => (s, [])
  | op :: ops =>
    let x := readerStep clock ft op.1 s op.2
    let rest := readerScript clock ft x.1 ops
    (rest.1, x.2 :: rest.2)

end Fm2prof
