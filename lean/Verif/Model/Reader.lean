import Verif.Model.Compare
import Verif.Model.Runner

/-!
# Reading results for a comparison

Models how `ModelOutputReader` (`utils.py`) reads results of 1D and 2D models, keeps them in csv files and reads them back
from there. Results are given by the contents of the NetCDF variables; times are whole seconds. Tables are written and read
by pandas: what is used of its csv format is modelled for names without commas, quotes and line breaks.
-/

namespace Fm2prof

/-- What is used of `datetime.strptime` and of the texts pandas writes for times. `stamp` is the text with the time of day,
`date` the one without. Parsing fails with the text that remains, or with no text when the format does not fit. Times out of the range of `datetime`
are not considered. -/
structure Clock where
  midnight : Int → Bool
  stamp : Int → Text
  date : Int → Text
  strptime : Text → Except (Option Text) Int
  strptime_stamp : ∀ t, strptime (stamp t) = .ok t
  strptime_rest : ∀ t rest, rest ≠ [] → strptime (stamp t ++ rest) = .error (some rest)
  strptime_date : ∀ t, strptime (date t) = .error none
  strptime_letter : ∀ c t, c.isAlpha = true → strptime (c :: t) = .error none
  stamp_chars : ∀ t, ∀ c ∈ stamp t, c ∈ "0123456789-: ".toList
  stamp_trimmed : ∀ t, stamp t ≠ [] ∧ strip (stamp t) = stamp t
  date_chars : ∀ t, ∀ c ∈ date t, c ∈ "0123456789-".toList
  date_ne_nil : ∀ t, date t ≠ []

/-- `text.replace(pat, "")` (utils.py:1519); `skip` counts the characters of an occurrence still to be left out. -/
def removeText (pat : Text) : Nat → Text → Text
  | _, [] => []
  | skip + 1, _ :: cs => removeText pat skip cs
  | 0, c :: cs =>
    if pat.isPrefixOf (c :: cs) then removeText pat (pat.length - 1) cs else c :: removeText pat 0 cs

/-- The start time of `_parse_time` (utils.py:1517-1526). When the text does not fit the format and nothing remains, the
start time is never assigned (`UnboundLocalError`). -/
def parseStart (clock : Clock) (units : Text) : Except PyErr Int :=
  let unit := strip (removeText "seconds since ".toList 0 units)
  match clock.strptime unit with
  | .ok t => .ok t
  | .error none => .error .nameError
  | .error (some rest) =>
    match clock.strptime (unit.take (unit.length - rest.length)) with
    | .ok t => .ok t
    | .error _ => .error .valueError

/-- `_parse_time` (utils.py:1517-1528). -/
def parseTimes (clock : Clock) (units : Text) (seconds : List Int) : Except PyErr (List Int) :=
  match parseStart clock units with
  | .error e => .error e
  | .ok t0 => .ok (seconds.map fun s => t0 + s)

/-- The index of a table: times, or texts when some of them could not be read as a time. -/
inductive TimeIndex where
  | times (l : List Int)
  | texts (l : List Text)
  deriving DecidableEq, Repr

/-- A table (`pandas.DataFrame`): index, names of columns and rows of values. -/
structure Frame (K : Type) where
  index : TimeIndex
  columns : List Text
  rows : List (List (Option K))
  deriving DecidableEq, Repr

section Tables

variable {K : Type} [Field K] [LinearOrder K] [IsStrictOrderedRing K] [FloorRing K]

/-- The texts of the index in a csv file: dates only if all times are at midnight (`DataFrame.to_csv`, used at
utils.py:1290, 1292 and 1492). -/
def indexTexts (clock : Clock) : TimeIndex → List Text
  | .texts l => l
  | .times l => if l.all clock.midnight then l.map clock.date else l.map clock.stamp

/-- The text of a value in a csv file; missing values are empty. -/
def cellText (ft : FloatText K) : Option K → Text
  | none => []
  | some x => ft.repr x

/-- One line of values. -/
def csvRowText (ft : FloatText K) (label : Text) (row : List (Option K)) : Text :=
  joinWith [','] (label :: row.map (cellText ft))

/-- The lines of a table. -/
def frameLines (clock : Clock) (ft : FloatText K) (f : Frame K) : List Text :=
  joinWith [','] ([] :: f.columns) :: List.zipWith (csvRowText ft) (indexTexts clock f.index) f.rows

/-- `DataFrame.to_csv` (utils.py:1290, 1292, 1492). -/
def frameText (clock : Clock) (ft : FloatText K) (f : Frame K) : Text := unlines (frameLines clock ft f)

/-- The lines of a csv file that are not blank. -/
def csvLines (t : Text) : List Text := (splitSep '\n' t).filter fun l => decide (l ≠ [])

/-- The value of a cell. Cells that are neither empty nor numbers would make pandas keep the whole column as text; the model
stops there. `ft` stands for the number reader of pandas. -/
def cellValue (ft : FloatText K) (t : Text) : Except PyErr (Option K) :=
  if t = [] then .ok none
  else match ft.parse t with
    | some x => .ok (some x)
    | none => .error .typeError

/-- One line of a csv file with `n` columns: short lines are filled with missing values, long ones raise `ParserError`. -/
def readRow (ft : FloatText K) (n : Nat) (line : Text) : Except PyErr (Text × List (Option K)) :=
  let cells := splitSep ',' line
  if n + 1 < cells.length then .error .valueError
  else match collect (cellValue ft) cells.tail with
    | .error e => .error e
    | .ok vs => .ok (cells.headD [], vs ++ List.replicate (n - vs.length) none)

/-- `parse_dates=True` with a `date_format`: if one text is no time, all stay texts. -/
def readIndex (clock : Clock) (l : List Text) : TimeIndex :=
  if l.all (fun t => (clock.strptime t).toOption.isSome) then .times (l.filterMap fun t => (clock.strptime t).toOption)
  else .texts l

/-- `pd.read_csv(file, index_col=0, parse_dates=True, date_format=…)` (utils.py:1274-1285, 1304-1315, 1322-1333). An empty
file raises `EmptyDataError`. -/
def readFrame (clock : Clock) (ft : FloatText K) (t : Text) : Except PyErr (Frame K) :=
  match csvLines t with
  | [] => .error .valueError
  | header :: body =>
    let columns := (splitSep ',' header).tail
    match collect (readRow ft columns.length) body with
    | .error e => .error e
    | .ok rows => .ok ⟨readIndex clock (rows.map (·.1)), columns, rows.map (·.2)⟩

/-- Reading a table from the output directory. -/
def readFile (clock : Clock) (ft : FloatText K) (dir : Store) (name : Text) : Except PyErr (Frame K) :=
  match dir name with
  | none => .error .osError
  | some t => readFrame clock ft t

/-- The results of a 1D model: names of stations, units and values of the time, water levels and discharges per time. -/
structure His1d (K : Type) where
  names : List Text
  units : Text
  seconds : List Int
  levels : List (List (Option K))
  discharges : List (List (Option K))

/-- `pd.DataFrame(columns=names, index=time, data=data)`: a wrong shape raises `ValueError`. -/
def makeFrame (times : List Int) (names : List Text) (data : List (List (Option K))) : Except PyErr (Frame K) :=
  if data.length = times.length ∧ ∀ row ∈ data, row.length = names.length then .ok ⟨.times times, names, data⟩
  else .error .valueError

/-- `_import_1d_observations` (utils.py:1494-1515): water levels and discharges. `offset` is `time_offset_1d`. -/
def import1d (clock : Clock) (offset : Int) (his : His1d K) : Except PyErr (Frame K × Frame K) :=
  match parseTimes clock his.units his.seconds with
  | .error e => .error e
  | .ok times =>
    match makeFrame (times.map (· + offset)) his.names his.levels with
    | .error e => .error e
    | .ok h =>
      match makeFrame (times.map (· + offset)) his.names his.discharges with
      | .error e => .error e
      | .ok q => .ok (h, q)

/-- The file of 1D discharges (utils.py:1172, 1371-1374). -/
def file1dQ : Text := "1D_Q.csv".toList

/-- The file of 1D water levels (utils.py:1173, 1376-1379). -/
def file1dH : Text := "1D_H.csv".toList

/-- The file of 2D discharges (utils.py:1174, 1381-1384). -/
def file2dQ : Text := "2D_Q.csv".toList

/-- The file of 2D water levels (utils.py:1175, 1386-1389). -/
def file2dH : Text := "2D_H.csv".toList

/-- The mapping of stations (utils.py:1188, 1391-1394). -/
def fileMap : Text := "map_1d_2d.csv".toList

/-- The files `load_flow1d_data` writes, in that order (utils.py:1289-1292). -/
def writes1d (clock : Clock) (ft : FloatText K) (hq : Frame K × Frame K) : List (Text × Text) :=
  [(file1dH, frameText clock ft hq.1), (file1dQ, frameText clock ft hq.2)]

/-- Writing files one after the other. -/
def writeAll (dir : Store) : List (Text × Text) → Store
  | [] => dir
  | w :: ws => writeAll (dir.set w.1 w.2) ws

/-- The directory when the program is stopped while it writes the file after the first `n`: that file holds the first `p`
characters, or is as before when it was not opened yet. -/
def afterCrash (dir : Store) (ws : List (Text × Text)) (n : Nat) (p : Option Nat) : Store :=
  match p, ws[n]? with
  | some p, some w => (writeAll dir (ws.take n)).set w.1 (w.2.take p)
  | _, _ => writeAll dir (ws.take n)

/-- `load_flow1d_data` (utils.py:1265-1292): the directory afterwards, and the levels and discharges. `his` is what opening
the results gives. -/
def load1d (clock : Clock) (ft : FloatText K) (offset : Int) (his : Except PyErr (His1d K)) (dir : Store) :
    Store × Except PyErr (Frame K × Frame K) :=
  if (dir file1dQ).isSome && (dir file1dH).isSome then
    (dir, match readFile clock ft dir file1dQ with
      | .error e => .error e
      | .ok q => match readFile clock ft dir file1dH with
        | .error e => .error e
        | .ok h => .ok (h, q))
  else
    match his with
    | .error e => (dir, .error e)
    | .ok his =>
      match import1d clock offset his with
      | .error e => (dir, .error e)
      | .ok hq => (writeAll dir (writes1d clock ft hq), .ok hq)

/-- The results of a 2D model: levels at stations and discharges at cross-sections. -/
structure His2d (K : Type) where
  hnames : List Text
  qnames : List Text
  units : Text
  seconds : List Int
  levels : List (List (Option K))
  discharges : List (List (Option K))

/-- `get_1d2d_map` (utils.py:1336-1344, 1534-1553); `names` are the 1D stations. -/
def makeMap (his : Except PyErr (His2d K)) (names : List Text) (dir : Store) : Store × Except PyErr Unit :=
  if (dir fileMap).isSome then (dir, .ok ())
  else match his with
    | .error e => (dir, .error e)
    | .ok his => (dir.set fileMap (stationMapText his.hnames his.qnames names), .ok ())

/-- The texts pandas reads as missing. -/
def missingTexts : List Text :=
  ["".toList, "#N/A".toList, "#N/A N/A".toList, "#NA".toList, "-1.#IND".toList, "-1.#QNAN".toList, "-NaN".toList,
    "-nan".toList, "1.#IND".toList, "1.#QNAN".toList, "<NA>".toList, "N/A".toList, "NA".toList, "NULL".toList,
    "NaN".toList, "None".toList, "n/a".toList, "nan".toList, "null".toList]

/-- The names in a column of the mapping as pandas reads them. When all are numbers or missing, the column holds numbers,
and a number equals no name (`qnames.index`, utils.py:1486). -/
def readLabels (ft : FloatText K) (l : List Text) : List (Option Text) :=
  if l.all fun t => decide (t ∈ missingTexts) || (ft.parse t).isSome then l.map fun _ => none
  else l.map fun t => if t ∈ missingTexts then none else some t

/-- `pd.read_csv(self.file_1d2d_map, index_col=0)` (utils.py:1476): 1D stations with names for levels and discharges. Columns
are taken by position; names of 1D stations are kept as they are written. -/
def readMap (ft : FloatText K) (t : Text) : Except PyErr (List Text × List (Option Text) × List (Option Text)) :=
  match csvLines t with
  | [] => .error .valueError
  | _ :: body =>
    if body.any fun l => decide (3 < (splitSep ',' l).length) then .error .valueError
    else
      let rows := body.map (splitSep ',')
      .ok (rows.map (·.headD []), readLabels ft (rows.map (·.getD 1 [])), readLabels ft (rows.map (·.getD 2 [])))

/-- One value of a 2D table (utils.py:1485-1490): missing unless the name is that of a station. -/
def cell2d (names : List Text) (row : List (Option K)) : Option Text → Option K
  | none => none
  | some m => match names.findIdx? (· = m) with
    | none => none
    | some i => (row[i]?).join

/-- One table of `_import_2d_observations` (utils.py:1474-1490). -/
def table2d (clock : Clock) (units : Text) (seconds : List Int) (names : List Text) (data : List (List (Option K)))
    (stations : List Text) (labels : List (Option Text)) : Except PyErr (Frame K) :=
  match parseTimes clock units seconds with
  | .error e => .error e
  | .ok times => makeFrame times stations (data.map fun row => labels.map (cell2d names row))

/-- `_import_2d_observations` (utils.py:1466-1492): discharges first. -/
def import2d (clock : Clock) (ft : FloatText K) (his : Except PyErr (His2d K)) (dir : Store) : Store × Except PyErr Unit :=
  match his with
  | .error e => (dir, .error e)
  | .ok his =>
    match dir fileMap with
    | none => (dir, .error .osError)
    | some t =>
      match readMap ft t with
      | .error e => (dir, .error e)
      | .ok m =>
        match table2d clock his.units his.seconds his.qnames his.discharges m.1 m.2.2 with
        | .error e => (dir, .error e)
        | .ok q =>
          match table2d clock his.units his.seconds his.hnames his.levels m.1 m.2.1 with
          | .error e => (dir.set file2dQ (frameText clock ft q), .error e)
          | .ok h => ((dir.set file2dQ (frameText clock ft q)).set file2dH (frameText clock ft h), .ok ())

/-- Reading the two 2D tables (utils.py:1304-1315 and 1322-1333). -/
def read2d (clock : Clock) (ft : FloatText K) (dir : Store) : Except PyErr (Frame K × Frame K) :=
  match readFile clock ft dir file2dQ with
  | .error e => .error e
  | .ok q => match readFile clock ft dir file2dH with
    | .error e => .error e
    | .ok h => .ok (h, q)

/-- `load_flow2d_data` (utils.py:1294-1334). -/
def load2d (clock : Clock) (ft : FloatText K) (his : Except PyErr (His2d K)) (dir : Store) :
    Store × Except PyErr (Frame K × Frame K) :=
  if (dir file2dQ).isSome && (dir file2dH).isSome then (dir, read2d clock ft dir)
  else
    match import2d clock ft his dir with
    | (dir', .error e) => (dir', .error e)
    | (dir', .ok _) => (dir', read2d clock ft dir')

/-- `read_all_data` (utils.py:1345-1349): levels and discharges of the 1D and of the 2D model. -/
def readAllData (clock : Clock) (ft : FloatText K) (offset : Int) (his1 : Except PyErr (His1d K))
    (his2 : Except PyErr (His2d K)) (dir : Store) :
    Store × Except PyErr ((Frame K × Frame K) × (Frame K × Frame K)) :=
  match load1d clock ft offset his1 dir with
  | (dir1, .error e) => (dir1, .error e)
  | (dir1, .ok one) =>
    match makeMap his2 one.1.columns dir1 with
    | (dir2, .error e) => (dir2, .error e)
    | (dir2, .ok _) =>
      match load2d clock ft his2 dir2 with
      | (dir3, .error e) => (dir3, .error e)
      | (dir3, .ok two) => (dir3, .ok (one, two))

/-- The properties `data_1d_h`, `data_2d_h`, … (utils.py:1395-1413). A `datetime` cannot be compared with a text, and
`start_time` and `stop_time` only accept times, so with texts in the index every window raises an exception. It is taken to
be `TypeError` always; the code raises `ValueError` instead when both times are set and the start is not before the stop. -/
def windowed (w : Window Int) (f : Frame K) : Window Int × Except PyErr (List (Int × List (Option K))) :=
  match f.index with
  | .times l => applyWindow w (l.zip f.rows)
  | .texts _ => (w, .error .typeError)

/-- How `Compare1D2D` takes the paths of the two results (utils.py:1626-1639): the 2D path is looked at only if a 1D path is
given. `isFile` is `Path.is_file`; `Path(None)` raises `TypeError`. The result is the 1D and the 2D path that are set. -/
def choosePaths (isFile : Text → Bool) (path1 path2 : Option Text) : Except PyErr (Option Text × Option Text) :=
  let one := match path1 with
    | some p => if isFile p then some p else none
    | none => none
  match path1 with
  | none => .ok (one, none)
  | some _ => match path2 with
    | none => .error .typeError
    | some p => .ok (one, if isFile p then some p else none)

/-- Opening results: a path that was not set is the current directory, which is no NetCDF file. -/
def openPath {α : Type} (read : Text → Except PyErr α) : Option Text → Except PyErr α
  | none => .error .osError
  | some p => read p

/-- `Compare1D2D.__init__` up to the digitised levels (utils.py:1626-1664): the directory afterwards, and the tables. `read1`
and `read2` open results. -/
def initCompare (clock : Clock) (ft : FloatText K) (isFile : Text → Bool) (read1 : Text → Except PyErr (His1d K))
    (read2 : Text → Except PyErr (His2d K)) (path1 path2 : Option Text) (dir : Store) :
    Store × Except PyErr ((Frame K × Frame K) × (Frame K × Frame K)) :=
  match choosePaths isFile path1 path2 with
  | .error e => (dir, .error e)
  | .ok paths => readAllData clock ft 0 (openPath read1 paths.1) (openPath read2 paths.2) dir

end Tables

end Fm2prof
