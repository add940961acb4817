import Verif.Model.Reader

/-!
# Rating curves and statistics of a comparison

Models the rating curves, the statistics and the files of statistics of `Compare1D2D` (`utils.py`). Names of stations are
assumed to be different. Square roots are a parameter. Writing a file always succeeds here.
-/

namespace Fm2prof

/-! ## Paths -/

/-- `PurePath.stem`, up to Python 3.13: the name without its last suffix. A dot at the beginning or the end of the name starts no
suffix. -/
def nameStem (name : Text) : Text :=
  let parts := splitSep '.' name
  let stem := joinWith ['.'] parts.dropLast
  if stem = [] ∨ parts.getLast? = some [] then name else stem

/-- `Path(path).with_suffix(suffix)` (used at utils.py:1786-1787 and cli.py:37, 47, 76). Paths are in the normal form of `pathlib`;
without a name it raises `ValueError`. -/
def withSuffix (suffix path : Text) : Except PyErr Text :=
  let parts := splitSep '/' path
  match parts.getLast? with
  | none => .error .valueError
  | some name => if name = [] then .error .valueError else .ok (joinWith ['/'] (parts.dropLast ++ [nameStem name ++ suffix]))

section Tables

variable {K : Type} [Field K] [LinearOrder K] [IsStrictOrderedRing K] [FloorRing K]

/-! ## Rating curves -/

/-- A table of water levels against discharges. -/
structure Rating (K : Type) where
  labels : List K
  columns : List Text
  rows : List (List (Option K))
  deriving DecidableEq

/-- The discharges of the rating curves (utils.py:1648). -/
def qsteps : List K := (List.range 90).map fun i : Nat => (i : K) * 200

/-- The column of a station. -/
def frameColumn (f : Frame K) (name : Text) : Option (List (Option K)) :=
  (f.columns.findIdx? (· = name)).map fun j => f.rows.map fun row => (row[j]?).join

/-- The rating curve of a station (utils.py:1729-1730). Without discharges `KeyError` is raised, and a mask of another length
than the levels raises `IndexError`. -/
def ratingColumn (bins : List K) (h q : Frame K) (station : Text) : Except PyErr (List (Option K)) :=
  match frameColumn q station with
  | none => .error .keyError
  | some qs =>
    match frameColumn h station with
    | none => .error .keyError
    | some hs => if qs.length = hs.length then .ok (digitizeColumn bins (qs.zip hs)) else .error .indexError

/-- `_digitize_data` (utils.py:1719-1732). -/
def digitizeFrame (bins : List K) (h q : Frame K) : Except PyErr (Rating K) :=
  match collect (ratingColumn bins h q) h.columns with
  | .error e => .error e
  | .ok cs => .ok ⟨bins, h.columns, (List.range bins.length).map fun i => cs.map fun c => (c[i]?).join⟩

/-- `DataFrame.to_csv` for a rating table (utils.py:1706, 1712). -/
def ratingText (ft : FloatText K) (r : Rating K) : Text :=
  unlines (joinWith [','] ([] :: r.columns) :: List.zipWith (csvRowText ft) (r.labels.map ft.repr) r.rows)

/-- The label of a row as a number. -/
def labelValue (ft : FloatText K) (t : Text) : Except PyErr K :=
  match ft.parse t with
  | some x => .ok x
  | none => .error .typeError

/-- `pd.read_csv(file, index_col=0)` for a rating table (utils.py:1703, 1709). Labels that are no numbers would be kept as texts;
the model stops there. -/
def readRating (ft : FloatText K) (t : Text) : Except PyErr (Rating K) :=
  match csvLines t with
  | [] => .error .valueError
  | header :: body =>
    let columns := (splitSep ',' header).tail
    match collect (readRow ft columns.length) body with
    | .error e => .error e
    | .ok rows =>
      match collect (labelValue ft) (rows.map (·.1)) with
      | .error e => .error e
      | .ok labels => .ok ⟨labels, columns, rows.map (·.2)⟩

/-- The files of the rating curves (utils.py:1685-1692). -/
def fileRating1d : Text := "1D_H_digitized.csv".toList

/-- The file of the 2D rating curves (utils.py:1690-1692). -/
def fileRating2d : Text := "2D_H_digitized.csv".toList

/-- One half of `digitize_data` (utils.py:1701-1706 or 1707-1712): an existing file is used, otherwise one is written. -/
def ratingOf (ft : FloatText K) (file : Text) (h q : Frame K) (dir : Store) : Store × Except PyErr (Rating K) :=
  match dir file with
  | some t => (dir, readRating ft t)
  | none =>
    match digitizeFrame qsteps h q with
    | .error e => (dir, .error e)
    | .ok r => (dir.set file (ratingText ft r), .ok r)

/-- `digitize_data` (utils.py:1696-1712): the rating curves of the 1D and of the 2D model. -/
def digitizeData (ft : FloatText K) (one two : Frame K × Frame K) (dir : Store) :
    Store × Except PyErr (Rating K × Rating K) :=
  match ratingOf ft fileRating1d one.1 one.2 dir with
  | (dir1, .error e) => (dir1, .error e)
  | (dir1, .ok r1) =>
    match ratingOf ft fileRating2d two.1 two.2 dir1 with
    | (dir2, .error e) => (dir2, .error e)
    | (dir2, .ok r2) => (dir2, .ok (r1, r2))

/-! ## Statistics -/

/-- The statistics of a station (utils.py:1912-1938). `variance` is the square of `std`. The mean levels are `last3`, `last25`,
`max3` and `max13` of the 1D model, the 2D model and the difference. -/
structure StatRow (K : Type) where
  station : Text
  bias : Option K
  rkm : Option K
  branch : Text
  isLmw : Bool
  variance : Option K
  mae : Option K
  means : List (Option K)
  deriving DecidableEq

/-- The series of a station in the rows of a table; missing at all times when the table has no such column. -/
def stationSeries (columns : List Text) (rows : List (Int × List (Option K))) (name : Text) : List (Int × Option K) :=
  match columns.findIdx? (· = name) with
  | some j => rows.map fun r => (r.1, (r.2[j]?).join)
  | none => rows.map fun r => (r.1, none)

/-- The four mean levels of a series (utils.py:1922-1925, 2136-2154). -/
def meanLevels (s : List (Int × Option K)) : List (Option K) := [lastMean 3 s, lastMean 25 s, maxMean 3 s, maxMean 13 s]

/-- The statistics of a station from its two series (utils.py:1907-1938). -/
def statRow (parse : Text → Option K) (a b : List (Int × Option K)) (name : Text) : StatRow K where
  station := name
  bias := bias (diffSeries a b)
  rkm := stationKm parse name
  branch := stationBranch name
  isLmw := containsText "lmw".toList (lower name)
  variance := variance (diffSeries a b)
  mae := mae (diffSeries a b)
  means := meanLevels a ++ meanLevels b ++ meanLevels (diffSeries a b)

/-- The columns of `data_1d_h - data_2d_h` (utils.py:1907): sorted when the tables do not have the same ones. -/
def diffColumns (c1 c2 : List Text) : List Text := if c1 = c2 then c1 else npUnique (c1 ++ c2)

/-- `_compute_statistics` (utils.py:1899-1940): the window afterwards, and the statistics. -/
def computeStatistics (parse : Text → Option K) (w : Window Int) (h1 h2 : Frame K) :
    Window Int × Except PyErr (List (StatRow K)) :=
  match windowed w h1 with
  | (w1, .error e) => (w1, .error e)
  | (w1, .ok a) =>
    match windowed w1 h2 with
    | (w2, .error e) => (w2, .error e)
    | (w2, .ok b) =>
      (w2, .ok ((diffColumns h1.columns h2.columns).map fun n =>
        statRow parse (stationSeries h1.columns a n) (stationSeries h2.columns b n) n))

/-- `True` or `False`. -/
def boolText (b : Bool) : Text := if b then "True".toList else "False".toList

/-- One line of the file of statistics. -/
def statLine (ft : FloatText K) (root : K → K) (r : StatRow K) : Text :=
  joinWith [','] ([r.station, cellText ft r.bias, cellText ft r.rkm, r.branch, boolText r.isLmw,
    cellText ft (r.variance.map root), cellText ft r.mae] ++ r.means.map (cellText ft))

/-- The first line of the file of statistics. -/
def statHeader : Text :=
  (",bias,rkm,branch,is_lmw,std,mae,1D_last3,1D_last25,1D_max3,1D_max13,2D_last3,2D_last25,2D_max3,2D_max13," ++
    "diff_last3,diff_last25,diff_max3,diff_max13").toList

/-- The file of statistics (utils.py:1790). -/
def statText (ft : FloatText K) (root : K → K) (s : List (StatRow K)) : Text :=
  unlines (statHeader :: s.map (statLine ft root))

/-- `Series.unique()`: the values in the order in which they first occur. -/
def firstOnes : List Text → List Text → List Text
  | [], _ => []
  | t :: ts, seen => if t ∈ seen then firstOnes ts seen else t :: firstOnes ts (t :: seen)

/-- `f"{x:.2f}"`, with `nan` for a missing value. -/
def fixed2 : Option K → Text
  | none => "nan".toList
  | some x => fmtFixed 2 x

/-- The mean of a value over some stations. -/
def meanOver (P : StatRow K → Bool) (v : StatRow K → Option K) (s : List (StatRow K)) : Option K :=
  nanmean ((s.filter P).map v)

/-- The line of a branch in the summary (utils.py:1797-1801). -/
def branchSummary (root : K → K) (s : List (StatRow K)) (b : Text) : Text :=
  b ++ [','] ++ fixed2 (meanOver (fun r => decide (r.branch = b)) (·.bias) s) ++ "±(".toList ++
    fixed2 (meanOver (fun r => decide (r.branch = b)) (fun r => r.variance.map root) s) ++ "), ".toList ++
    fixed2 (meanOver (fun r => decide (r.branch = b) && r.isLmw) (·.bias) s) ++ "±(".toList ++
    fixed2 (meanOver (fun r => decide (r.branch = b) && r.isLmw) (fun r => r.variance.map root) s) ++ ")".toList

/-- The summary (utils.py:1794-1801). -/
def summaryText (root : K → K) (s : List (StatRow K)) : Text :=
  unlines ((firstOnes (s.map (·.branch)) []).map (branchSummary root s))

/-- A `Compare1D2D` as far as statistics are concerned. -/
structure Session (K : Type) where
  h1 : Frame K
  h2 : Frame K
  window : Window Int
  statistics : Option (List (StatRow K))

/-- The rest of `Compare1D2D.__init__` after the tables have been read (utils.py:1645-1666): the comparison and the rating curves
of the 1D and of the 2D model. -/
def openComparison (ft : FloatText K) (w : Window Int) (one two : Frame K × Frame K) (dir : Store) :
    Store × Except PyErr (Session K × Rating K × Rating K) :=
  match digitizeData ft one two dir with
  | (dir', .error e) => (dir', .error e)
  | (dir', .ok r) => (dir', .ok (⟨one.1, two.1, w, none⟩, r))

/-- What a user does with it. -/
inductive SessionStep where
  | setStart (t : Int)
  | setStop (t : Int)
  | station (name : Text)
  | toFile (path : Text)
  deriving DecidableEq

/-- `_get_statistics` (utils.py:1942-1945), whose result `figure_at_station` shows. A name that is not in the table raises
`KeyError`. -/
def getStatistics (parse : Text → Option K) (s : Session K) (name : Text) : Session K × Except PyErr (StatRow K) :=
  let look (t : List (StatRow K)) : Except PyErr (StatRow K) :=
    match t.find? fun r => decide (r.station = name) with
    | some r => .ok r
    | none => .error .keyError
  match s.statistics with
  | some t => (s, look t)
  | none =>
    match computeStatistics parse s.window s.h1 s.h2 with
    | (w, .error e) => ({ s with window := w }, .error e)
    | (w, .ok t) => ({ s with window := w, statistics := some t }, look t)

/-- `statistics_to_file` (utils.py:1767-1801). -/
def statisticsToFile (ft : FloatText K) (root : K → K) (s : Session K) (path : Text) (dir : Store) :
    Session K × Store × Except PyErr Unit :=
  match computeStatistics ft.parse s.window s.h1 s.h2 with
  | (w, .error e) => ({ s with window := w }, dir, .error e)
  | (w, .ok t) =>
    match withSuffix ".csv".toList path with
    | .error e => ({ s with window := w, statistics := some t }, dir, .error e)
    | .ok statFile =>
      match withSuffix ".csv".toList (path ++ "_summary".toList) with
      | .error e => ({ s with window := w, statistics := some t }, dir, .error e)
      | .ok sumFile =>
        ({ s with window := w, statistics := some t },
          (dir.set statFile (statText ft root t)).set sumFile (summaryText root t), .ok ())

/-- One step: the session and the files afterwards, and what is shown. -/
def sessionStep (ft : FloatText K) (root : K → K) (s : Session K) (dir : Store) :
    SessionStep → Session K × Store × Except PyErr (Option (StatRow K))
  | .setStart t => ({ s with window := ⟨some t, s.window.stop⟩ }, dir, .ok none)
  | .setStop t => ({ s with window := ⟨s.window.start, some t⟩ }, dir, .ok none)
  | .station name =>
    match getStatistics ft.parse s name with
    | (s', .ok r) => (s', dir, .ok (some r))
    | (s', .error e) => (s', dir, .error e)
  | .toFile path =>
    match statisticsToFile ft root s path dir with
    | (s', dir', .ok _) => (s', dir', .ok none)
    | (s', dir', .error e) => (s', dir', .error e)

/-- Several steps; the exceptions are caught by the user. -/
def sessionRun (ft : FloatText K) (root : K → K) : List SessionStep → Session K → Store → Session K × Store
  | [], s, dir => (s, dir)
  | a :: as, s, dir =>
    sessionRun ft root as (sessionStep ft root s dir a).1 (sessionStep ft root s dir a).2.1

end Tables

end Fm2prof
