import Mathlib.Data.Char
import Mathlib.Data.List.Lex
import Verif.Model.Text
import Verif.Model.Build
import Verif.Model.Roughness
import Verif.Model.Export

/-!
# Comparing 1D and 2D results

Models the computations of `ModelOutputReader` and `Compare1D2D` (`utils.py`): the time window, the mapping of stations,
digitised water levels, routes, labels, moments, discharges and statistics. Caching tables in csv
files is modelled in `Reader`; drawing is not modelled. Times are any linear order; a missing value (NaN) is `none`.
-/

namespace Fm2prof

section Window

variable {T : Type} [LinearOrder T] {α : Type}

/-- Start and stop time of a reader (`start_time` and `stop_time`). -/
structure Window (T : Type) where
  start : Option T
  stop : Option T

/-- `_apply_startstop_time` (utils.py:1424-1459): the window afterwards, and the rows or the exception. A `datetime` is
never false, so the branches for missing times after line 1429 are never taken. -/
def applyWindow (w : Window T) (data : List (T × α)) : Window T × Except PyErr (List (T × α)) :=
  match data.head?, data.getLast? with
  | some first, some last =>
    let start := w.start.getD first.1
    let stop := w.stop.getD last.1
    (⟨some start, some stop⟩,
      if stop ≤ start then .error .valueError
      else if last.1 ≤ start then .error .valueError
      else if stop ≤ first.1 then .error .valueError
      else .ok (data.filter fun r => decide (start ≤ r.1) && decide (r.1 ≤ stop)))
  | _, _ =>
    match w.start, w.stop with
    | some start, some stop => (w, if stop ≤ start then .error .valueError else .error .indexError)
    | _, _ => (w, .error .indexError)

/-- The properties `data_1d_h`, `data_2d_h`, `data_1d_q` and `data_2d_q` (utils.py:1395-1413) asked for one after the
other. -/
def readAll (w : Window T) : List (List (T × α)) → List (Except PyErr (List (T × α)))
  | [] => []
  | d :: ds => (applyWindow w d).2 :: readAll (applyWindow w d).1 ds

/-- `_get_nearest_time` (utils.py:2101-2107). -/
def nearestTime (index : List T) (date : T) : Int :=
  match index.findIdx? fun t => !decide (t < date) with
  | some i => i
  | none => (index.length : Int) - 1

end Window

/-! ## Stations -/

/-- `_parse_names` for one row (utils.py:1461-1464). -/
def parseName (row : List Text) : Text := strip row.flatten

/-- The 2D station of a 1D station (utils.py:1545-1552). -/
def mapName (names : List Text) (n : Text) : Text :=
  (names.find? fun x => (n.take 9).isPrefixOf x).getD []

/-- The rows of `_get_1d2d_map` (utils.py:1543-1553): 1D station, 2D station for levels and for discharges. -/
def stationMap (hnames qnames names : List Text) : List (Text × Text × Text) :=
  names.map fun n => (n, mapName hnames n, mapName qnames n)

/-- The file written by `_get_1d2d_map` (utils.py:1540-1553). -/
def stationMapText (hnames qnames names : List Text) : Text :=
  unlines ("1D,2D_H,2D_Q".toList :: (stationMap hnames qnames names).map fun r => joinWith [','] [r.1, r.2.1, r.2.2])

/-- One column of the 2D data (utils.py:1484-1491): the values of the first station with the mapped name, or nothing at all
times. An empty entry of the mapping is read as NaN, which is no name. -/
def column2d {V : Type} (names : List Text) (data : List (List V)) (mapped : Text) : Option (List V) :=
  if mapped = [] then none
  else
    match names.findIdx? (· = mapped) with
    | none => none
    | some i => some (data.filterMap fun row => row[i]?)

/-- `"lmw" in name` (utils.py:1757, 2168). -/
def containsText (pat t : Text) : Bool := t.tails.any fun s => pat.isPrefixOf s

section Numbers

variable {K : Type} [Field K] [LinearOrder K] [IsStrictOrderedRing K]

/-! ## Digitised water levels -/

/-- `np.digitize(q, bins)` for increasing bins: the number of bins not above the value; NaN comes after all bins. -/
def digitize (bins : List K) : Option K → Nat
  | none => bins.length
  | some q => bins.countP fun b => decide (b ≤ q)

/-- One column of `_digitize_data` (utils.py:1720-1732), rows are discharge and level at one time. The column is labelled
with the bins. -/
def digitizeColumn (bins : List K) (rows : List (Option K × Option K)) : List (Option K) :=
  (List.range bins.length).map fun i => nanmean ((rows.filter fun r => digitize bins r.1 = i).map (·.2))

/-! ## Routes -/

/-- What is used of `np.argsort`: the positions in an order of increasing values, missing ones last. Its default algorithm is
not stable, so nothing is known of the order of equal values. -/
structure ArgSort (K : Type) [LinearOrder K] where
  order : List (Option K) → List Nat
  perm : ∀ l, (order l).Perm (List.range l.length)
  sorted : ∀ l, (order l).Pairwise fun i j => ∀ y, l[j]? = some (some y) → ∃ x, l[i]? = some (some x) ∧ x ≤ y

/-- `_names_to_rkms` for one name (utils.py:1734-1735). `parse` is `float` where it succeeds; names for which it gives NaN are
not considered. -/
def stationKm (parse : Text → Option K) (name : Text) : Option K :=
  match (splitSep '_' name)[1]? with
  | some t => parse t
  | none => none

/-- `_names_to_branches` for one name (utils.py:1737-1738). -/
def stationBranch (name : Text) : Text := (splitSep '_' name).headD []

/-- The stations of the branches of a route, with their kilometres (utils.py:1752-1755). -/
def routeStations (parse : Text → Option K) (names route : List Text) : List (Text × Option K) :=
  route.flatMap fun stop =>
    (names.filter fun n => decide (stationBranch n = stop)).map fun n => (n, stationKm parse n)

/-- The station at a position of a route, if it has a kilometre (utils.py:1761-1762). -/
def pickKm (l : List (Text × Option K)) (i : Nat) : Option (Text × K) :=
  match l[i]? with
  | some (n, some km) => some (n, km)
  | _ => none

/-- `get_route` without the measuring stations (utils.py:1740-1762). -/
def getRoute (s : ArgSort K) (parse : Text → Option K) (names route : List Text) : List Text × List K :=
  let l := routeStations parse names route
  let picked := (s.order (l.map (·.2))).filterMap (pickKm l)
  (picked.map (·.1), picked.map (·.2))

/-- The measuring stations of `get_route` (utils.py:1757, 1764-1765). -/
def getRouteLmw (s : ArgSort K) (parse : Text → Option K) (names route : List Text) : List (Text × Option K) :=
  let l := (routeStations parse names route).filter fun x => containsText "LMW".toList x.1
  (s.order (l.map (·.2))).filterMap fun i => l[i]?

/-- The loop of `_lmw_func` (utils.py:2163-2180); `prev` is the position of the last label. -/
def labelsFrom (prev : K) : List (Text × K) → List (Text × K)
  | [] => []
  | (name, loc) :: rest =>
    if !containsText "lmw".toList (lower name) then labelsFrom prev rest
    else if |prev - loc| < 5 then labelsFrom prev rest
    else (name, loc) :: labelsFrom loc rest

/-- `_lmw_func` (utils.py:2163-2180): positions with the last part of the name. -/
def labels (l : List (Text × K)) : List (Text × K) :=
  (labelsFrom (-9999) l).map fun x => ((splitSep '_' x.1).getLastD [], x.2)

/-- `drop_duplicates` on rows of values; the index is not compared (utils.py:2094). -/
def dropDuplicates {R V : Type} [DecidableEq V] : List (R × V) → List V → List (R × V)
  | [], _ => []
  | (r, v) :: rest, seen => if v ∈ seen then dropDuplicates rest seen else (r, v) :: dropDuplicates rest (v :: seen)

/-- `get_data_along_route` (utils.py:2074-2094): kilometres and series of the stations. `series` is the column of a
station; a missing column raises `KeyError`. -/
def dataAlongRoute {V : Type} [DecidableEq V] (series : Text → Option V) (stations : List Text) (rkms : List K) :
    Except PyErr (List (K × V)) :=
  match collect (fun n => match series n with | some v => .ok v | none => .error .keyError) stations with
  | .error e => .error e
  | .ok vs => .ok (dropDuplicates (rkms.zip vs) [])

/-! ## Moments and discharges -/

/-- The days after the first one of the lines drawn by `_time_func` (utils.py:2109-2115) for a series of `n` whole days. A
step of zero raises `ValueError`. -/
def momentDays (n : Nat) : Except PyErr (List Nat) :=
  if n / 6 = 0 then .error .valueError
  else .ok ((List.range ((n + n / 6 - 1) / (n / 6))).map fun i => i * (n / 6))

/-- The first discharge at which the level is not below `t`; the first one when there is none (`idxmin`, utils.py:2383). -/
def dischargeAt (table : List (K × K)) (t : Option K) : Option K :=
  match table.find? fun r => match t with | some t => !decide (r.2 < t) | none => true with
  | some r => some r.1
  | none => table.head?.map (·.1)

/-- The loop of `_iter_discharge_steps` (utils.py:2381-2387). -/
def dischargeLoop (table : List (K × K)) (prev : K) : List (Option K) → List K
  | [] => []
  | t :: ts =>
    match dischargeAt table t with
    | none => []
    | some q => if q = prev then dischargeLoop table prev ts else q :: dischargeLoop table q ts

/-- The thresholds of `_iter_discharge_steps` (utils.py:2377-2382): missing when there is no level at a positive discharge. -/
def dischargeLevels (n : Nat) (table : List (K × K)) : List (Option K) :=
  (List.range n).map fun i : Nat =>
    match (table.map (·.2)).max?, ((table.filter fun r => decide (0 < r.1)).map (·.2)).min? with
    | some hi, some lo => some (lo + ((i : K) + 1) * ((hi - lo) / ((n : K) + 1)))
    | _, _ => none

/-- `_iter_discharge_steps` (utils.py:2373-2387) for the column of digitised levels of the last station. `idxmin` of an empty
column raises `ValueError`. -/
def dischargeSteps (n : Nat) (column : List (K × Option K)) : Except PyErr (List K) :=
  let table := column.filterMap fun r => r.2.map fun v => (r.1, v)
  if table.isEmpty && decide (0 < n) then .error .valueError
  else .ok (dischargeLoop table 0 (dischargeLevels n table))

/-! ## Statistics -/

variable {T : Type} [LinearOrder T]

/-- The value of a series at a time. -/
def seriesAt (s : List (T × Option K)) (t : T) : Option K := (s.find? fun r => decide (r.1 = t)).bind (·.2)

/-- `data_1d_h - data_2d_h` for one station (utils.py:1907): at all times of both series, missing where one is missing. Times
of a series are increasing. -/
def diffSeries (a b : List (T × Option K)) : List (T × Option K) :=
  (npUnique (a.map (·.1) ++ b.map (·.1))).map fun t =>
    (t, match seriesAt a t, seriesAt b t with | some x, some y => some (x - y) | _, _ => none)

/-- `stats["bias"]` (utils.py:1918). -/
def bias (d : List (T × Option K)) : Option K := nanmean (d.map (·.2))

/-- `stats["mae"]` (utils.py:1920). -/
def mae (d : List (T × Option K)) : Option K := nanmean (d.map fun r => r.2.map fun x => |x|)

/-- The square of `stats["std"]` (utils.py:1919): pandas divides by the number of values minus one. -/
def variance (d : List (T × Option K)) : Option K :=
  let xs := (d.map (·.2)).reduceOption
  if xs.length < 2 then none
  else some ((xs.map fun x => (x - xs.sum / (xs.length : K)) ^ 2).sum / ((xs.length : K) - 1))

/-- `af.nlargest(n).mean()` (utils.py:2147-2149). -/
def maxMean (n : Nat) (d : List (T × Option K)) : Option K :=
  nanmean ((((d.map (·.2)).reduceOption.insertionSort (· ≥ ·)).take n).map some)

/-- `af[-n:].mean()` (utils.py:2150-2153). -/
def lastMean (n : Nat) (d : List (T × Option K)) : Option K := nanmean ((d.drop (d.length - n)).map (·.2))

end Numbers

end Fm2prof
