import Verif.Model.Stats

/-!
# The figures of a comparison

Models what the figures of `Compare1D2D` (`utils.py`) show and the files they are saved to. Colours, labels of axes and the drawing itself
are not modelled: `image` is what a figure with some content looks like. Stations have different names. Figures are saved, and none
is added to another one (the arguments `savefig`, `add_to_fig` and `label` have their default values).
-/

namespace Fm2prof

variable {K : Type} [Field K] [LinearOrder K] [IsStrictOrderedRing K] [FloorRing K]

/-! ## Series -/

/-- `data[station]`: the column of a station, with the index. -/
def columnSeries {X : Type} (columns : List Text) (rows : List (X × List (Option K))) (name : Text) : Option (List (X × Option K)) :=
  (columns.findIdx? (· = name)).map fun j => rows.map fun r => (r.1, (r.2[j]?).join)

/-- One entry of `data[station].iloc[time_index]` (utils.py:2071). A negative position occurs only for an empty table. -/
def entryAt {X : Type} (columns : List Text) (rows : List (X × List (Option K))) (i : Int) (name : Text) :
    Except PyErr (Option K) :=
  match columnSeries columns rows name with
  | none => .error .keyError
  | some s =>
    match s[i.toNat]? with
    | some r => .ok r.2
    | none => .error .indexError

/-- `get_data_along_route_for_time` (utils.py:2055-2072). -/
def alongRouteAt {X : Type} (columns : List Text) (rows : List (X × List (Option K))) (stations : List Text) (rkms : List K) (i : Int) :
    Except PyErr (List (K × Option K)) :=
  match collect (entryAt columns rows i) stations with
  | .error e => .error e
  | .ok vs => .ok (rkms.zip vs)

/-- The difference of two values, missing when one is missing. -/
def subOption : Option K → Option K → Option K
  | some x, some y => some (x - y)
  | _, _ => none

/-- The values of a series at a label; a missing one if it has no such label. -/
def valuesAt (s : List (K × Option K)) (k : K) : List (Option K) :=
  match s.filter fun r => decide (r.1 = k) with
  | [] => [none]
  | r :: rs => r.2 :: rs.map (·.2)

/-- `a - b` for series with increasing labels (utils.py:2271, 2351): entry by entry if the labels are the same, otherwise at all labels
of both. Labels that occur several times are combined in all ways. -/
def alignSub (a b : List (K × Option K)) : List (K × Option K) :=
  if a.map (·.1) = b.map (·.1) then List.zipWith (fun x y => (x.1, subOption x.2 y.2)) a b
  else (npUnique (a.map (·.1) ++ b.map (·.1))).flatMap fun k =>
    (valuesAt a k).flatMap fun x => (valuesAt b k).map fun y => (k, subOption x y)

/-! ## Longitudinal figures -/

/-- A line of a longitudinal figure: levels of the 1D model in the upper half, differences in the lower half. Lines of a moment are labelled
with its day. -/
structure RouteLine (K : Type) where
  moment : Option Int
  levels : List (K × Option K)
  difference : List (K × Option K)
  deriving DecidableEq

/-- A longitudinal figure: its lines, and the marks of measuring stations. -/
structure LongFigure (K : Type) where
  lines : List (RouteLine K)
  marks : List (Text × K)
  deriving DecidableEq

/-- The line of a moment (utils.py:2118-2131, 2266-2271). `two` is what `data_2d_h` gives. -/
def timeLine (c1 c2 : List Text) (one : List (Int × List (Option K))) (two : Except PyErr (List (Int × List (Option K))))
    (stations : List Text) (rkms : List K) (day : Int) : Except PyErr (RouteLine K) :=
  match alongRouteAt c1 one stations rkms (nearestTime (one.map (·.1)) day) with
  | .error e => .error e
  | .ok a =>
    match two with
    | .error e => .error e
    | .ok two =>
      match alongRouteAt c2 two stations rkms (nearestTime (two.map (·.1)) day) with
      | .error e => .error e
      | .ok b => .ok ⟨some day, a, alignSub a b⟩

/-- `_time_func` (utils.py:2109-2133) with the differences. Times are seconds. -/
def timeLines (c1 c2 : List Text) (one : List (Int × List (Option K))) (two : Except PyErr (List (Int × List (Option K))))
    (stations : List Text) (rkms : List K) : Except PyErr (List (RouteLine K)) :=
  match one.head?, one.getLast? with
  | some first, some last =>
    match momentDays ((last.1 - first.1) / 86400).toNat with
    | .error e => .error e
    | .ok days => collect (fun d : Nat => timeLine c1 c2 one two stations rkms (first.1 + 86400 * (d : Int))) days
  | _, _ => .error .indexError

/-- The statistics that can be drawn along a route (utils.py:2146-2153, 2235). -/
def statOf (stat : Text) : Option (List (Int × Option K) → Option K) :=
  if stat = "last3".toList then some (lastMean 3)
  else if stat = "last25".toList then some (lastMean 25)
  else if stat = "max3".toList then some (maxMean 3)
  else if stat = "max13".toList then some (maxMean 13)
  else none

/-- `_apply_stat` for data along a route (utils.py:2136-2154): of columns with the same label the first one is used. -/
def applyStat (f : List (Int × Option K) → Option K) (rows : List (K × List (Int × Option K))) : List (K × Option K) :=
  rows.map fun r =>
    match rows.find? fun r' => decide (r'.1 = r.1) with
    | some r' => (r.1, f r'.2)
    | none => (r.1, none)

/-- `_stat_func` (utils.py:2156-2161) with the differences. -/
def statLines (c1 c2 : List Text) (one : List (Int × List (Option K))) (two : Except PyErr (List (Int × List (Option K))))
    (stations : List Text) (rkms : List K) (f : List (Int × Option K) → Option K) : Except PyErr (List (RouteLine K)) :=
  match dataAlongRoute (columnSeries c1 one) stations rkms with
  | .error e => .error e
  | .ok a =>
    match two with
    | .error e => .error e
    | .ok two =>
      match dataAlongRoute (columnSeries c2 two) stations rkms with
      | .error e => .error e
      | .ok b => .ok [⟨none, applyStat f a, alignSub (applyStat f a) (applyStat f b)⟩]

/-- The lines of `figure_longitudinal` (utils.py:2231-2239). -/
def linesOf (c1 c2 : List Text) (one : List (Int × List (Option K))) (two : Except PyErr (List (Int × List (Option K))))
    (stations : List Text) (rkms : List K) (stat : Text) : Except PyErr (List (RouteLine K)) :=
  if stat = "time".toList then timeLines c1 c2 one two stations rkms
  else
    match statOf stat with
    | some f => statLines c1 c2 one two stations rkms f
    | none => .error .keyError

/-- `figure_longitudinal` (utils.py:2192-2296): the comparison afterwards, and the figure. Kilometres are those of the 2D table. -/
def figureLongitudinal (o : ArgSort K) (parse : Text → Option K) (s : Session K) (route : List Text) (stat : Text) :
    Session K × Except PyErr (LongFigure K) :=
  if stat ≠ "time".toList ∧ (statOf (K := K) stat).isNone then (s, .error .keyError)
  else
    let r := getRoute o parse s.h2.columns route
    match windowed s.window s.h1 with
    | (w, .error e) => ({ s with window := w }, .error e)
    | (w, .ok one) =>
      match linesOf s.h1.columns s.h2.columns one (windowed w s.h2).2 r.1 r.2 stat with
      | .error e => ({ s with window := w }, .error e)
      | .ok lines => ({ s with window := w }, .ok ⟨lines, labels (r.1.zip r.2)⟩)

/-! ## Figures of rating curves -/

/-- A figure of rating curves along a route: levels and differences per discharge, and the marks of measuring stations. -/
structure RatingFigure (K : Type) where
  lines : List (K × List (K × Option K) × List (K × Option K))
  marks : List (Text × Option K)
  deriving DecidableEq

/-- The rows of a table of rating curves with their labels. -/
def ratingRows (r : Rating K) : List (K × List (Option K)) := r.labels.zip r.rows

/-- `h1d[discharge]` for data along a route. -/
def atDischarge (rows : List (K × List (K × Option K))) (q : K) : Except PyErr (List (K × Option K)) :=
  collect (fun r =>
    match r.2.find? fun x => decide (x.1 = q) with
    | some x => .ok (r.1, x.2)
    | none => .error .keyError) rows

/-- `figure_longitudinal_rating_curve` (utils.py:2298-2371): nothing is drawn without discharges. If the last label occurs several times,
the comparison with the previous discharge raises `ValueError`; without stations there is no last one. `names` are the stations of the
2D table. -/
def figureRating (o : ArgSort K) (parse : Text → Option K) (names : List Text) (r1 r2 : Rating K) (route : List Text) :
    Except PyErr (Option (RatingFigure K)) :=
  let r := getRoute o parse names route
  match dataAlongRoute (columnSeries r1.columns (ratingRows r1)) r.1 r.2 with
  | .error e => .error e
  | .ok h1 =>
    match dataAlongRoute (columnSeries r2.columns (ratingRows r2)) r.1 r.2 with
    | .error e => .error e
    | .ok h2 =>
      match h1.getLast? with
      | none => .error .indexError
      | some last =>
        if 1 < h1.countP fun x => decide (x.1 = last.1) then .error .valueError
        else
          match dischargeSteps 8 last.2 with
          | .error e => .error e
          | .ok [] => .ok none
          | .ok (q :: qs) =>
            match collect (fun q =>
                match atDischarge h1 q, atDischarge h2 q with
                | .ok a, .ok b => .ok (q, a, alignSub a b)
                | .error e, _ => .error e
                | _, .error e => .error e) (q :: qs) with
            | .error e => .error e
            | .ok lines => .ok (some ⟨lines, getRouteLmw o parse names route⟩)

/-! ## Heat maps -/

/-- A heat map: times or discharges, and a row of differences per kilometre. -/
structure HeatMap (X K : Type) where
  across : List X
  rows : List (K × List (Option K))
  deriving DecidableEq

/-- `data_1 - data_2` for the columns of a station. -/
def tableDiff {X : Type} [LinearOrder X] (c1 c2 : List Text) (a b : List (X × List (Option K))) (name : Text) : List (X × Option K) :=
  diffSeries ((columnSeries c1 a name).getD []) ((columnSeries c2 b name).getD [])

/-- The entries of a heat map (utils.py:2404-2405, 2448-2450): records where all stations are missing are left out. Labels of both tables
are increasing. -/
def heatMapOf {X : Type} [LinearOrder X] (c1 c2 : List Text) (a b : List (X × List (Option K))) (stations : List Text) (rkms : List K) :
    HeatMap X K :=
  let all := npUnique (a.map (·.1) ++ b.map (·.1))
  let kept := all.filter fun t => (diffColumns c1 c2).any fun n => (seriesAt (tableDiff c1 c2 a b n) t).isSome
  ⟨kept, dropDuplicates (rkms.zip (stations.map fun n => kept.map fun t => seriesAt (tableDiff c1 c2 a b n) t)) []⟩

/-- `heatmap_time` (utils.py:2389-2431). Times that could not be read are not considered: the model stops there. -/
def heatMapTime (o : ArgSort K) (parse : Text → Option K) (s : Session K) (route : List Text) : Except PyErr (HeatMap Int K) :=
  let r := getRoute o parse s.h2.columns route
  match s.h1.index, s.h2.index with
  | .times t1, .times t2 => .ok (heatMapOf s.h1.columns s.h2.columns (t1.zip s.h1.rows) (t2.zip s.h2.rows) r.1 r.2)
  | _, _ => .error .typeError

/-- `heatmap_rating_curve` (utils.py:2433-2476). -/
def heatMapRating (o : ArgSort K) (parse : Text → Option K) (names : List Text) (r1 r2 : Rating K) (route : List Text) : HeatMap K K :=
  let r := getRoute o parse names route
  heatMapOf r1.columns r2.columns (ratingRows r1) (ratingRows r2) r.1 r.2

/-! ## Discharges at two stations -/

/-- A figure of discharges: per station the 2D and 1D series, the differences, and per model total discharges with the two shares. -/
structure DischargeFigure (K : Type) where
  series : List (List (Int × Option K) × List (Int × Option K))
  errors : List (Int × Option K)
  shares2 : List (K × Option K × Option K)
  shares1 : List (K × Option K × Option K)
  deriving DecidableEq

/-- A share of the total in percent (utils.py:2014, 2020, 2026, 2032). Where the total is zero, it is no number. -/
def share (q : Option K) (total : K) : Option K := q.bind fun x => if total = 0 then none else some (x / total * 100)

/-- The totals and shares of two columns (utils.py:2010-2033): `sum(axis=1)` leaves out missing values. -/
def sharesOf (a b : List (Int × Option K)) : List (K × Option K × Option K) :=
  List.zipWith (fun x y =>
    let total := x.2.getD 0 + y.2.getD 0
    (total, share x.2 total, share y.2 total)) a b

/-- The columns of a station in both tables within the window (utils.py:1981-1997), 2D first. -/
def dischargeSeries (c1 c2 : List Text) (two one : List (Int × List (Option K))) (station : Text) :
    Except PyErr (List (Int × Option K) × List (Int × Option K)) :=
  match columnSeries c2 two station, columnSeries c1 one station with
  | some b, some a => .ok (b, a)
  | _, _ => .error .keyError

/-- `figure_compare_discharge_at_stations` (utils.py:1947-2053). The differences are those of the last station, in the tables without the
window (utils.py:1999-2001). Times that could not be read raise an error. -/
def figureDischarge (w : Window Int) (q1 q2 : Frame K) (stations : List Text) : Window Int × Except PyErr (DischargeFigure K) :=
  match stations with
  | [s, s'] =>
    match windowed w q2 with
    | (w2, .error e) => (w2, .error e)
    | (w2, .ok two) =>
      match windowed w2 q1 with
      | (w1, .error e) => (w1, .error e)
      | (w1, .ok one) =>
        match dischargeSeries q1.columns q2.columns two one s, dischargeSeries q1.columns q2.columns two one s' with
        | .ok x, .ok y =>
          match q1.index, q2.index with
          | .times t1, .times t2 =>
            (w1, .ok ⟨[x, y], tableDiff q1.columns q2.columns (t1.zip q1.rows) (t2.zip q2.rows) s', sharesOf x.1 y.1, sharesOf x.2 y.2⟩)
          | _, _ => (w1, .error .typeError)
        | _, _ => (w1, .error .keyError)
  | _ => (w, .error .valueError)

/-! ## Files -/

/-- A figure that is asked for: along a route, of rating curves, heat maps, at a station, of discharges. -/
inductive FigureKind where
  | longitudinal (route : List Text) (stat : Text)
  | ratingCurve (route : List Text)
  | heatTime (route : List Text)
  | heatRating (route : List Text)
  | station (name func : Text)
  | discharge (stations : List Text) (title : Text)
  deriving DecidableEq

/-- The file of a figure (utils.py:1884, 2048, 2289, 2365, 2430, 2475); a route is the names of its branches with dashes. -/
def figureKindFile : FigureKind → Text
  | .longitudinal route _ => "figures/longitudinal/".toList ++ joinWith ['-'] route ++ ".png".toList
  | .ratingCurve route => "figures/longitudinal/".toList ++ joinWith ['-'] route ++ "_rating_curve.png".toList
  | .heatTime route => "figures/heatmaps/".toList ++ joinWith ['-'] route ++ "_timeseries.png".toList
  | .heatRating route => "figures/heatmaps/".toList ++ joinWith ['-'] route ++ "_rating_curve.png".toList
  | .station name _ => "figures/stations/".toList ++ name ++ ".png".toList
  | .discharge _ title => "figures/discharge/".toList ++ title ++ ".png".toList

/-- What is drawn at a station (utils.py:1822-1858): levels of both models and their difference, against time or discharge. -/
structure StationFigure (K : Type) where
  byTime : Option (List (Int × Option K) × List (Int × Option K) × List (Int × Option K))
  byDischarge : Option (List (K × Option K) × List (K × Option K) × List (K × Option K))
  stat : StatRow K
  deriving DecidableEq

/-- The content of a figure. -/
inductive FigureContent (K : Type) where
  | long (f : LongFigure K)
  | rating (f : RatingFigure K)
  | heatTime (f : HeatMap Int K)
  | heatRating (f : HeatMap K K)
  | station (f : StationFigure K)
  | discharge (f : DischargeFigure K)
  deriving DecidableEq

/-- A `Compare1D2D` with its rating curves, discharges and routes. -/
structure Comparison (K : Type) where
  session : Session K
  q1 : Frame K
  q2 : Frame K
  r1 : Rating K
  r2 : Rating K
  routes : Option (List (List Text))

/-- The curves of `figure_at_station` (utils.py:1822-1858): the window afterwards, and the levels. Any other word than `qh` and `time`
draws no curves. Curves of another length than `_qsteps` cannot be drawn (`ValueError`). -/
def stationCurves (c : Comparison K) (name func : Text) : Window Int × Except PyErr
    (Option (List (Int × Option K) × List (Int × Option K) × List (Int × Option K)) ×
      Option (List (K × Option K) × List (K × Option K) × List (K × Option K))) :=
  let s := c.session
  if lower func = "qh".toList then
    match columnSeries c.r2.columns (ratingRows c.r2) name, columnSeries c.r1.columns (ratingRows c.r1) name with
    | some b, some a =>
      if b.length = (qsteps (K := K)).length ∧ a.length = (qsteps (K := K)).length then (s.window, .ok (none, some (b, a, alignSub a b)))
      else (s.window, .error .valueError)
    | _, _ => (s.window, .error .keyError)
  else if lower func = "time".toList then
    match windowed s.window s.h2 with
    | (w, .error e) => (w, .error e)
    | (w, .ok two) =>
      match columnSeries s.h2.columns two name with
      | none => (w, .error .keyError)
      | some b =>
        match windowed w s.h1 with
        | (w', .error e) => (w', .error e)
        | (w', .ok one) =>
          match columnSeries s.h1.columns one name with
          | none => (w', .error .keyError)
          | some a => (w', .ok (some (b, a, diffSeries a b), none))
  else (s.window, .ok (none, none))

/-- `figure_at_station` (utils.py:1804-1891). -/
def figureStation (parse : Text → Option K) (c : Comparison K) (name func : Text) : Comparison K × Except PyErr (StationFigure K) :=
  match stationCurves c name func with
  | (w, .error e) => ({ c with session := { c.session with window := w } }, .error e)
  | (w, .ok curves) =>
    match getStatistics parse { c.session with window := w } name with
    | (s, .error e) => ({ c with session := s }, .error e)
    | (s, .ok r) => ({ c with session := s }, .ok ⟨curves.1, curves.2, r⟩)

/-- The content of a figure; nothing is drawn for too few rating curves. -/
def figureContent (o : ArgSort K) (parse : Text → Option K) (c : Comparison K) :
    FigureKind → Comparison K × Except PyErr (Option (FigureContent K))
  | .longitudinal route stat =>
    match figureLongitudinal o parse c.session route stat with
    | (s, .error e) => ({ c with session := s }, .error e)
    | (s, .ok f) => ({ c with session := s }, .ok (some (.long f)))
  | .ratingCurve route =>
    match figureRating o parse c.session.h2.columns c.r1 c.r2 route with
    | .error e => (c, .error e)
    | .ok none => (c, .ok none)
    | .ok (some f) => (c, .ok (some (.rating f)))
  | .heatTime route =>
    match heatMapTime o parse c.session route with
    | .error e => (c, .error e)
    | .ok f => (c, .ok (some (.heatTime f)))
  | .heatRating route => (c, .ok (some (.heatRating (heatMapRating o parse c.session.h2.columns c.r1 c.r2 route))))
  | .station name func =>
    match figureStation parse c name func with
    | (c', .error e) => (c', .error e)
    | (c', .ok f) => (c', .ok (some (.station f)))
  | .discharge stations _ =>
    match figureDischarge c.session.window c.q1 c.q2 stations with
    | (w, .error e) => ({ c with session := { c.session with window := w } }, .error e)
    | (w, .ok f) => ({ c with session := { c.session with window := w } }, .ok (some (.discharge f)))

/-- Drawing and saving a figure; `image` is the picture of a content. -/
def saveKind (o : ArgSort K) (parse : Text → Option K) (image : FigureContent K → Text) (c : Comparison K) (dir : Store) (k : FigureKind) :
    Comparison K × Store × Except PyErr Unit :=
  match figureContent o parse c k with
  | (c', .error e) => (c', dir, .error e)
  | (c', .ok none) => (c', dir, .ok ())
  | (c', .ok (some f)) => (c', dir.set (figureKindFile k) (image f), .ok ())

/-- Figures one after the other, up to the first exception. -/
def saveKinds (o : ArgSort K) (parse : Text → Option K) (image : FigureContent K → Text) :
    List FigureKind → Comparison K → Store → Comparison K × Store × Except PyErr Unit
  | [], c, dir => (c, dir, .ok ())
  | k :: ks, c, dir =>
    match saveKind o parse image c dir k with
    | (c', dir', .error e) => (c', dir', .error e)
    | (c', dir', .ok _) => saveKinds o parse image ks c' dir'

/-- The figures of a route in `eval` (utils.py:1662-1665). -/
def routeKinds (route : List Text) : List FigureKind :=
  [.ratingCurve route, .longitudinal route "time".toList, .heatRating route, .heatTime route]

/-- `eval` (utils.py:1658-1669): without routes `TypeError` is raised. -/
def evalFigures (o : ArgSort K) (parse : Text → Option K) (image : FigureContent K → Text) (c : Comparison K) (dir : Store) :
    Comparison K × Store × Except PyErr Unit :=
  match c.routes with
  | none => (c, dir, .error .typeError)
  | some routes =>
    saveKinds o parse image (routes.flatMap routeKinds ++ c.session.h1.columns.map fun n => .station n "time".toList) c dir

end Fm2prof
