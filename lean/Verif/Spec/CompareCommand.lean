import Verif.Spec.Cli
import Verif.Spec.Longitudinal

/-!
# What the figures of a comparison from the command line are expected to show
-/

namespace Fm2prof.Spec

variable {K : Type} [Field K] [LinearOrder K] [IsStrictOrderedRing K] [FloorRing K]

/-- The results of both models cover a common period, and there is more than one record of each. -/
structure Overlap (t1 t2 : List Int) (x y x2 y2 : Int) : Prop where
  first1 : t1.head? = some x
  last1 : t1.getLast? = some y
  first2 : t2.head? = some x2
  last2 : t2.getLast? = some y2
  long1 : x < y
  long2 : x2 < y2
  before : x < y2
  after : x2 < y

/-- The figure along a route: a line for each of six to eleven moments, with at the kilometre of each station the 1D level and the 1D less the
2D level in the first record that is not before the moment. -/
def ShowsRoute (o : ArgSort K) (parse : Text → Option K) (t1 t2 : List Int) (h1 h2 : Frame K) (route : List Text) (start stop : Int)
    (f : LongFigure K) : Prop :=
  ∃ ms, Moments start stop ms ∧ List.Forall₂ (fun m line => line.moment = some m ∧
    line.levels = (along o parse h1.columns route).map (fun z => (z.2, levelFrom (seriesWithin start stop t1 h1 z.1) m)) ∧
    line.difference = (along o parse h1.columns route).map (fun z => (z.2,
      minus (levelFrom (seriesWithin start stop t1 h1 z.1) m) (levelFrom (seriesWithin start stop t2 h2 z.1) m)))) ms f.lines

/-- The heat map of a route: a column for each time at which some station has levels of both models, and rows with the differences at the
kilometres of the stations, one for each station if no two have the same differences. -/
def ShowsDifferences (o : ArgSort K) (parse : Text → Option K) (t1 t2 : List Int) (h1 h2 : Frame K) (route : List Text)
    (f : HeatMap Int K) : Prop :=
  f.across.Pairwise (· < ·) ∧
  (∀ t, t ∈ f.across ↔ ∃ n ∈ h1.columns, (differenceAt (allRecords t1 h1 n) (allRecords t2 h2 n) t).isSome) ∧
  List.Sublist f.rows ((along o parse h1.columns route).map fun z =>
    (z.2, f.across.map (differenceAt (allRecords t1 h1 z.1) (allRecords t2 h2 z.1)))) ∧
  (((along o parse h1.columns route).map fun z => f.across.map (differenceAt (allRecords t1 h1 z.1) (allRecords t2 h2 z.1))).Nodup →
    f.rows = (along o parse h1.columns route).map fun z =>
      (z.2, f.across.map (differenceAt (allRecords t1 h1 z.1) (allRecords t2 h2 z.1))))

/-- The heat map of the rating curves along a route: a column for each discharge at which some station has a level on both curves, and rows
with the differences at the kilometres of the stations, one for each station if no two have the same differences. -/
def ShowsCurveDifferences (o : ArgSort K) (parse : Text → Option K) (names : List Text) (r1 r2 : Rating K) (route : List Text)
    (f : HeatMap K K) : Prop :=
  f.across.Pairwise (· < ·) ∧
  (∀ q, q ∈ f.across ↔ q ∈ r1.labels ∧ ∃ n ∈ names, (minus (curveAt r1 n q) (curveAt r2 n q)).isSome) ∧
  List.Sublist f.rows ((along o parse names route).map fun z =>
    (z.2, f.across.map fun q => minus (curveAt r1 z.1 q) (curveAt r2 z.1 q))) ∧
  (((along o parse names route).map fun z => f.across.map fun q => minus (curveAt r1 z.1 q) (curveAt r2 z.1 q)).Nodup →
    f.rows = (along o parse names route).map fun z => (z.2, f.across.map fun q => minus (curveAt r1 z.1 q) (curveAt r2 z.1 q)))

/-- The figure of a station: the levels of both models from `start` to `stop`, their difference at all these times, and the statistics of
these records. -/
def ShowsStation (parse : Text → Option K) (t1 t2 : List Int) (h1 h2 : Frame K) (start stop : Int) (n : Text) (f : StationFigure K) :
    Prop :=
  (∃ times : List Int, times.Pairwise (· < ·) ∧
    (∀ t, t ∈ times ↔ t ∈ (seriesWithin start stop t1 h1 n).map (·.1) ∨ t ∈ (seriesWithin start stop t2 h2 n).map (·.1)) ∧
    f.byTime = some (seriesWithin start stop t2 h2 n, seriesWithin start stop t1 h1 n,
      times.map fun t => (t, differenceAt (seriesWithin start stop t1 h1 n) (seriesWithin start stop t2 h2 n) t))) ∧
  f.byDischarge = none ∧ IsStatistic parse (seriesWithin start stop t1 h1 n) (seriesWithin start stop t2 h2 n) n f.stat

/-- Rating curves that can be told apart along a route: the stations are at different kilometres and have different curves in each of the
models, and the last of them has a 1D level. -/
structure DistinctCurves (o : ArgSort K) (parse : Text → Option K) (names : List Text) (r1 r2 : Rating K) (route : List Text) : Prop where
  kilometres : ((along o parse names route).map (·.2)).Nodup
  curves1 : ((along o parse names route).map fun z => curveOf r1 z.1).Nodup
  curves2 : ((along o parse names route).map fun z => curveOf r2 z.1).Nodup
  last : ∃ z, (along o parse names route).getLast? = some z ∧ ∃ p ∈ curveOf r1 z.1, p.2 ≠ none

/-- The figure of rating curves along a route: a line for each of at most eight increasing positive discharges on the 1D curve of the last
station, with at the kilometre of each station the level of its 1D curve, and this level less that of its 2D curve. -/
def ShowsCurves (o : ArgSort K) (parse : Text → Option K) (names : List Text) (r1 r2 : Rating K) (route : List Text)
    (f : RatingFigure K) : Prop :=
  ∃ (last : Text × K) (qs : List K), (along o parse names route).getLast? = some last ∧ qs.length ≤ 8 ∧ qs.Pairwise (· < ·) ∧
    (∀ q ∈ qs, 0 < q ∧ curveAt r1 last.1 q ≠ none) ∧
    f.lines = qs.map fun q => (q, (along o parse names route).map (fun z => (z.2, curveAt r1 z.1 q)),
      (along o parse names route).map (fun z => (z.2, minus (curveAt r1 z.1 q) (curveAt r2 z.1 q))))

/-- The two paths are files with results of a 1D and a 2D model that start at `t1` and `t2`, in order of time. -/
structure AreResults (y : CompareTools K) (ft : FloatText K) (files : List Text) (p1 p2 : Text) (his1 : His1d K) (his2 : His2d K)
    (t1 t2 : Int) : Prop where
  file1 : p1 ∈ files
  file2 : p2 ∈ files
  read1 : y.read1 p1 = .ok his1
  read2 : y.read2 p2 = .ok his2
  good1 : Good1d y.clock ft his1 t1
  good2 : Good2d y.clock ft his2 t2
  timeOfDay : HasTimeOfDay y.clock t2 0 his2.seconds
  increasing1 : his1.seconds.Pairwise (· < ·)
  increasing2 : his2.seconds.Pairwise (· < ·)

/-- The project opens with this output directory, which exists. -/
def OutputOf {S C : Type} (x : Setup K S C) (name : Text) (w : World) (out : Text) : Prop :=
  ∃ dir c, configurationOf x name w = .ok (some (dir, c)) ∧ getOutputDirectory x.ft dir c = .ok out ∧ out ∈ w.disk.dirs

end Fm2prof.Spec
