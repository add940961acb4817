import Verif.Model.Reader

/-!
# What reading results for a comparison is expected to give
-/

namespace Fm2prof.Spec

/-- A name that pandas writes to and reads from csv files as it is. -/
def Plain (t : Text) : Prop := t ≠ [] ∧ ∀ c ∈ [',', '\n', '\r', '"'], c ∉ t

/-- The units of a time variable that say that it counts seconds since `t0`. More may follow the time, such as decimals or a
time zone, as long as the letter `s` does not occur in it. -/
def StartsAt (clock : Clock) (units : Text) (t0 : Int) : Prop :=
  ∃ rest, 's' ∉ rest ∧ units = "seconds since ".toList ++ (clock.stamp t0 ++ rest)

variable {K : Type} [Field K] [LinearOrder K] [IsStrictOrderedRing K] [FloorRing K]

/-- A table of values, a row for each time and a column for each station, in which all values can be read back from their
text. -/
def IsTable (ft : FloatText K) (times : Nat) (stations : Nat) (data : List (List (Option K))) : Prop :=
  data.length = times ∧ ∀ row ∈ data, row.length = stations ∧ ∀ x, some x ∈ row → ft.representable x

/-- Results of a 1D model that start at `t0`. -/
structure Good1d (clock : Clock) (ft : FloatText K) (his : His1d K) (t0 : Int) : Prop where
  start : StartsAt clock his.units t0
  stations : his.names ≠ []
  names : ∀ n ∈ his.names, Plain n
  nodup : his.names.Nodup
  levels : IsTable ft his.seconds.length his.names.length his.levels
  discharges : IsTable ft his.seconds.length his.names.length his.discharges

/-- The times of results that start at `t0`, with an offset. -/
def timesOf (t0 offset : Int) (seconds : List Int) : List Int := seconds.map fun s => t0 + s + offset

/-- The water levels of a 1D model. -/
def levels1d (t0 offset : Int) (his : His1d K) : Frame K := ⟨.times (timesOf t0 offset his.seconds), his.names, his.levels⟩

/-- The discharges of a 1D model. -/
def discharges1d (t0 offset : Int) (his : His1d K) : Frame K :=
  ⟨.times (timesOf t0 offset his.seconds), his.names, his.discharges⟩

/-- The first rows of a table. -/
def firstRows (k : Nat) (f : Frame K) : Frame K :=
  ⟨match f.index with | .times l => .times (l.take k) | .texts l => .texts (l.take k), f.columns, f.rows.take k⟩

/-- Names of 2D stations that are kept apart from numbers and missing values. -/
def PlainStation (ft : FloatText K) (t : Text) : Prop := Plain t ∧ t ∉ missingTexts ∧ ft.parse t = none

/-- Results of a 2D model that start at `t0`. -/
structure Good2d (clock : Clock) (ft : FloatText K) (his : His2d K) (t0 : Int) : Prop where
  start : StartsAt clock his.units t0
  hnames : ∀ n ∈ his.hnames, PlainStation ft n
  qnames : ∀ n ∈ his.qnames, PlainStation ft n
  levels : IsTable ft his.seconds.length his.hnames.length his.levels
  discharges : IsTable ft his.seconds.length his.qnames.length his.discharges

/-- The value for a 1D station `n`: that at the first 2D station whose name starts with the first nine characters of `n`,
missing when there is none. -/
def matchedValue (names : List Text) (row : List (Option K)) (n : Text) : Option K :=
  match names.findIdx? fun m => (n.take 9).isPrefixOf m with
  | some i => (row[i]?).join
  | none => none

/-- A table of 2D values at 1D stations. -/
def matchedTable (t0 : Int) (seconds : List Int) (names : List Text) (data : List (List (Option K)))
    (stations : List Text) : Frame K :=
  ⟨.times (timesOf t0 0 seconds), stations, data.map fun row => stations.map fun n => matchedValue names row n⟩

/-- The water levels of a 2D model at 1D stations. -/
def levels2d (t0 : Int) (his : His2d K) (stations : List Text) : Frame K :=
  matchedTable t0 his.seconds his.hnames his.levels stations

/-- The discharges of a 2D model at 1D stations. -/
def discharges2d (t0 : Int) (his : His2d K) (stations : List Text) : Frame K :=
  matchedTable t0 his.seconds his.qnames his.discharges stations

/-- The files of a first reading in the order in which they are written. -/
def writesOf (clock : Clock) (ft : FloatText K) (t1 offset t2 : Int) (his1 : His1d K) (his2 : His2d K) :
    List (Text × Text) :=
  [("1D_H.csv".toList, frameText clock ft (levels1d t1 offset his1)),
    ("1D_Q.csv".toList, frameText clock ft (discharges1d t1 offset his1)),
    ("map_1d_2d.csv".toList, stationMapText his2.hnames his2.qnames his1.names),
    ("2D_Q.csv".toList, frameText clock ft (discharges2d t2 his2 his1.names)),
    ("2D_H.csv".toList, frameText clock ft (levels2d t2 his2 his1.names))]

/-- The number of characters in the first `k` lines of a text. -/
def lineEnd (k : Nat) (t : Text) : Nat := ((fileLines t).take k).flatten.length

/-- Some of the times are not at midnight. -/
def HasTimeOfDay (clock : Clock) (t0 offset : Int) (seconds : List Int) : Prop :=
  ∃ t ∈ timesOf t0 offset seconds, clock.midnight t = false

end Fm2prof.Spec
