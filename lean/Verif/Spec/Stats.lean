import Verif.Model.Stats
import Verif.Spec.Compare
import Verif.Spec.Reader

/-!
# What rating curves and statistics of a comparison are expected to be
-/

namespace Fm2prof.Spec

variable {K : Type} [Field K] [LinearOrder K] [IsStrictOrderedRing K] [FloorRing K]

/-- The value in a row under the name of a station. -/
def valueUnder (columns : List Text) (row : List (Option K)) (n : Text) : Option K := ((columns.zip row).lookup n).join

/-- The discharges and levels of a station, taken at the same records. -/
def flowLevels (h q : Frame K) (n : Text) : List (Option K × Option K) :=
  List.zipWith (fun qr hr => (valueUnder q.columns qr n, valueUnder h.columns hr n)) q.rows h.rows

/-- Tables of levels and discharges of the same model. -/
structure SameRecords (h q : Frame K) : Prop where
  stations : q.columns = h.columns
  nodup : h.columns.Nodup
  records : q.rows.length = h.rows.length
  levels : ∀ row ∈ h.rows, row.length = h.columns.length
  discharges : ∀ row ∈ q.rows, row.length = q.columns.length

/-- The rating curves of a model: a row for each of the discharges 0, 200, …, 17800 and a column for each station. It holds the
mean of the levels at discharges from the previous one up to, but not including, that of the row; in the first row at
negative discharges. -/
structure IsRating (h q : Frame K) (r : Rating K) : Prop where
  labels : r.labels = (List.range 90).map fun i : Nat => (i : K) * 200
  columns : r.columns = h.columns
  rows : r.rows.length = 90
  widths : ∀ row ∈ r.rows, row.length = h.columns.length
  first : ∀ row, r.rows[0]? = some row → ∀ n ∈ h.columns,
    valueUnder h.columns row n = meanOf (levelsWhere (fun x => decide (x < 0)) (flowLevels h q n))
  others : ∀ i : Nat, i < 89 → ∀ row, r.rows[i + 1]? = some row → ∀ n ∈ h.columns,
    valueUnder h.columns row n =
      meanOf (levelsWhere (fun x => decide ((i : K) * 200 ≤ x ∧ x < ((i : K) + 1) * 200)) (flowLevels h q n))

/-- The rating curves can be read back from a file. -/
def ReadableRating (ft : FloatText K) (r : Rating K) : Prop :=
  (∀ x ∈ r.labels, ft.representable x) ∧ (∀ row ∈ r.rows, ∀ x, some x ∈ row → ft.representable x) ∧
    r.columns ≠ [] ∧ ∀ n ∈ r.columns, Plain n

/-- The records of a station from `start` to `stop`. -/
def seriesWithin (start stop : Int) (times : List Int) (f : Frame K) (n : Text) : List (Int × Option K) :=
  ((times.zip f.rows).filter fun r => decide (start ≤ r.1 ∧ r.1 ≤ stop)).map fun r => (r.1, valueUnder f.columns r.2 n)

/-- The records of a table from `start` to `stop`. -/
def cut (start stop : Int) (f : Frame K) : Frame K :=
  match f.index with
  | .times l =>
    let kept := (l.zip f.rows).filter fun r => decide (start ≤ r.1 ∧ r.1 ≤ stop)
    ⟨.times (kept.map (·.1)), f.columns, kept.map (·.2)⟩
  | .texts _ => f

/-- The variance of some numbers, none for fewer than two. -/
def varianceOf (xs : List K) : Option K :=
  if xs.length < 2 then none
  else some ((xs.map fun x => (x - xs.sum / (xs.length : K)) ^ 2).sum / ((xs.length : K) - 1))

/-- The mean of the last `n` records of a series. -/
def lastOf (n : Nat) (s : List (Int × Option K)) : Option K := meanOf ((s.drop (s.length - n)).filterMap (·.2))

/-- `m` is the mean of the `n` highest values, or of all when there are fewer. -/
def IsHighest (n : Nat) (xs : List K) (m : Option K) : Prop :=
  ∃ top rest, (top ++ rest).Perm xs ∧ top.length = min n xs.length ∧ (∀ x ∈ top, ∀ y ∈ rest, y ≤ x) ∧ m = meanOf top

/-- The difference of two series at a time, missing when one of them has no value. -/
def differenceAt (a b : List (Int × Option K)) (t : Int) : Option K :=
  match seriesAt a t, seriesAt b t with
  | some x, some y => some (x - y)
  | _, _ => none

/-- The statistics of a station with these two series. -/
structure IsStatistic (parse : Text → Option K) (a b : List (Int × Option K)) (n : Text) (r : StatRow K) : Prop where
  station : r.station = n
  bias : r.bias = meanOf (commonDiffs a b)
  variance : r.variance = varianceOf (commonDiffs a b)
  mae : r.mae = meanOf ((commonDiffs a b).map fun x => |x|)
  branch : IsBranch n r.branch
  km : ∀ k, r.rkm = some k ↔ IsKm parse n k
  measuring : r.isLmw = true ↔ IsMeasuring n
  lasts : r.means[0]? = some (lastOf 3 a) ∧ r.means[1]? = some (lastOf 25 a) ∧
    r.means[4]? = some (lastOf 3 b) ∧ r.means[5]? = some (lastOf 25 b)
  highest : ∃ m2 m3 m6 m7, r.means[2]? = some m2 ∧ r.means[3]? = some m3 ∧ r.means[6]? = some m6 ∧ r.means[7]? = some m7 ∧
    IsHighest 3 (a.filterMap (·.2)) m2 ∧ IsHighest 13 (a.filterMap (·.2)) m3 ∧
    IsHighest 3 (b.filterMap (·.2)) m6 ∧ IsHighest 13 (b.filterMap (·.2)) m7
  diffs : ∃ m10 m11, r.means[10]? = some m10 ∧ r.means[11]? = some m11 ∧
    IsHighest 3 (commonDiffs a b) m10 ∧ IsHighest 13 (commonDiffs a b) m11
  lastDiffs : ∃ times : List Int, times.Pairwise (· < ·) ∧ (∀ t, t ∈ times ↔ t ∈ a.map (·.1) ∨ t ∈ b.map (·.1)) ∧
    r.means[8]? = some (lastOf 3 (times.map fun t => (t, differenceAt a b t))) ∧
    r.means[9]? = some (lastOf 25 (times.map fun t => (t, differenceAt a b t)))
  number : r.means.length = 12

/-- Two tables of levels at the same stations, with increasing times. -/
structure SameStations (t1 t2 : List Int) (h1 h2 : Frame K) : Prop where
  times1 : h1.index = .times t1
  times2 : h2.index = .times t2
  increasing1 : t1.Pairwise (· < ·)
  increasing2 : t2.Pairwise (· < ·)
  rows1 : h1.rows.length = t1.length
  rows2 : h2.rows.length = t2.length
  stations : h2.columns = h1.columns
  nodup : h1.columns.Nodup
  widths1 : ∀ row ∈ h1.rows, row.length = h1.columns.length
  widths2 : ∀ row ∈ h2.rows, row.length = h2.columns.length

/-- Branches in the order in which they first occur. -/
def InOrder (all bs : List Text) : Prop :=
  bs.Nodup ∧ (∀ b, b ∈ bs ↔ b ∈ all) ∧ bs.Pairwise fun b c => all.idxOf b < all.idxOf c

/-- The mean over the stations of a branch of a value. -/
def branchMean (b : Text) (v : StatRow K → Option K) (s : List (StatRow K)) : Option K :=
  meanOf (s.filterMap fun r => if r.branch = b then v r else none)

/-- The same over its measuring stations. -/
def measuringMean (b : Text) (v : StatRow K → Option K) (s : List (StatRow K)) : Option K :=
  meanOf (s.filterMap fun r => if r.branch = b ∧ r.isLmw = true then v r else none)

/-- A number with two decimals. -/
def twoDecimals : Option K → Text
  | none => "nan".toList
  | some x => fmtFixed 2 x

/-- The line of a branch: bias and deviation over all its stations, and over its measuring stations. -/
def summaryLine (root : K → K) (s : List (StatRow K)) (b : Text) : Text :=
  b ++ ",".toList ++ twoDecimals (branchMean b (·.bias) s) ++ "±(".toList ++
    twoDecimals (branchMean b (fun r => r.variance.map root) s) ++ "), ".toList ++
    twoDecimals (measuringMean b (·.bias) s) ++ "±(".toList ++
    twoDecimals (measuringMean b (fun r => r.variance.map root) s) ++ ")".toList

/-- A step that changes the time window. -/
def SetsWindow : SessionStep → Prop
  | .setStart _ => True
  | .setStop _ => True
  | _ => False

/-- What is shown for a station. -/
def shown (ft : FloatText K) (s : Session K) (n : Text) : Except PyErr (StatRow K) := (getStatistics ft.parse s n).2

/-- The same comparison, opened anew with the start and stop times in force. -/
def reopened (s : Session K) : Session K := { s with statistics := none }

/-- The beginning of a path before the name of a file: empty, or ending with a slash. -/
def IsDir (pre : Text) : Prop := pre = [] ∨ ∃ d, pre = d ++ ['/']

end Fm2prof.Spec
