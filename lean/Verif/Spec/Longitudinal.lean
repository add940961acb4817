import Verif.Model.Longitudinal
import Verif.Spec.Stats

/-!
# What the figures of a comparison are expected to show
-/

namespace Fm2prof.Spec

variable {K : Type} [Field K] [LinearOrder K] [IsStrictOrderedRing K] [FloorRing K]

/-- The level in the first record that is not before a moment; that of the last record if there is none. -/
def levelFrom (s : List (Int × Option K)) (m : Int) : Option K :=
  match s.find? fun r => decide (m ≤ r.1) with
  | some r => r.2
  | none => s.getLast?.bind (·.2)

/-- The stations along a route with their kilometres (see C70). -/
def along (o : ArgSort K) (parse : Text → Option K) (names route : List Text) : List (Text × K) :=
  (getRoute o parse names route).1.zip (getRoute o parse names route).2

/-- A level of one model less a level of the other one, missing when one of them is missing. -/
def minus : Option K → Option K → Option K
  | some x, some y => some (x - y)
  | _, _ => none

/-- The moments drawn: six to eleven of them, every `step` days from `first` on, all before the last whole day. -/
def Moments (first last : Int) (ms : List Int) : Prop :=
  ∃ step count : Nat, 0 < step ∧ 6 ≤ count ∧ count ≤ 11 ∧ (∀ i < count, (i : Int) * step < (last - first) / 86400) ∧
    (last - first) / 86400 ≤ count * step ∧ ms = (List.range count).map fun i : Nat => first + 86400 * ((i : Int) * step)

/-- A value drawn for a statistic: the mean of the last 3 or 25 records, or of the 3 or 13 highest levels. -/
def IsStat (stat : Text) (s : List (Int × Option K)) (v : Option K) : Prop :=
  (stat = "last3".toList ∧ v = lastOf 3 s) ∨ (stat = "last25".toList ∧ v = lastOf 25 s) ∨
    (stat = "max3".toList ∧ IsHighest 3 (s.filterMap (·.2)) v) ∨ (stat = "max13".toList ∧ IsHighest 13 (s.filterMap (·.2)) v)

/-- All records of a station. -/
def allRecords (times : List Int) (f : Frame K) (n : Text) : List (Int × Option K) :=
  (times.zip f.rows).map fun r => (r.1, valueUnder f.columns r.2 n)

/-- The branches a figure is about have names without dashes and underscores, and there is one. -/
def PlainRoute : FigureKind → Prop
  | .longitudinal route _ => route ≠ [] ∧ ∀ b ∈ route, '-' ∉ b ∧ '_' ∉ b
  | .ratingCurve route => route ≠ [] ∧ ∀ b ∈ route, '-' ∉ b ∧ '_' ∉ b
  | .heatTime route => route ≠ [] ∧ ∀ b ∈ route, '-' ∉ b ∧ '_' ∉ b
  | .heatRating route => route ≠ [] ∧ ∀ b ∈ route, '-' ∉ b ∧ '_' ∉ b
  | _ => True

/-- The same kind of figure of the same route or station; discharges with the same title. -/
def SameSubject : FigureKind → FigureKind → Prop
  | .longitudinal r _, .longitudinal r' _ => r = r'
  | .ratingCurve r, .ratingCurve r' => r = r'
  | .heatTime r, .heatTime r' => r = r'
  | .heatRating r, .heatRating r' => r = r'
  | .station n _, .station n' _ => n = n'
  | .discharge _ t, .discharge _ t' => t = t'
  | _, _ => False

/-- The level of a rating curve at a discharge. -/
def curveAt (r : Rating K) (n : Text) (q : K) : Option K :=
  (((r.labels.zip r.rows).find? fun x => decide (x.1 = q)).bind fun x => valueUnder r.columns x.2 n)

/-- The rating curve of a station. -/
def curveOf (r : Rating K) (n : Text) : List (K × Option K) := (r.labels.zip r.rows).map fun x => (x.1, valueUnder r.columns x.2 n)

end Fm2prof.Spec
