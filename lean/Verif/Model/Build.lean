import Mathlib.Algebra.Order.Field.Basic
import Mathlib.Algebra.BigOperators.Group.List.Basic
import Mathlib.Data.List.Sort
import Verif.Model.Cell
import Verif.Model.Geometry

/-!
# Building a profile from 2D data

Models `CrossSection.build_geometry` (`fm2prof/cross_section.py`) with everything it calls:
`get_centre_values` (`nearest_neighbour.py`), `_identify_lakes`, `_distinguish_conveyance_from_storage`,
`_compute_css_above_z0` and `_extend_css_below_z0`.

A data frame with one row per face and one column per map is a list of cells, each with a function from map number
to value; `nMaps` is the number of columns, and the functions are only evaluated below it. `none` is NaN.
-/

namespace Fm2prof

variable {K : Type} [Field K] [LinearOrder K] [IsStrictOrderedRing K]

/-- The parameters read by `build_geometry` (names as in configurationfile_template.json). -/
structure BuildConfig (K : Type) where
  skipMaps : Int
  lakeTimesteps : Int
  absoluteVelocityThreshold : K
  relativeVelocityThreshold : K
  conveyanceDetectionMethod : Int
  extrapolateStorage : Bool

/-- Arithmetic on floats with NaN. -/
def oadd (a b : Option K) : Option K := a.bind fun x => b.map fun y => x + y
/-- Subtraction on floats with NaN. -/
def osub (a b : Option K) : Option K := a.bind fun x => b.map fun y => x - y
/-- `a > b` for a float that may be NaN and a number. -/
def ogt (a : Option K) (b : K) : Bool := match a with | some x => decide (b < x) | none => false
/-- `a <= b` for a float that may be NaN and a number. -/
def ole (a : Option K) (b : K) : Bool := match a with | some x => decide (x ≤ b) | none => false

/-- First column of the slice `iloc[:, skip:]` (cross_section.py:285-288). -/
def sliceStart (nMaps : Nat) (skip : Int) : Nat :=
  if 0 ≤ skip then min skip.toNat nMaps else nMaps - (-skip).toNat

/-- `data[data == NODATA] = np.nan` (cross_section.py:292) with `NODATA = -999` (cross_section.py:29). -/
def clean : Option K → Option K
  | some x => if x = -999 then none else some x
  | none => none

/-- `get_timeseries` for all three series (cross_section.py:283-297). -/
def getTimeseries (skip : Int) (cv : ControlVolume K) : ControlVolume K :=
  { nMaps := cv.nMaps - sliceStart cv.nMaps skip
    cells := cv.cells.map fun c =>
      { c with
        depth := fun t => clean (c.depth (sliceStart cv.nMaps skip + t))
        level := fun t => clean (c.level (sliceStart cv.nMaps skip + t))
        velocity := fun t => clean (c.velocity (sliceStart cv.nMaps skip + t)) } }

/-- `np.nanmin` of a series, `none` when all values are NaN. -/
def nanmin (l : List (Option K)) : Option K :=
  (l.reduceOption).min?

/-- `bed_level` of `get_centre_values` (nearest_neighbour.py:96). -/
def centreBed (nMaps : Nat) (c : Cell K) : Option K :=
  nanmin ((List.range nMaps).map fun t => osub (c.level t) (c.depth t))

/-- The levels of `get_centre_values` (nearest_neighbour.py:91-99) for the nearest cell `c`: NaN levels are
replaced by the bed level. -/
def centreLevels (nMaps : Nat) (c : Cell K) : List (Option K) :=
  (List.range nMaps).map fun t => (c.level t).orElse fun _ => centreBed nMaps c

/-- `lake_mask` (cross_section.py:1083-1094) for one cell; `lakeMap` is the column selected by `LakeTimesteps`. -/
def isLake (lakeMap : Nat) (c : Cell K) : Bool :=
  ogt (c.depth lakeMap) 0 &&
    ole ((osub (c.depth lakeMap) (c.depth 0)).map fun d => |d|) (1 / 100)

/-- `plassen_mask_time` (cross_section.py:1099-1111) for one cell: whether it is a resting lake at map `t`. -/
def resting (lakeMap : Nat) (c : Cell K) : Nat → Bool
  | 0 => isLake lakeMap c
  | t + 1 => ole (osub (c.depth (t + 1)) (c.depth t)) (1 / 1000) && resting lakeMap c t

/-- `wet_not_plas_mask` (cross_section.py:1080 and 1120-1123). -/
def wetNotLake (lakeMap : Nat) (c : Cell K) (t : Nat) : Bool :=
  ogt (c.depth t) 0 && !resting lakeMap c t

/-- `plassen_depth_correction` (cross_section.py:1116-1117), the same at every map. -/
def lakeCorrection (lakeMap : Nat) (c : Cell K) : Option K :=
  if isLake lakeMap c then (c.depth 0).map fun d => -d else some 0

/-- pandas `mean` skipping NaN. -/
def nanmean (l : List (Option K)) : Option K :=
  match l.reduceOption with
  | [] => none
  | x :: xs => some ((x :: xs).sum / ((x :: xs).length : K))

/-- `velocity[i].sort_values()` (cross_section.py:1223): ascending with NaN last. -/
def sortValues (l : List (Option K)) : List (Option K) :=
  (l.reduceOption.insertionSort (· ≤ ·)).map some ++ List.replicate (l.length - l.reduceOption.length) none

/-- `velocity[i].sort_values().iloc[-3:].mean()` (cross_section.py:1223). -/
def top3 (l : List (Option K)) : Option K :=
  let s := sortValues l
  nanmean (s.drop (s.length - 3))

/-- `max_velocity_method` (cross_section.py:1207-1238) for one cell and map; `velocities` are those of all cells at
that map. -/
def maxVelocityMethod (absThr relThr : K) (velocities : List (Option K)) (depth velocity : Option K) : Bool :=
  ogt depth 0 &&
    ((match (top3 velocities).map (· * relThr) with
      | some m => ogt velocity m
      | none => false) || ogt velocity absThr)

/-- `velocity.rolling(window=10, min_periods=1, center=True).mean()` (cross_section.py:1252) on one column: row `i`
becomes the mean of the present values of rows `i-5` to `i+4`. -/
def rolling10 (col : List (Option K)) (i : Nat) : Option K :=
  nanmean ((col.take (i + 5)).drop (i - 5))

/-- The smoothed velocity matrix: columns of all maps, each smoothed over the cells. -/
def smoothed (cv : ControlVolume K) (i t : Nat) : Option K :=
  rolling10 (cv.cells.map fun c => c.velocity t) i

/-- `np.mean(velocity)` of the smoothed data frame (cross_section.py:1263). With the locked pandas 2.2.3 this is the
mean over all entries that are not NaN. -/
def smoothedMean (cv : ControlVolume K) : Option K :=
  nanmean ((List.range cv.nMaps).flatMap fun t => (List.range cv.cells.length).map fun i => smoothed cv i t)

/-- `mean_velocity_method` (cross_section.py:1241-1265) for one cell and map. -/
def meanVelocityMethod (absThr relThr : K) (mean : Option K) (depth velocity : Option K) : Bool :=
  ogt depth 0 && ogt velocity absThr &&
    (match mean.map (relThr * ·) with
      | some m => ogt velocity m
      | none => false)

/-- `_distinguish_conveyance_from_storage` (cross_section.py:1163-1279): the flow mask of cell number `i` at map
`t`. -/
def flowMask (cfg : BuildConfig K) (cv : ControlVolume K) (i : Nat) (c : Cell K) (t : Nat) : Bool :=
  if cfg.conveyanceDetectionMethod = 0 then
    meanVelocityMethod cfg.absoluteVelocityThreshold cfg.relativeVelocityThreshold (smoothedMean cv)
      (c.depth t) (smoothed cv i t)
  else
    maxVelocityMethod cfg.absoluteVelocityThreshold cfg.relativeVelocityThreshold
      (cv.cells.map fun c => c.velocity t) (c.depth t) (c.velocity t)

/-- Depth after the lake correction, negative values removed (cross_section.py:346-347). -/
def lakeDepth (lakeMap : Nat) (c : Cell K) (t : Nat) : Option K :=
  match oadd (c.depth t) (lakeCorrection lakeMap c) with
  | some d => if 0 ≤ d then some d else none
  | none => none

/-- Depth after the correction for pools deeper than the centre (cross_section.py:351-356). -/
def correctedDepth (lakeMap : Nat) (centreDepth : Option K) (c : Cell K) (t : Nat) : Option K :=
  match lakeDepth lakeMap c 0, centreDepth with
  | some d₀, some e => if e < d₀ then (lakeDepth lakeMap c t).map (· - (d₀ - e)) else lakeDepth lakeMap c t
  | _, _ => lakeDepth lakeMap c t

/-- `np.nansum(area_matrix[mask], axis=0)` at one map (cross_section.py:342-343); `mask` is given per row. -/
def maskedArea (cells : List (Cell K)) (mask : Nat → Cell K → Bool) : K :=
  (cells.zipIdx.map fun (c, i) => if mask i c then c.area else 0).sum

/-- `np.nansum(area_matrix[mask] * waterdepth[mask], axis=0)` at one map (cross_section.py:359-373). -/
def maskedVolume (cells : List (Cell K)) (mask : Nat → Cell K → Bool) (depth : Cell K → Option K) : K :=
  (cells.zipIdx.map fun (c, i) => if mask i c then ((depth c).map (c.area * ·)).getD 0 else 0).sum

/-- The list without NaN, or `none` when there is one. -/
def allSome {α : Type} : List (Option α) → Option (List α)
  | [] => some []
  | some x :: xs => (allSome xs).map (x :: ·)
  | none :: _ => none

/-- `np.linspace(0, h, 10)` (cross_section.py:1333). -/
def linspace10 (h : K) : List K := (List.range 10).map fun (i : Nat) => (i : K) * h / 9

/-- Wet area of the cells at `dz` below the first level (cross_section.py:1327-1337); NaN depths count as zero. -/
def areaBelow (lakeMap : Nat) (cells : List (Cell K)) (dz : K) : K :=
  maskedArea cells fun _ c =>
    decide (-(1 / 1000) < ((c.level 0).map (· - c.bed)).getD 0 - dz) && wetNotLake lakeMap c 0

/-- Flow area at `dz` below the first level (cross_section.py:1340-1343). -/
def flowAreaBelow (extrapolate : Bool) (flowArea0 total : K) : K :=
  if extrapolate then min total flowArea0 else total

/-- What `build_geometry` leaves in the cross-section (cross_section.py:268-278, 401-412). -/
structure Built (K : Type) where
  z : List K
  totalWidth : List K
  flowWidth : List K
  wetArea : List K
  flowArea : List K
  totalVolume2d : List (Option K)
  flowVolume2d : List (Option K)
  totalVolume1d : List K
  flowVolume1d : List K
  zRoughness : List (Option K)
  deriving DecidableEq

/-- Series of the 2D quantities per map, before the selection of rising maps. -/
structure Series2d (K : Type) where
  wetArea : List K
  flowArea : List K
  totalVolume : List K
  flowVolume : List K

/-- Areas and volumes at every map (cross_section.py:342-373). -/
def series2d (cfg : BuildConfig K) (cv : ControlVolume K) (lakeMap : Nat) (centreDepth : Option K) :
    Series2d K :=
  { wetArea := (List.range cv.nMaps).map fun t => maskedArea cv.cells fun _ c => wetNotLake lakeMap c t
    flowArea := (List.range cv.nMaps).map fun t => maskedArea cv.cells fun i c => flowMask cfg cv i c t
    totalVolume := (List.range cv.nMaps).map fun t =>
      maskedVolume cv.cells (fun _ c => wetNotLake lakeMap c t) fun c => correctedDepth lakeMap centreDepth c t
    flowVolume := (List.range cv.nMaps).map fun t =>
      maskedVolume cv.cells (fun i c => flowMask cfg cv i c t) fun c => correctedDepth lakeMap centreDepth c t }

/-- From the accepted levels and areas to the profile (cross_section.py:387-416): `_compute_css_above_z0`, then
`_extend_css_below_z0` prepends ten points, then the 1D volumes. -/
def assemble (extrapolate : Bool) (length : K) (cells : List (Cell K)) (lakeMap : Nat) (depth0 : K)
    (z wetArea flowArea totalVolume flowVolume : List K) (zRoughness : List (Option K)) : Built K :=
  let z0 := z.headD 0
  let flow0 := flowArea.headD 0
  let below := (linspace10 depth0).reverse
  let wetBelow := below.map (areaBelow lakeMap cells)
  let flowBelow := wetBelow.map (flowAreaBelow extrapolate flow0)
  let zAll := below.map (z0 - ·) ++ z
  let totalAll := wetBelow.map (· / length) ++ wetArea.map (· / length)
  let flowAll := flowBelow.map (· / length) ++ backMin (flowArea.map (· / length))
  { z := zAll
    totalWidth := totalAll
    flowWidth := flowAll
    wetArea := wetBelow ++ wetArea
    flowArea := flowBelow ++ flowArea
    totalVolume2d := below.map (fun _ => none) ++ totalVolume.map some
    flowVolume2d := below.map (fun _ => none) ++ flowVolume.map some
    totalVolume1d := volume1d totalAll zAll length
    flowVolume1d := volume1d flowAll zAll length
    zRoughness := zRoughness }

/-- `CrossSection.build_geometry` (cross_section.py:262-416). `centre` is the row of the face nearest to the location
(nearest_neighbour.py:84-92). Without maps `np.nanmin` raises `ValueError`; an empty control volume cannot be fitted.
When the level at the first map is missing although the centre is dry at every map, or the depth there is missing,
the code goes on with NaN; the model stops with `nanProfile`. -/
def buildGeometry (cfg : BuildConfig K) (length : K) (centre : Nat) (raw : ControlVolume K) :
    Except PyErr (Built K) :=
  let cv := getTimeseries cfg.skipMaps raw
  match cv.cells[centre]? with
  | none => .error .valueError
  | some c =>
    if cv.nMaps = 0 then .error .valueError
    else
      let levels := centreLevels cv.nMaps c
      match pyIndex cv.nMaps cfg.lakeTimesteps with
      | .error e => .error e
      | .ok lakeMap =>
        let s := series2d cfg cv lakeMap (c.depth 0)
        let mono := checkMonotonicity levels
        match allSome (maskSelect mono levels), c.depth 0 with
        | some z, some depth0 =>
          .ok (assemble cfg.extrapolateStorage length cv.cells lakeMap depth0 z (maskSelect mono s.wetArea)
            (maskSelect mono s.flowArea) (maskSelect mono s.totalVolume) (maskSelect mono s.flowVolume) levels)
        | _, _ => .error .nanProfile

end Fm2prof
