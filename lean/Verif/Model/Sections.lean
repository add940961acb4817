import Mathlib.Algebra.Order.Floor.Ring
import Verif.Model.Build

/-!
# Sections of a cross-section

Models `_compute_section_widths`, `_check_section_widths_greater_than_flow_width`,
`_check_section_widths_greater_than_minimum_width` and `_compute_floodplain_base` (`cross_section.py`).
-/

namespace Fm2prof

variable {K : Type} [Field K] [LinearOrder K] [IsStrictOrderedRing K]

/-- Section label of a face. Faces carry numbers when sections are derived from roughness variance
(fm2prof_runner.py:499-532) and names when section polygons are used (fm2prof_runner.py:468-472). -/
inductive SectionLabel where
  | num (n : Int)
  | name (s : String)
  deriving DecidableEq

/-- `self._fm_data["section"] == n`: an array of strings equals a number nowhere. -/
def SectionLabel.is (n : Int) : SectionLabel → Bool
  | .num m => m = n
  | .name _ => false

/-- The columns `area`, `bedlevel` and `section` of one face of the control volume. -/
structure SectionFace (K : Type) where
  area : K
  bed : Option K
  label : SectionLabel

/-- `section_widths` (cross_section.py:178). -/
structure SectionWidths (K : Type) where
  main : K
  floodplain1 : K
  floodplain2 : K
  deriving DecidableEq

/-- `np.sum(area[section == n])` (cross_section.py:982, 992-1000). -/
def sectionArea (faces : List (SectionFace K)) (n : Int) : K :=
  ((faces.filter fun f => f.label.is n).map (·.area)).sum

/-- The widths before the checks (cross_section.py:982-1001) with `NODATA = -999` and `_section_map`
(cross_section.py:219-224). -/
def initialSectionWidths (length : K) (faces : List (SectionFace K)) : SectionWidths K :=
  { main := (sectionArea faces 1 + sectionArea faces (-999)) / length
    floodplain1 := sectionArea faces 2 / length
    floodplain2 := sectionArea faces 3 / length }

/-- `_check_section_widths_greater_than_flow_width` (cross_section.py:1446-1457); `flowWidth` is the published one. -/
def coverFlowWidth (flowWidth : List K) (w : SectionWidths K) : Except PyErr (SectionWidths K) :=
  match flowWidth.getLast? with
  | none => .error .indexError
  | some f =>
    if 0 < f - (w.main + w.floodplain1 + w.floodplain2) then
      .ok { w with main := w.main + (f - (w.main + w.floodplain1 + w.floodplain2)) }
    else .ok w

/-- `math.floor(dif * 100) / 100` (cross_section.py:1471). -/
def floorCm [FloorRing K] (x : K) : K := (⌊x * 100⌋ : K) / 100

/-- `_check_section_widths_greater_than_minimum_width` (cross_section.py:1459-1481); `rawFlowWidth` is the flow width
before reduction. -/
def coverBottom [FloorRing K] (rawFlowWidth : List K) (w : SectionWidths K) : Except PyErr (SectionWidths K) :=
  match rawFlowWidth.head? with
  | none => .error .indexError
  | some f =>
    if floorCm (w.main - f) - 1 / 10 < 0 then
      .ok { w with
        main := w.main - (floorCm (w.main - f) - 1 / 10)
        floodplain1 := w.floodplain1 + (floorCm (w.main - f) - 1 / 10) }
    else .ok w

/-- `_compute_section_widths` (cross_section.py:976-1005). -/
def computeSectionWidths [FloorRing K] (length : K) (faces : List (SectionFace K)) (flowWidth rawFlowWidth : List K) :
    Except PyErr (SectionWidths K) :=
  match coverFlowWidth flowWidth (initialSectionWidths length faces) with
  | .error e => .error e
  | .ok w => coverBottom rawFlowWidth w

/-- `_compute_floodplain_base` (cross_section.py:1007-1042): crest level and mean bed level may be NaN, and comparing
with NaN is false. -/
def floodplainBase (crest : Option K) (tolerance : K) (faces : List (SectionFace K)) : Option K :=
  match faces.filter fun f => f.label.is 2 with
  | [] => crest.map (· - tolerance)
  | f :: fs =>
    match crest.map (· - tolerance), nanmean ((f :: fs).map (·.bed)) with
    | some c, some m => if c < m then some c else some m
    | _, m => m

/-- `key in section_widths` and `section_widths[key]` (cross_section.py:178). -/
def SectionWidths.get (w : SectionWidths K) (key : String) : Option K :=
  if key = "main" then some w.main else if key = "floodplain1" then some w.floodplain1
  else if key = "floodplain2" then some w.floodplain2 else none

/-- `CrossSection.alluvial_width` (cross_section.py:227-232). -/
def alluvialWidth (w : SectionWidths K) : K := ((["1", "main", "Main"].findSome? w.get)).getD 0

/-- `CrossSection.nonalluvial_width` (cross_section.py:235-240). -/
def nonalluvialWidth (w : SectionWidths K) : K := ((["2", "floodplain", "FloodPlain1"].findSome? w.get)).getD 0

end Fm2prof
