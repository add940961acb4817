import Verif.Model.Text
import Verif.Model.Sections
import Verif.Model.Roughness

/-!
# Writing the 1D model files

Models `Export1DModelData` (`export.py`): the text of each file. Numbers printed with `str` go through `FloatText.repr`;
`"{:.4}".format` (four significant digits) is a parameter.
-/

namespace Fm2prof

variable {K : Type} [Field K] [LinearOrder K] [IsStrictOrderedRing K] [FloorRing K]

/-- The columns of the volume table of a cross-section (export.py:122-137); `none` is NaN. -/
structure VolumeTable (K : Type) where
  z : List (Option K)
  tv2d : List (Option K)
  fv2d : List (Option K)
  wa2d : List (Option K)
  fa2d : List (Option K)
  tvsd1d : List (Option K)
  tv1d : List (Option K)
  fvsd1d : List (Option K)
  fv1d : List (Option K)
  tw1d : List (Option K)
  fw1d : List (Option K)
  deriving DecidableEq

/-- What the exporters use of a cross-section (cross_section.py:163-214). -/
structure ExportCss (K : Type) where
  name : Text
  branch : Text
  chainage : K
  z : List K
  flowWidth : List K
  totalWidth : List K
  crestLevel : K
  extraFlowArea : K
  extraTotalArea : K
  extraTotalVolume : K
  floodplainBase : Option K
  widths : SectionWidths K
  tables : List (Text × FrictionTable K)
  volumes : VolumeTable K

/-- Lines written one after the other, each ended by a line break. -/
def unlines (ls : List Text) : Text := (ls.map fun l => l ++ ['\n']).flatten

/-- `str` of a number that can be NaN. -/
def optText (ft : FloatText K) : Option K → Text
  | none => "nan".toList
  | some x => ft.repr x

/-! ## Volumes -/

/-- The header of the volume table (export.py:122-124). -/
def volumeHeader : Text :=
  ("id,z,2D_total_volume,2D_flow_volume,2D_wet_area,2D_flow_area,1D_total_volume_sd,1D_total_volume," ++
    "1D_flow_volume_sd,1D_flow_volume,1D_total_width,1D_flow_width").toList

/-- One row of the volume table (export.py:127-145): `IndexError` when a column is too short. -/
def volumeRow (ft : FloatText K) (name : Text) (t : VolumeTable K) (i : Nat) : Except PyErr Text :=
  match t.z[i]?, t.tv2d[i]?, t.fv2d[i]?, t.wa2d[i]?, t.fa2d[i]?, t.tvsd1d[i]?, t.tv1d[i]?, t.fvsd1d[i]?, t.fv1d[i]?,
    t.tw1d[i]?, t.fw1d[i]? with
  | some z, some tv2d, some fv2d, some wa2d, some fa2d, some tvsd1d, some tv1d, some fvsd1d, some fv1d, some tw1d,
    some fw1d =>
    .ok (joinWith [','] [name, optText ft z, optText ft tv2d, optText ft fv2d, optText ft wa2d, optText ft fa2d,
      optText ft tvsd1d, optText ft tv1d, optText ft fvsd1d, optText ft fv1d, optText ft tw1d, optText ft fw1d])
  | _, _, _, _, _, _, _, _, _, _, _ => .error .indexError

/-- A loop that collects lines and stops at the first exception. -/
def collect {α β : Type} (f : α → Except PyErr β) : List α → Except PyErr (List β)
  | [] => .ok []
  | a :: as =>
    match f a with
    | .error e => .error e
    | .ok b =>
      match collect f as with
      | .error e => .error e
      | .ok bs => .ok (b :: bs)

/-- The rows of a cross-section (export.py:126-145). -/
def volumeRows (ft : FloatText K) (c : ExportCss K) : Except PyErr (List Text) :=
  collect (volumeRow ft c.name c.volumes) (List.range c.volumes.z.length)

/-- `export_volumes` (export.py:106-146). -/
def exportVolumes (ft : FloatText K) (cs : List (ExportCss K)) : Except PyErr Text :=
  match collect (volumeRows ft) cs with
  | .error e => .error e
  | .ok rows => .ok (unlines (volumeHeader :: rows.flatten))

/-! ## Locations and definitions for D-Flow 1D -/

/-- The block of a cross-section in the location file (export.py:168-173). -/
def locationBlock (ft : FloatText K) (c : ExportCss K) : List Text :=
  ["[CrossSection]".toList, "\tid\t\t\t\t\t= ".toList ++ c.name, "\tbranchid\t\t\t= ".toList ++ c.branch,
    "\tchainage\t\t\t= ".toList ++ ft.repr c.chainage, "\tshift\t\t\t\t= 0.000".toList,
    "\tdefinition\t\t\t= ".toList ++ c.name, []]

/-- `export_cross_section_locations` (export.py:148-173). -/
def exportLocations (ft : FloatText K) (cs : List (ExportCss K)) : Text :=
  unlines (["[General]".toList, "majorVersion\t\t\t= 1".toList, "minorversion\t\t\t= 0".toList,
    "fileType\t\t\t\t= crossLoc".toList, []] ++ (cs.map (locationBlock ft)).flatten)

/-- Numbers with four decimals, between spaces. -/
def fixed4 (l : List K) : Text := joinWith [' '] (l.map (fmtFixed 4))

/-- The block of a cross-section in the definition file (export.py:231-258). -/
def definitionBlock (ft : FloatText K) (c : ExportCss K) : List Text :=
  ["[Definition]".toList, "\tid\t\t\t\t\t= ".toList ++ c.name, "\ttype\t\t\t\t= tabulated".toList,
    "\tthalweg\t\t\t\t= 0.000".toList, "\tnumLevels\t\t\t= ".toList ++ natText c.z.length,
    "\tlevels\t\t\t\t= ".toList ++ fixed4 c.z, "\tflowWidths\t\t\t= ".toList ++ fixed4 c.flowWidth,
    "\ttotalWidths\t\t\t= ".toList ++ fixed4 c.totalWidth, "\tsd_crest\t\t\t= ".toList ++ fmtFixed 4 c.crestLevel,
    "\tsd_flowArea\t\t\t= ".toList ++ ft.repr c.extraFlowArea,
    "\tsd_totalArea\t\t= ".toList ++ fmtFixed 4 c.extraTotalArea,
    "\tsd_baseLevel\t\t= ".toList ++ optText ft c.floodplainBase,
    "\tmain\t\t\t\t= ".toList ++ fmtFixed 4 c.widths.main,
    "\tfloodPlain1\t\t\t= ".toList ++ fmtFixed 4 c.widths.floodplain1,
    "\tfloodPlain2\t\t\t= ".toList ++ fmtFixed 4 c.widths.floodplain2, "\tgroundlayerUsed\t\t= 0".toList,
    "\tgroundLayer\t\t\t= 0.000".toList, []]

/-- `_write_geometry_fm1d` (export.py:220-258). -/
def exportDefinitions (ft : FloatText K) (cs : List (ExportCss K)) : Text :=
  unlines (["[General]".toList, "majorVersion\t\t\t= 1".toList, "minorversion\t\t\t= 0".toList,
    "fileType\t\t\t\t= crossDef".toList, []] ++ (cs.map (definitionBlock ft)).flatten)

/-! ## Roughness for D-Flow 1D -/

/-- `css.friction_tables[section]`. -/
def tableOf (c : ExportCss K) (section' : Text) : Option (FrictionTable K) :=
  (c.tables.find? fun p => p.1 = section').map (·.2)

/-- The general part of a roughness file (export.py:266-278). -/
def roughnessGeneral (section' : Text) : Text :=
  unlines ["[General]".toList, "        majorVersion          = 1".toList, "        minorVersion          = 0".toList,
    "        fileType              = roughness".toList, [], "    [Content]".toList,
    "        sectionId             = ".toList ++ section', "        flowDirection         = False".toList,
    "        interpolate           = 1".toList, "        globalType            = 1".toList,
    "        globalValue           = 45".toList, []] ++ "    ".toList

/-- The block of a branch (export.py:318-330). -/
def branchBlock (branch : Text) (t : FrictionTable K) : Text :=
  unlines ["[BranchProperties]".toList, "        branchId              = ".toList ++ branch,
    "        roughnessType         = 1".toList, "        functionType          = 2".toList,
    "        numLevels             = ".toList ++ natText t.level.length,
    "        levels                = ".toList ++ fixed4 t.level]

/-- `_get_fm1d_branch_sec` (export.py:308-332), with the branches written so far. -/
def branchSec (section' : Text) : List Text → List (ExportCss K) → Text
  | _, [] => []
  | done, c :: cs =>
    match tableOf c section' with
    | none => branchSec section' done cs
    | some t =>
      if c.branch ∈ done then branchSec section' done cs
      else branchBlock c.branch t ++ branchSec section' (done ++ [c.branch]) cs

/-- The block of a cross-section (export.py:297-305). -/
def frictionBlock (ft : FloatText K) (sig : K → Text) (c : ExportCss K) (t : FrictionTable K) : Text :=
  unlines ["[Definition]".toList, "        branchId              = ".toList ++ c.branch,
    "        chainage              = ".toList ++ ft.repr c.chainage,
    "        values                = ".toList ++ joinWith [' '] (t.friction.map sig), []] ++ "    ".toList

/-- `_get_fm1d_definition_sec` (export.py:286-306). -/
def definitionSec (ft : FloatText K) (sig : K → Text) (section' : Text) : List (ExportCss K) → Text
  | [] => []
  | c :: cs =>
    match tableOf c section' with
    | none => definitionSec ft sig section' cs
    | some t => frictionBlock ft sig c t ++ definitionSec ft sig section' cs

/-- `_write_roughness_fm1d` (export.py:260-284). -/
def exportRoughness (ft : FloatText K) (sig : K → Text) (cs : List (ExportCss K)) (section' : Text) : Text :=
  roughnessGeneral section' ++ branchSec (lower section') [] cs ++ definitionSec ft sig (lower section') cs

/-! ## SOBEK 3 -/

/-- The header of the SOBEK 3 geometry file (export.py:347-350). -/
def sobekHeader : Text :=
  ("id,Name,Data_type,level,Total width,Flow width,Profile_type,branch,chainage,width main channel,width" ++
    "floodplain 1,width floodplain 2,width sediment transport,Use Summerdike,Crest level summerdike,Floodplain" ++
    "baselevel behind summerdike,Flow area behind summerdike,Total area behind summerdike,Use groundlayer," ++
    "Ground layer depth").toList

/-- The meta row of a cross-section (export.py:355-401). -/
def sobekMeta (ft : FloatText K) (c : ExportCss K) : Text :=
  let dike : Bool := 0 < c.extraTotalVolume
  let crest := if dike then ft.repr c.crestLevel else []
  let area := if dike then ft.repr c.extraTotalArea else []
  let base := if dike then
    (match c.floodplainBase with
      | some b => ft.repr b
      | none => ft.repr c.crestLevel) else []
  c.name ++ ",,".toList ++ "meta".toList ++ ",,,,".toList ++ "ZW".toList ++ ",".toList ++ c.branch ++ ",".toList ++
    ft.repr c.chainage ++ ",".toList ++ ft.repr c.widths.main ++ ",".toList ++ ft.repr c.widths.floodplain1 ++
    ",".toList ++ ft.repr c.widths.floodplain2 ++ ",,".toList ++ (if dike then "1".toList else "0".toList) ++
    ",".toList ++ crest ++ ",".toList ++ base ++ ",".toList ++ area ++ ",".toList ++ area ++ ",,,,,,".toList

/-- One geometry row (export.py:410-424). -/
def sobekGeom (ft : FloatText K) (name : Text) (i : Nat) (z width flow : K) : Text :=
  name ++ ",,".toList ++ "geom".toList ++ ",".toList ++ fmtFixed 8 (z + ((i : K) + 1) * (1 / 100000)) ++ ",".toList ++
    ft.repr width ++ ",".toList ++ ft.repr flow ++ ",,,,,,,,,,,,,,".toList

/-- The geometry rows of a cross-section, one per total width (export.py:403-424). When levels or flow widths run out
the exception is caught and only logged. -/
def sobekRows (ft : FloatText K) (c : ExportCss K) : Nat → List K → List Text
  | _, [] => []
  | i, w :: ws =>
    match c.flowWidth[i]?, c.z[i]? with
    | some f, some z => sobekGeom ft c.name i z w f :: sobekRows ft c (i + 1) ws
    | _, _ => []

/-- The rows of a cross-section in the SOBEK 3 geometry file. -/
def sobekBlock (ft : FloatText K) (c : ExportCss K) : List Text :=
  sobekMeta ft c :: sobekRows ft c 0 c.totalWidth

/-- `_write_geometry_sobek3` (export.py:336-430). -/
def exportSobekGeometry (ft : FloatText K) (cs : List (ExportCss K)) : Text :=
  unlines (sobekHeader :: (cs.map (sobekBlock ft)).flatten)

/-- The name of a section in the SOBEK 3 roughness file (export.py:453-463). -/
def sobekSection (s : Text) : Option Text :=
  if s = "main".toList then some "Main".toList
  else if s = "floodplain1".toList then some "FloodPlain1".toList
  else if s = "floodplain2".toList then some "FloodPlain2".toList
  else none

/-- One row of the SOBEK 3 roughness file (export.py:465-486). -/
def sobekRoughnessRow (ft : FloatText K) (c : ExportCss K) (plain : Text) (level friction : K) : Text :=
  c.branch ++ ",".toList ++ ft.repr c.chainage ++ ",".toList ++ "Chezy".toList ++ ",".toList ++ plain ++ ",".toList ++
    "Waterlevel".toList ++ ",".toList ++ "Linear".toList ++ ",".toList ++ "Same".toList ++ ",,,,".toList ++
    ft.repr level ++ ",".toList ++ ft.repr friction ++ ",,,,,".toList

/-- The header of the SOBEK 3 roughness file (export.py:440-442). -/
def sobekRoughnessHeader : Text :=
  ("Name,Chainage,RoughnessType,SectionType,Dependance,Interpolation,Pos/neg,R_pos_constant,Q_pos,R_pos_f(Q),H_pos," ++
    "R_pos__f(h),R_neg_constant,Q_neg,R_neg_f(Q),H_neg,R_neg_f(h)").toList

/-- The rows of one section (export.py:448-486). -/
def sobekRoughnessRows (ft : FloatText K) (cs : List (ExportCss K)) (section' : Text) : List Text :=
  (cs.map fun c =>
    match tableOf c section', sobekSection section' with
    | some t, some plain => (t.level.zip t.friction).map fun q => sobekRoughnessRow ft c plain q.1 q.2
    | _, _ => []).flatten

/-- `_write_roughness_sobek3` (export.py:432-486). `np.unique` sorts the section names; an unknown one raises
`ValueError`. What was written before the exception is not modelled. -/
def exportSobekRoughness (ft : FloatText K) (cs : List (ExportCss K)) : Except PyErr Text :=
  if cs.any fun c => c.tables.any fun p => sobekSection p.1 = none then .error .valueError
  else
    .ok (unlines (sobekRoughnessHeader :: (["floodplain1".toList, "floodplain2".toList, "main".toList].map
      (sobekRoughnessRows ft cs)).flatten))

/-! ## Test format -/

/-- The rows of one cross-section in the test format (export.py:184-190). -/
def testRows (ft : FloatText K) (c : ExportCss K) : Except PyErr (List Text) :=
  collect (fun (i : Nat) =>
    match c.z[i]?, c.totalWidth[i]?, c.flowWidth[i]? with
    | some z, some t, some f =>
      .ok (ft.repr c.chainage ++ ", ".toList ++ ft.repr z ++ ", ".toList ++ ft.repr t ++ ",".toList ++ ft.repr f)
    | _, _, _ => .error .indexError) (List.range c.z.length)

/-- `_write_geometry_testformat` (export.py:177-190). -/
def exportTestGeometry (ft : FloatText K) (cs : List (ExportCss K)) : Except PyErr Text :=
  match collect (testRows ft) cs with
  | .error e => .error e
  | .ok rows => .ok (unlines ("chainage,z,total width,flow width".toList :: rows.flatten))

end Fm2prof
