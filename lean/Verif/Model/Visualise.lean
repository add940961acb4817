import Verif.Model.Export

/-!
# Reading the exported files

Models the readers of `VisualiseOutput` (`utils.py`). A file is the list of its lines; reading past the end gives empty
lines, as `readline` does.
-/

namespace Fm2prof

variable {K : Type} [Field K] [LinearOrder K] [IsStrictOrderedRing K] [FloorRing K]

/-- `float(text)` with the literal for NaN (its signed forms and infinity are not modelled). -/
def parseNan (ft : FloatText K) (t : Text) : Except PyErr (Option K) :=
  if lower (strip t) = "nan".toList then .ok none
  else
    match ft.parse t with
    | some x => .ok (some x)
    | none => .error .valueError

/-- `_get_value_from_line` (utils.py:702-704). -/
def valueFromLine (line : Text) : Except PyErr Text :=
  match (splitSep '=' (strip line))[1]? with
  | none => .error .indexError
  | some t => .ok (strip t)

/-- The line read by the `i`-th `readline` from here. -/
def lineAt (lines : List Text) (i : Nat) : Text := (lines[i]?).getD []

/-- `list(map(float, text.split()))`. -/
def numbersFromLine (ft : FloatText K) (line : Text) : Except PyErr (List (Option K)) :=
  match valueFromLine line with
  | .error e => .error e
  | .ok t => collect (parseNan ft) (splitWs t)

/-- `float(value)`. -/
def numberFromLine (ft : FloatText K) (line : Text) : Except PyErr (Option K) :=
  match valueFromLine line with
  | .error e => .error e
  | .ok t => parseNan ft t

/-- `CrossSectionDefinition` as read (utils.py:735-746). -/
structure CssDef (K : Type) where
  id : Text
  levels : List (Option K)
  flowWidth : List (Option K)
  totalWidth : List (Option K)
  sdCrest : Option K
  sdFlowArea : Option K
  sdTotalArea : Option K
  sdBaseLevel : Option K
  mainSectionWidth : Option K
  fp1SectionWidth : Option K
  deriving DecidableEq

/-- The thirteen lines read after `[definition]` (utils.py:722-746). -/
def readDefinition (ft : FloatText K) (lines : List Text) : Except PyErr (CssDef K) :=
  match valueFromLine (lineAt lines 0) with
  | .error e => .error e
  | .ok id =>
    match numbersFromLine ft (lineAt lines 4), numbersFromLine ft (lineAt lines 5), numbersFromLine ft (lineAt lines 6) with
    | .ok levels, .ok fw, .ok tw =>
      match numberFromLine ft (lineAt lines 7), numberFromLine ft (lineAt lines 8), numberFromLine ft (lineAt lines 9),
        numberFromLine ft (lineAt lines 10), numberFromLine ft (lineAt lines 11), numberFromLine ft (lineAt lines 12) with
      | .ok crest, .ok flow, .ok total, .ok base, .ok main, .ok fp1 =>
        .ok ⟨id, levels, fw, tw, crest, flow, total, base, main, fp1⟩
      | .error e, _, _, _, _, _ => .error e
      | _, .error e, _, _, _, _ => .error e
      | _, _, .error e, _, _, _ => .error e
      | _, _, _, .error e, _, _ => .error e
      | _, _, _, _, .error e, _ => .error e
      | _, _, _, _, _, .error e => .error e
    | .error e, _, _ => .error e
    | _, .error e, _ => .error e
    | _, _, .error e => .error e

/-- The loop over the lines (utils.py:719-748); the first argument counts lines already read by `readline`. -/
def readDefinitionLines (ft : FloatText K) : Nat → List Text → Except PyErr (List (CssDef K))
  | _, [] => .ok []
  | k + 1, _ :: rest => readDefinitionLines ft k rest
  | 0, line :: rest =>
    if strip (lower line) = "[definition]".toList then
      match readDefinition ft rest with
      | .error e => .error e
      | .ok d =>
        match readDefinitionLines ft 13 rest with
        | .error e => .error e
        | .ok ds => .ok (d :: ds)
    else readDefinitionLines ft 0 rest

/-- `parse_cross_section_definition_file` (utils.py:709-750). -/
def readDefinitions (ft : FloatText K) (text : Text) : Except PyErr (List (CssDef K)) :=
  readDefinitionLines ft 0 (fileLines text)

/-- `get_cross_section_by_id` (utils.py:593-604). -/
def definitionById (ft : FloatText K) (text : Text) (id : Text) : Except PyErr (Option (CssDef K)) :=
  match readDefinitions ft text with
  | .error e => .error e
  | .ok ds => .ok (ds.find? fun d => d.id = id)

/-! ## Volumes -/

/-- The empty table. -/
def VolumeTable.empty : VolumeTable K := ⟨[], [], [], [], [], [], [], [], [], [], []⟩

/-- Appending one row of eleven numbers. -/
def VolumeTable.push (t : VolumeTable K) (r : List (Option K)) : VolumeTable K :=
  match r with
  | [z, tv2d, fv2d, wa2d, fa2d, tvsd1d, tv1d, fvsd1d, fv1d, tw1d, fw1d] =>
    { z := t.z ++ [z], tv2d := t.tv2d ++ [tv2d], fv2d := t.fv2d ++ [fv2d], wa2d := t.wa2d ++ [wa2d]
      fa2d := t.fa2d ++ [fa2d], tvsd1d := t.tvsd1d ++ [tvsd1d], tv1d := t.tv1d ++ [tv1d], fvsd1d := t.fvsd1d ++ [fvsd1d]
      fv1d := t.fv1d ++ [fv1d], tw1d := t.tw1d ++ [tw1d], fw1d := t.fw1d ++ [fw1d] }
  | _ => t

/-- `float(values[i + 1])` for one of the eleven columns (utils.py:587-588). -/
def volumeField (ft : FloatText K) (values : List Text) (i : Nat) : Except PyErr (Option K) :=
  match values[i + 1]? with
  | none => .error .indexError
  | some t => parseNan ft t

/-- One line of the volume table (utils.py:584-588). -/
def volumeLine (ft : FloatText K) (name : Text) (t : VolumeTable K) (line : Text) : Except PyErr (VolumeTable K) :=
  if (splitSep ',' (strip line)).head? = some name then
    match collect (volumeField ft (splitSep ',' (strip line))) (List.range 11) with
    | .error e => .error e
    | .ok r => .ok (t.push r)
  else .ok t

/-- The loop over the lines (utils.py:583-588). -/
def volumeLines (ft : FloatText K) (name : Text) : List Text → VolumeTable K → Except PyErr (VolumeTable K)
  | [], t => .ok t
  | l :: ls, t =>
    match volumeLine ft name t l with
    | .error e => .error e
    | .ok t' => volumeLines ft name ls t'

/-- `get_volume_info_for_css` (utils.py:565-591). -/
def readVolumes (ft : FloatText K) (text name : Text) : Except PyErr (VolumeTable K) :=
  volumeLines ft name (fileLines text) .empty

/-- `np.argmax(~np.isnan(column))`: the first entry that is not NaN, or the first entry if there is none. -/
def firstKnown : List (Option K) → Nat
  | [] => 0
  | l => (l.findIdx? (·.isSome)).getD 0

/-- `_get_lowest_water_level_in_2d` (utils.py:944-947): `np.argmax` of an empty column raises `ValueError`. -/
def lowestWaterLevel (ft : FloatText K) (text name : Text) : Except PyErr (Option K) :=
  match readVolumes ft text name with
  | .error e => .error e
  | .ok t =>
    if t.tv2d = [] then .error .valueError
    else
      match t.z[firstKnown t.tv2d]? with
      | some z => .ok z
      | none => .error .indexError

/-! ## Names and roughness -/

/-- `name.rsplit("_", 1)`: the parts before and after the last underscore. -/
def rsplitUnderscore (t : Text) : Option (Text × Text) :=
  (partition '_' t.reverse).map fun p => (p.2.reverse, p.1.reverse)

/-- `_parse_cssname` (utils.py:949-954): without an underscore unpacking raises `ValueError`. -/
def parseCssName (ft : FloatText K) (name : Text) : Except PyErr (Text × K) :=
  match rsplitUnderscore name with
  | none => .error .valueError
  | some (branch, chainage) =>
    match ft.parse chainage with
    | none => .error .valueError
    | some c => .ok (branch, ft.near (roundTo 2 c))

/-- `split_css` (utils.py:535-540). -/
def splitCss (ft : FloatText K) (name : Text) : Except PyErr (Text × K × Text) :=
  match ft.parse ((splitSep '_' name).getLast?.getD []) with
  | none => .error .valueError
  | some c => .ok (name, c, joinWith ['_'] (splitSep '_' name).dropLast)

/-- What has been read so far of the roughness of a cross-section. -/
structure RoughnessInfo (K : Type) where
  levels : Option (List (Option K))
  values : Option (List (Option K))
  deriving DecidableEq

/-- The lines after `[branchproperties]` (utils.py:554-556): how many are read, and the levels if the branch matches. -/
def readBranchLevels (ft : FloatText K) (branch : Text) (rest : List Text) (r : RoughnessInfo K) :
    Except PyErr (Nat × RoughnessInfo K) :=
  match valueFromLine (lineAt rest 0) with
  | .error e => .error e
  | .ok b =>
    if lower b = branch then
      match numbersFromLine ft (lineAt rest 4) with
      | .error e => .error e
      | .ok l => .ok (5, { r with levels := some l })
    else .ok (1, r)

/-- The lines after `[definition]` (utils.py:557-562). -/
def readValues (ft : FloatText K) (branch : Text) (chainage : K) (rest : List Text) (r : RoughnessInfo K) :
    Except PyErr (Nat × RoughnessInfo K) :=
  match valueFromLine (lineAt rest 0) with
  | .error e => .error e
  | .ok b =>
    if lower b = branch then
      match valueFromLine (lineAt rest 1) with
      | .error e => .error e
      | .ok c =>
        match ft.parse (lower c) with
        | none => .error .valueError
        | some cv =>
          if cv = chainage then
            match numbersFromLine ft (lineAt rest 2) with
            | .error e => .error e
            | .ok v => .ok (3, { r with values := some v })
          else .ok (2, r)
    else .ok (1, r)

/-- The loop over the lines (utils.py:553-562); the first argument counts lines already read. -/
def roughnessLines (ft : FloatText K) (branch : Text) (chainage : K) :
    Nat → List Text → RoughnessInfo K → Except PyErr (RoughnessInfo K)
  | _, [], r => .ok r
  | k + 1, _ :: rest, r => roughnessLines ft branch chainage k rest r
  | 0, line :: rest, r =>
    if lower (strip line) = "[branchproperties]".toList then
      match readBranchLevels ft branch rest r with
      | .error e => .error e
      | .ok (k, r') => roughnessLines ft branch chainage k rest r'
    else if lower (strip line) = "[definition]".toList then
      match readValues ft branch chainage rest r with
      | .error e => .error e
      | .ok (k, r') => roughnessLines ft branch chainage k rest r'
    else roughnessLines ft branch chainage 0 rest r

/-- `get_roughness_info_for_css` (utils.py:547-563). -/
def readRoughness (ft : FloatText K) (text name : Text) : Except PyErr (RoughnessInfo K) :=
  match parseCssName ft name with
  | .error e => .error e
  | .ok (branch, chainage) => roughnessLines ft branch chainage 0 (fileLines text) ⟨none, none⟩

/-! ## Summer dike -/

/-- The line style of the crest in the figure. -/
inductive CrestStyle where
  | inside
  | cropped
  deriving DecidableEq, Repr

/-- `max` of a list. -/
def listMax : List K → Option K
  | [] => none
  | a :: l => some (l.foldl max a)

/-- `min` of a list. -/
def listMin : List K → Option K
  | [] => none
  | a :: l => some (l.foldl min a)

/-- `_get_sd_plot_info` (utils.py:926-942): the crest level drawn. An empty list of levels raises `IndexError`. -/
def sdPlotInfo (levels : List K) (crest : K) : Except PyErr (CrestStyle × K) :=
  match listMin levels, listMax levels with
  | some lo, some hi =>
    if crest ≤ hi then
      if lo ≤ crest then .ok (.inside, crest) else .ok (.cropped, lo)
    else .ok (.cropped, hi)
  | _, _ => .error .indexError

end Fm2prof
