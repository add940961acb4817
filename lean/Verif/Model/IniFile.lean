import Verif.Model.Text

/-!
# Configuration

Models `IniFile` (`ini_file.py`) with the template it reads (`configurationfile_template.json`), and the part of
Python's `configparser` that it uses. POSIX paths. Log messages are not modelled.
-/

namespace Fm2prof

/-! ## `configparser` -/

/-- `dict[key]` of a dictionary kept as a list of pairs. -/
def dictGet {α : Type} (d : List (Text × α)) (k : Text) : Option α := (d.find? fun p => p.1 = k).map (·.2)

/-- `dict[key] = value`: in place if the key is there, else at the end. -/
def dictSet {α : Type} (k : Text) (v : α) : List (Text × α) → List (Text × α)
  | [] => [(k, v)]
  | p :: d => if p.1 = k then (k, v) :: d else p :: dictSet k v d

/-- The state of `ConfigParser._read` (CPython `configparser.py`): sections with the lines of each option, the section
`DEFAULT`, the section and option being read, and the indentation of the last header. -/
structure IniParse where
  sections : List (Text × List (Text × List Text))
  defaults : List (Text × List Text)
  cur : Option (Option Text)
  opt : Option Text
  indent : Nat
  deriving DecidableEq

/-- The options of the section being read. -/
def IniParse.options (p : IniParse) : List (Text × List Text) :=
  match p.cur with
  | none => []
  | some none => p.defaults
  | some (some s) => (dictGet p.sections s).getD []

/-- Replacing them. -/
def IniParse.setOptions (p : IniParse) (o : List (Text × List Text)) : IniParse :=
  match p.cur with
  | none => p
  | some none => { p with defaults := o }
  | some (some s) => { p with sections := dictSet s o p.sections }

/-- A further line of the option being read. -/
def IniParse.append (p : IniParse) (k line : Text) : IniParse :=
  p.setOptions (dictSet k (((dictGet p.options k).getD []) ++ [line]) p.options)

/-- The regular expression of section headers: `[`, one or more characters, `]`; the last `]` of the line counts. -/
def sectionHeader : Text → Option Text
  | '[' :: rest =>
    match partition ']' rest.reverse with
    | none => none
    | some (_, b) => if b = [] then none else some b.reverse
  | _ => none

/-- The regular expression of options: key, `=` or `:`, value. -/
def optionLine (value : Text) : Option (Text × Text) :=
  match value.dropWhile fun c => c ≠ '=' && c ≠ ':' with
  | [] => none
  | _ :: v => some (rstrip (value.takeWhile fun c => c ≠ '=' && c ≠ ':'), strip v)

/-- A section header: repeated sections are an error, except `DEFAULT`. -/
def IniParse.header (p : IniParse) (name : Text) : Except PyErr IniParse :=
  if (dictGet p.sections name).isSome then .error .configError
  else if name = "DEFAULT".toList then .ok { p with cur := some none, opt := none }
  else .ok { p with sections := p.sections ++ [(name, [])], cur := some (some name), opt := none }

/-- An option: keys are in lower case; repeated, empty or missing keys are errors. In `configparser` the last two are
reported at the end of the file; here they end the reading. -/
def IniParse.option (p : IniParse) (value : Text) : Except PyErr IniParse :=
  match p.cur, optionLine value with
  | none, _ => .error .configError
  | _, none => .error .configError
  | some _, some (k, v) =>
    if k = [] then .error .configError
    else if (dictGet p.options (lower k)).isSome then .error .configError
    else .ok { p.setOptions (p.options ++ [(lower k, [v])]) with opt := some (lower k) }

/-- One line of the file. Lines that begin with `#` or `;` are comments; an indented line continues an option. -/
def iniLine (p : IniParse) (line : Text) : Except PyErr IniParse :=
  if (strip line).head? = some '#' ∨ (strip line).head? = some ';' then .ok p
  else if strip line = [] then
    match p.opt with
    | none => .ok p
    | some k => .ok (p.append k [])
  else if p.opt.isSome ∧ p.indent < (line.takeWhile isSpace).length then
    match p.opt with
    | none => .ok p
    | some k => .ok (p.append k (strip line))
  else
    match sectionHeader (strip line) with
    | some name => ({ p with indent := (line.takeWhile isSpace).length } : IniParse).header name
    | none => ({ p with indent := (line.takeWhile isSpace).length } : IniParse).option (strip line)

/-- All lines. -/
def iniLines : IniParse → List Text → Except PyErr IniParse
  | p, [] => .ok p
  | p, l :: ls =>
    match iniLine p l with
    | .error e => .error e
    | .ok p' => iniLines p' ls

/-- `BasicInterpolation`: `%%` is a percent sign. References `%(name)s` are not modelled: they are treated like any
other `%`, as an error. -/
def interpolate : Text → Option Text
  | [] => some []
  | '%' :: '%' :: r => (interpolate r).map ('%' :: ·)
  | '%' :: _ => none
  | c :: r => (interpolate r).map (c :: ·)

/-- `config.get(section, option).split("#")[0].strip()` (ini_file.py:491-493) of the lines of an option. -/
def optionText (lines : List Text) : Except PyErr Text :=
  match interpolate (rstrip (joinWith ['\n'] lines)) with
  | none => .error .configError
  | some t => .ok (strip ((splitSep '#' t).headD []))

/-- The options of a section: its own, then those of `DEFAULT` it does not have. -/
def sectionOptions (defaults own : List (Text × List Text)) : List (Text × List Text) :=
  own ++ defaults.filter fun p => (dictGet own p.1).isNone

/-- The texts of the options of a section (ini_file.py:489-494). -/
def optionTexts : List (Text × List Text) → Except PyErr (List (Text × Text))
  | [] => .ok []
  | p :: ps =>
    match optionText p.2 with
    | .error e => .error e
    | .ok t =>
      match optionTexts ps with
      | .error e => .error e
      | .ok ts => .ok ((p.1, t) :: ts)

/-- The loop over the sections (ini_file.py:488-494): names in lower case, a later section replaces an earlier one. -/
def sectionTexts (defaults : List (Text × List Text)) : List (Text × List (Text × List Text)) →
    List (Text × List (Text × Text)) → Except PyErr (List (Text × List (Text × Text)))
  | [], acc => .ok acc
  | s :: ss, acc =>
    match optionTexts (sectionOptions defaults s.2) with
    | .error e => .error e
    | .ok ts => sectionTexts defaults ss (dictSet (lower s.1) ts acc)

/-- `_get_inifile_params` (ini_file.py:467-496) of the text of the file. -/
def iniParams (text : Text) : Except PyErr (List (Text × List (Text × Text))) :=
  match iniLines ⟨[], [], none, none, 0⟩ (fileLines text) with
  | .error e => .error e
  | .ok p => sectionTexts p.defaults p.sections []

/-! ## Values -/

variable {K : Type} [Field K] [LinearOrder K] [IsStrictOrderedRing K] [FloorRing K]

/-- A configured value. Booleans, lists and paths are those that the code creates; a user can set any of them. -/
inductive ConfigValue (K : Type) where
  | str (t : Text)
  | int (n : Int)
  | float (x : K)
  | bool (b : Bool)
  | list (l : List Int)
  | path (t : Text)
  deriving DecidableEq

/-- The types of the template. -/
inductive ConfigType where
  | str
  | int
  | float
  | bool
  | list
  deriving DecidableEq, Repr

/-- The digits of `int(text)`, with single underscores between digits; the flag tells that a digit came last. -/
def intDigits : Nat → Bool → Text → Option Nat
  | acc, last, [] => if last then some acc else none
  | acc, last, c :: cs =>
    if c = '_' then
      if last then intDigits acc false cs else none
    else if 48 ≤ c.toNat ∧ c.toNat ≤ 57 then intDigits (10 * acc + (c.toNat - 48)) true cs
    else none

/-- `int(text)` for ASCII digits. -/
def parseInt (t : Text) : Option Int :=
  match strip t with
  | '-' :: r => (intDigits 0 false r).map fun (n : Nat) => -(n : Int)
  | '+' :: r => (intDigits 0 false r).map fun (n : Nat) => (n : Int)
  | r => (intDigits 0 false r).map fun (n : Nat) => (n : Int)

/-- `list(map(int, words))`. -/
def parseInts : List Text → Option (List Int)
  | [] => some []
  | w :: ws =>
    match parseInt w, parseInts ws with
    | some n, some ns => some (n :: ns)
    | _, _ => none

/-- `text.strip("[]")`. -/
def stripBrackets (t : Text) : Text :=
  ((t.dropWhile fun c => c = '[' || c = ']').reverse.dropWhile fun c => c = '[' || c = ']').reverse

/-- `key_type(value)` (ini_file.py:24-35, 371); `none` is `ValueError`. The literals of `float` for NaN and infinity are
not modelled. -/
def castValue (ft : FloatText K) : ConfigType → Text → Option (ConfigValue K)
  | .str, t => some (.str t)
  | .int, t => (parseInt t).map .int
  | .float, t => (ft.parse t).map .float
  | .bool, t => some (.bool (strip (lower t) = "true".toList))
  | .list, t => (parseInts (splitSep ',' (stripBrackets t))).map .list

/-- `str(value)`. -/
def valueText (ft : FloatText K) : ConfigValue K → Text
  | .str t => t
  | .int n => intText n
  | .float x => ft.repr x
  | .bool b => if b then "True".toList else "False".toList
  | .list l => '[' :: joinWith ", ".toList (l.map intText) ++ [']']
  | .path t => t

/-- An entry of the configuration. -/
structure Entry (K : Type) where
  key : Text
  type : ConfigType
  hint : Text
  value : ConfigValue K
  deriving DecidableEq

/-- The configuration: sections with their entries. -/
abbrev Config (K : Type) := List (Text × List (Entry K))

/-! ## The template -/

/-- Section `input` of the template (configurationfile_template.json, from line 4). -/
def inputTemplate : List (Entry K) :=
  [
    ⟨"2DMapOutput".toList, .str,
      "Output file from FM2D model (.net file)".toList, .str []⟩,
    ⟨"CrossSectionLocationFile".toList, .str,
      ".csv or .txt file (, as delimiter) that contains four columns: X_coordinate,Y_coordinate,BranchName,Length,Chainage.".toList, .str []⟩,
    ⟨"RegionPolygonFile".toList, .str,
      "User defined polygons in json format".toList, .str []⟩,
    ⟨"SectionPolygonFile".toList, .str,
      "User defined polygons in json format".toList, .str []⟩]

/-- Section `parameters` of the template (configurationfile_template.json, from line 27). -/
def parameterTemplate : List (Entry K) :=
  [
    ⟨"CaseName".toList, .str,
      "Subdirectory name under OutputDir (no space); if not specified, 'CaseXX' (01, 02..) are used".toList, .str []⟩,
    ⟨"MaximumPointsInProfile".toList, .int,
      "Number of points which are used to generate cross-sections".toList, .int 20⟩,
    ⟨"ConveyanceDetectionMethod".toList, .int,
      "[0] method based on mean flow velocity, [1] method based on maximum flow velocity (default)".toList, .int 1⟩,
    ⟨"AbsoluteVelocityThreshold".toList, .float,
      "Absolute velocity threshold in m/s. Used to determine storage".toList, .float (1 / 10)⟩,
    ⟨"RelativeVelocityThreshold".toList, .float,
      "Relative velocity threshold (percentage). Used to determine storage".toList, .float (3 / 20)⟩,
    ⟨"MinimumDepthThreshold".toList, .float,
      "Minimum depth (m) for storage identification".toList, .float (1 / 50)⟩,
    ⟨"BedlevelCriterium".toList, .float,
      "Ignore the lowest percentage of bed level points".toList, .float (1 / 20)⟩,
    ⟨"LakeTimesteps".toList, .int,
      "Number of timesteps that are used for identifying lakes".toList, .int 10⟩,
    ⟨"ExtrapolateStorage".toList, .bool,
      "Add storage to water level independent cross-section section".toList, .bool true⟩,
    ⟨"SDCorrection".toList, .bool,
      "Use summerdike volume correction".toList, .bool true⟩,
    ⟨"SDFloodplainBase".toList, .float,
      "minimum distance between floodplain base level and crest level in meters".toList, .float (1 / 2)⟩,
    ⟨"SDTransitionHeight".toList, .float,
      "Transition height at the summer dike (m)".toList, .float (1 / 2)⟩,
    ⟨"SDOptimisationMethod".toList, .int,
      "[0] Optimise on Total volume, [1] optimise  on flow volume, [2] optimise on both".toList, .int 0⟩,
    ⟨"FrictionWeighingMethod".toList, .int,
      "Options. [0] arithmetric mean, [1] Weighted average".toList, .int 0⟩,
    ⟨"SkipMaps".toList, .int,
      "number of timesteps to skip at begin of 2D output. Use to skip problems related to initial conditions. ".toList, .int 0⟩,
    ⟨"MinimumTotalWidth".toList, .float,
      "Minimum width in meters. Zero width may lead to numerical instability in 1D solvers".toList, .float (1 / 2)⟩,
    ⟨"DefaultSection".toList, .str,
      "Default section name to use in cells not covered by a section polygon. Value options: floodplain1, floodplain2 or main".toList, .str "floodplain1".toList⟩,
    ⟨"DefaultRegion".toList, .str,
      "Default region name to use in cells not covered by a region polygon.".toList, .str "undefined".toList⟩]

/-- Section `debug` of the template (configurationfile_template.json, from line 119). -/
def debugTemplate : List (Entry K) :=
  [
    ⟨"ExportCSSData".toList, .bool,
      "If True, exports pickled (1) input data for cross-section object, (2) flow mask for conveyance/storage.".toList, .bool false⟩,
    ⟨"ExportMapFiles".toList, .bool,
      "Export detailed map output. Only use for small models or limited number of cross-sections b/c output can be huge.".toList, .bool false⟩,
    ⟨"CssSelection".toList, .list,
      "provide comma separated list of ints; e.g. 38, 39, 40. Leave empty to generate all cross-sections".toList, .str []⟩]

/-- Section `output` of the template (configurationfile_template.json, from line 137). -/
def outputTemplate : List (Entry K) :=
  [
    ⟨"OutputDirectory".toList, .str,
      "Output files are saved in OutputDir/CaseName; if not specified, subdirectory is created in the current directory".toList, .str "output".toList⟩]

/-- The template (`_get_template_ini`, ini_file.py:311-315). -/
def template : Config K :=
  [("input".toList, inputTemplate), ("parameters".toList, parameterTemplate), ("debug".toList, debugTemplate),
    ("output".toList, outputTemplate)]

/-! ## Reading and setting values -/

/-- The first entry with a key, in any capitalisation. -/
def findEntry (key : Text) (es : List (Entry K)) : Option (Entry K) := es.find? fun e => lower e.key = lower key

/-- Setting the value of the first entry with a key (ini_file.py:268-270, 293-298); `none` if there is none. -/
def setEntry (key : Text) (v : ConfigValue K) : List (Entry K) → Option (List (Entry K))
  | [] => none
  | e :: es => if lower e.key = lower key then some ({ e with value := v } :: es) else (setEntry key v es).map (e :: ·)

/-- `_set_config_value` (ini_file.py:258-273): an unknown section raises `KeyError`, an unknown key is reported. -/
def setValue (section' key : Text) (v : ConfigValue K) (c : Config K) : Except PyErr (Config K × Bool) :=
  match dictGet c section' with
  | none => .error .keyError
  | some es =>
    match setEntry key v es with
    | none => .ok (c, false)
    | some es' => .ok (dictSet section' es' c, true)

/-- `set_parameter` as `Project` calls it (ini_file.py:254-256). -/
def setParameter (key : Text) (v : ConfigValue K) (c : Config K) : Except PyErr (Config K × Bool) :=
  setValue "parameters".toList key v c

/-- `set_input_file` (ini_file.py:222-224). -/
def setInputFile (key : Text) (v : ConfigValue K) (c : Config K) : Except PyErr (Config K × Bool) :=
  setValue "input".toList key v c

/-- `_get_from_configuration` (ini_file.py:300-309). -/
def getValue (section' key : Text) (c : Config K) : Except PyErr (ConfigValue K) :=
  match dictGet c section' with
  | none => .error .attributeError
  | some es =>
    match findEntry key es with
    | none => .error .keyError
    | some e => .ok e.value

/-- `get_parameter` (ini_file.py:202-220): `none` for an unknown key. -/
def getParameter (key : Text) (c : Config K) : Except PyErr (Option (ConfigValue K)) :=
  match getValue "parameters".toList key c with
  | .ok v => .ok (some v)
  | .error .keyError =>
    match getValue "debug".toList key c with
    | .ok v => .ok (some v)
    | .error .keyError => .ok none
    | .error e => .error e
  | .error e => .error e

/-- `get_input_file` (ini_file.py:190-200). -/
def getInputFile (key : Text) (c : Config K) : Except PyErr (ConfigValue K) := getValue "input".toList key c

/-! ## Loading a file -/

/-- The files and directories that exist. -/
structure Disk where
  files : List Text
  dirs : List Text
  deriving DecidableEq

/-- `Path(a).joinpath(b)`. Paths are in the normal form of `pathlib`. -/
def joinPath (a b : Text) : Text :=
  if b.head? = some '/' then b
  else if b = [] then a
  else if a = ['.'] then b
  else a ++ '/' :: b

/-- What changes while a file is loaded. -/
structure IniState (K : Type) where
  config : Config K
  disk : Disk

/-- Setting a value of a known section and key. -/
def IniState.set (s : IniState K) (section' key : Text) (v : ConfigValue K) : IniState K :=
  match setValue section' key v s.config with
  | .ok (c, _) => { s with config := c }
  | .error _ => s

/-- One item of the section `input` (ini_file.py:393-403); `dir` is the directory of the configuration file. -/
def inputItem (dir : Text) (s : IniState K) (item : Text × Text) : IniState K :=
  match findEntry item.1 (inputTemplate (K := K)) with
  | none => s
  | some e =>
    if joinPath dir item.2 ∈ s.disk.files then s.set "input".toList e.key (.path (joinPath dir item.2)) else s

/-- One item of a section with parameters (ini_file.py:364-379). -/
def parameterItem (ft : FloatText K) (section' : Text) (entries : List (Entry K)) (s : IniState K) (item : Text × Text) :
    IniState K :=
  match findEntry item.1 entries with
  | none => s
  | some e =>
    match castValue ft e.type item.2 with
    | none => s
    | some v => s.set section' e.key v

/-- `_extract_parameters` (ini_file.py:340-379). -/
def extractParameters (ft : FloatText K) (section' : Text) (entries : List (Entry K))
    (supplied : List (Text × List (Text × Text))) (s : IniState K) : IniState K :=
  match dictGet supplied section' with
  | none => s
  | some items => items.foldl (parameterItem ft section' entries) s

/-- `set_output_directory` (ini_file.py:154-165, 445-458): the directory is created if nothing has this name.
`creatable` tells where `mkdir` succeeds. -/
def setOutputDirectory (creatable : Text → Bool) (dir : Text) (s : IniState K) : IniState K × Option PyErr :=
  if dir ∈ s.disk.files ∨ dir ∈ s.disk.dirs then (s.set "output".toList "OutputDirectory".toList (.path dir), none)
  else if creatable dir then
    (({ s with disk := { s.disk with dirs := s.disk.dirs ++ [dir] } } : IniState K).set "output".toList
      "OutputDirectory".toList (.path dir), none)
  else (s, some .osError)

/-- The items of the section `output` (ini_file.py:436-443). -/
def outputItems (creatable : Text → Bool) : List (Text × Text) → IniState K → IniState K × Option PyErr
  | [], s => (s, none)
  | item :: items, s =>
    if lower item.1 = "outputdirectory".toList then
      match setOutputDirectory creatable item.2 s with
      | (s', none) => outputItems creatable items s'
      | (s', some e) => (s', some e)
    else outputItems creatable items s

/-- `_read_inifile` (ini_file.py:317-338): without a section `input` or `output` an `AttributeError` is raised. -/
def readInifile (ft : FloatText K) (creatable : Text → Bool) (dir text : Text) (s : IniState K) :
    IniState K × Option PyErr :=
  match iniParams text with
  | .error e => (s, some e)
  | .ok supplied =>
    match dictGet supplied "input".toList with
    | none => (s, some .attributeError)
    | some items =>
      let s1 := items.foldl (inputItem dir) s
      let s2 := extractParameters ft "parameters".toList parameterTemplate supplied s1
      let s3 := extractParameters ft "debug".toList debugTemplate supplied s2
      match dictGet supplied "output".toList with
      | none => (s3, some .attributeError)
      | some items => outputItems creatable items s3

/-- `load_configuration_from_file` (ini_file.py:238-252): the file is read twice. `text` is its content, if it exists. -/
def loadConfiguration (ft : FloatText K) (creatable : Text → Bool) (dir : Text) (text : Option Text) (s : IniState K) :
    IniState K × Option PyErr :=
  match text with
  | none => (s, some .osError)
  | some t =>
    match readInifile ft creatable dir t s with
    | (s', some e) => (s', some e)
    | (s', none) => readInifile ft creatable dir t s'

/-- `get_output_directory` (ini_file.py:143-152). -/
def getOutputDirectory (ft : FloatText K) (dir : Text) (c : Config K) : Except PyErr Text :=
  match getValue "output".toList "OutputDirectory".toList c with
  | .error e => .error e
  | .ok v => .ok (joinPath dir (valueText ft v))

/-- What `mkdir` does at a path. -/
inductive MkdirResult where
  | made
  | notFound
  | refused
  deriving DecidableEq, Repr

/-- `has_output_directory` (ini_file.py:118-141): the directory is created if nothing has its name. `FileNotFoundError`
is caught, other errors are not. -/
def hasOutputDirectory (ft : FloatText K) (mkdir : Text → MkdirResult) (dir : Text) (s : IniState K) :
    Except PyErr (Bool × IniState K) :=
  match getOutputDirectory ft dir s.config with
  | .error e => .error e
  | .ok p =>
    if p ∈ s.disk.files ∨ p ∈ s.disk.dirs then .ok (true, s)
    else
      match mkdir p with
      | .made => .ok (true, { s with disk := { s.disk with dirs := s.disk.dirs ++ [p] } })
      | .notFound => .ok (false, s)
      | .refused => .error .osError

/-! ## Printing -/

/-- `f"{text:<n}"`. -/
def padRight (n : Nat) (t : Text) : Text := t ++ List.replicate (n - t.length) ' '

/-- The line of an entry (ini_file.py:232-234). -/
def entryLine (ft : FloatText K) (e : Entry K) : Text :=
  padRight 30 e.key ++ "= ".toList ++ padRight 10 (valueText ft e.value) ++ "# ".toList ++ e.hint ++ ['\n']

/-- `print_configuration` (ini_file.py:226-236). -/
def printConfiguration (ft : FloatText K) (c : Config K) : Text :=
  (c.map fun s => '[' :: s.1 ++ "]\n".toList ++ (s.2.map (entryLine ft)).flatten ++ ['\n']).flatten

end Fm2prof
