import Verif.Model.Visualise
import Verif.Proofs.Decimal

/-! Specifications for the exported files. -/

namespace Fm2prof.Spec

open Fm2prof

variable {K : Type} [Field K] [LinearOrder K] [IsStrictOrderedRing K] [FloorRing K]

/-! ## Files with sections -/

/-- A section of a file: its header, and its keys with their values. -/
structure Section where
  header : Text
  entries : List (Text × Text)
  deriving DecidableEq

/-- The entries before the first header, and the sections. A line that starts with a bracket is a header. A line with an
equals sign is an entry: the key is before the first equals sign, the value after it. Spaces around headers, keys and
values do not count. -/
def sectionsOfLines : List Text → List (Text × Text) × List Section
  | [] => ([], [])
  | l :: ls =>
    if (strip l).head? = some '[' then ([], ⟨strip l, (sectionsOfLines ls).1⟩ :: (sectionsOfLines ls).2)
    else
      match partition '=' (strip l) with
      | none => sectionsOfLines ls
      | some (a, b) => ((strip a, strip b) :: (sectionsOfLines ls).1, (sectionsOfLines ls).2)

/-- The sections of a file with a header. -/
def sections (header : String) (text : Text) : List Section :=
  (sectionsOfLines (fileLines text)).2.filter fun s => s.header = header.toList

/-- The value of a key in a section. -/
def Section.get (s : Section) (key : String) : Option Text := (s.entries.find? fun e => e.1 = key.toList).map (·.2)

/-- The numbers in a value, as exact decimals. -/
def decimals (t : Text) : List (Option K) := (splitWs t).map parseDecimal

/-- All entries are numbers and they increase. -/
def Increasing (l : List (Option K)) : Prop := ∃ vs : List K, l = vs.map some ∧ vs.Pairwise (· < ·)

/-! ## Tables -/

/-- The roughness table a cross-section has for a section, if it has one. -/
def sectionTable (c : ExportCss K) (section' : Text) : Option (FrictionTable K) := c.tables.lookup section'

/-- The rows of a comma separated file, the header first. -/
def rows (text : Text) : List (List Text) := (fileLines text).map fun l => splitSep ',' (strip l)

/-- The entry of a row in the column with a name. -/
def field (header row : List Text) (column : String) : Option Text := row[header.idxOf column.toList]?

/-! ## Names -/

/-- A name that can be written to and read from the files: no equals sign, line break or spaces around it. -/
def PlainName (t : Text) : Prop := '=' ∉ t ∧ '\n' ∉ t ∧ strip t = t

instance (t : Text) : Decidable (PlainName t) := by unfold PlainName; infer_instance

/-- A name that can be written to a table: no comma, line break or spaces around it, and not empty. -/
def CsvName (t : Text) : Prop := ',' ∉ t ∧ '\n' ∉ t ∧ strip t = t ∧ t ≠ []

instance (t : Text) : Decidable (CsvName t) := by unfold CsvName; infer_instance

/-- A number as read back after printing with four decimals. -/
def as4 (ft : FloatText K) (x : K) : Option K := some (ft.near (roundTo 4 x))

/-- The definition of a cross-section as it should be read back: the name, and all numbers up to the printed
precision. -/
def definitionOf (ft : FloatText K) (c : ExportCss K) : CssDef K :=
  { id := c.name, levels := c.z.map (as4 ft), flowWidth := c.flowWidth.map (as4 ft),
    totalWidth := c.totalWidth.map (as4 ft), sdCrest := as4 ft c.crestLevel, sdFlowArea := some c.extraFlowArea,
    sdTotalArea := as4 ft c.extraTotalArea, sdBaseLevel := c.floodplainBase, mainSectionWidth := as4 ft c.widths.main,
    fp1SectionWidth := as4 ft c.widths.floodplain1 }

/-- The columns of a volume table, in the order of the file. -/
def VolumeTable.columns (t : VolumeTable K) : List (List (Option K)) :=
  [t.z, t.tv2d, t.fv2d, t.wa2d, t.fa2d, t.tvsd1d, t.tv1d, t.fvsd1d, t.fv1d, t.tw1d, t.fw1d]

/-- All columns have one entry per level. -/
def VolumeTable.Rectangular (t : VolumeTable K) : Prop := ∀ col ∈ VolumeTable.columns t, col.length = t.z.length

/-- All numbers of a table are floats. -/
def VolumeTable.Floats (ft : FloatText K) (t : VolumeTable K) : Prop :=
  ∀ col ∈ VolumeTable.columns t, ∀ x, some x ∈ col → ft.representable x

/-- Four significant digits, as printed by `"{:.4}"` (export.py:303), and the number read back from it. -/
structure SigText (ft : FloatText K) where
  text : K → Text
  value : K → K
  chars : ∀ x, ∀ c ∈ text x, c ∈ numberChars
  ne_nil : ∀ x, text x ≠ []
  parse : ∀ x, ft.parse (text x) = some (value x)

end Fm2prof.Spec
