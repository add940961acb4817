import Verif.Model.IniFile

/-! Specification of the configuration: histories of changes, plain configuration files, printable values. -/

namespace Fm2prof.Spec

variable {K : Type} [Field K] [LinearOrder K] [IsStrictOrderedRing K] [FloorRing K]

/-- Names, types and hints of a configuration, without its values. -/
def keysOf (c : Config K) : List (Text × List (Text × ConfigType × Text)) :=
  c.map fun s => (s.1, s.2.map fun e => (e.key, e.type, e.hint))

/-- Changes a user makes to a configuration. -/
inductive ConfigOp (K : Type) where
  | parameter (key : Text) (v : ConfigValue K)
  | input (key : Text) (v : ConfigValue K)
  | output (dir : Text)

/-- Applying a change; what raises an error changes nothing. -/
def applyOp (creatable : Text → Bool) (s : IniState K) : ConfigOp K → IniState K
  | .parameter k v =>
    match setParameter k v s.config with
    | .ok (c, _) => { s with config := c }
    | .error _ => s
  | .input k v =>
    match setInputFile k v s.config with
    | .ok (c, _) => { s with config := c }
    | .error _ => s
  | .output d => (setOutputDirectory creatable d s).1

/-- Applying changes one after the other. -/
def applyOps (creatable : Text → Bool) (ops : List (ConfigOp K)) (s : IniState K) : IniState K :=
  ops.foldl (applyOp creatable) s

/-- The last value given for a parameter, in any capitalisation. -/
def lastParameter (ops : List (ConfigOp K)) (key : Text) : Option (ConfigValue K) :=
  ops.reverse.findSome? fun
    | .parameter k v => if lower k = lower key then some v else none
    | _ => none

/-- The last value given for an input file, in any capitalisation. -/
def lastInput (ops : List (ConfigOp K)) (key : Text) : Option (ConfigValue K) :=
  ops.reverse.findSome? fun
    | .input k v => if lower k = lower key then some v else none
    | _ => none

/-- The default of a key in a list of entries, in any capitalisation. -/
def defaultOf (entries : List (Entry K)) (key : Text) : Option (ConfigValue K) :=
  (entries.find? fun e => lower e.key = lower key).map (·.value)

/-! ## Plain configuration files -/

/-- The content of a plain file: sections, and for each line what is left and right of the equals sign. -/
abbrev FileContent := List (Text × List (Text × Text))

/-- The text of a plain file. -/
def fileText (f : FileContent) : Text :=
  (f.map fun s => '[' :: s.1 ++ "]\n".toList ++ (s.2.map fun i => i.1 ++ '=' :: i.2 ++ ['\n']).flatten ++ ['\n']).flatten

/-- What may be left of the equals sign. -/
def PlainKey (t : Text) : Prop :=
  t ≠ [] ∧ (∀ c, t.head? = some c → isSpace c = false ∧ c ≠ '#' ∧ c ≠ ';' ∧ c ≠ '[') ∧ '=' ∉ t ∧ ':' ∉ t ∧ '\n' ∉ t

/-- What may be right of the equals sign. -/
def PlainValue (t : Text) : Prop := '\n' ∉ t ∧ '%' ∉ t

/-- A plain file: sections with different names, none of them `DEFAULT`; keys that differ within a section. -/
def PlainFile (f : FileContent) : Prop :=
  (∀ s ∈ f, s.1 ≠ [] ∧ '\n' ∉ s.1 ∧ s.1 ≠ "DEFAULT".toList) ∧ (f.map fun s => lower s.1).Nodup ∧
    ∀ s ∈ f, (s.2.map fun i => lower (rstrip i.1)).Nodup ∧ ∀ i ∈ s.2, PlainKey i.1 ∧ PlainValue i.2

/-- The text given for a key: what is right of the equals sign, up to a `#`, without spaces around it. -/
def fileValue (f : FileContent) (section' key : Text) : Option Text :=
  (f.find? fun s => lower s.1 = section').bind fun s =>
    (s.2.find? fun i => lower (rstrip i.1) = lower key).map fun i => strip (i.2.takeWhile (· ≠ '#'))

/-- The value of an entry after loading a file: what the file says if it is a value of the right type. -/
def loadedValue (ft : FloatText K) (e : Entry K) : Option Text → ConfigValue K
  | none => e.value
  | some t => (castValue ft e.type t).getD e.value

/-! ## Printing -/

/-- Values of the type of their entry that print without separators; a list can be the empty default. -/
def Printable (ft : FloatText K) : ConfigType → ConfigValue K → Prop
  | .str, .str t => strip t = t ∧ '#' ∉ t
  | .int, .int _ => True
  | .float, .float x => ft.representable x
  | .bool, .bool _ => True
  | .list, .list l => l ≠ []
  | .list, .str t => t = []
  | _, _ => False

/-- All values print on one line and without percent signs, so that the printed text is a configuration file. -/
def PrintsPlain (ft : FloatText K) (c : Config K) : Prop :=
  ∀ s ∈ c, ∀ e ∈ s.2, '\n' ∉ valueText ft e.value ∧ '%' ∉ valueText ft e.value

end Fm2prof.Spec
