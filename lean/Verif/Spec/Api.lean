import Verif.Model.Api
import Verif.Spec.Program

/-! Specification of scripts: the values that were set last, and configurations that do not depend on where they are. -/

namespace Fm2prof.Spec

open Fm2prof

variable {K : Type} [Field K] [LinearOrder K] [IsStrictOrderedRing K] [FloorRing K]

/-- The value that was last set for a parameter, in any capitalisation. -/
def setLast (calls : List (Call K)) (key : Text) : Option (ConfigValue K) :=
  calls.reverse.findSome? fun
    | .setParameter n v => if lower n = lower key then some v else none
    | _ => none

/-- The input file that was last set, in any capitalisation. -/
def inputLast (calls : List (Call K)) (key : Text) : Option (ConfigValue K) :=
  calls.reverse.findSome? fun
    | .setInputFile n v => if lower n = lower key then some v else none
    | _ => none

/-- The output directory that was last set. -/
def outputLast (calls : List (Call K)) : Option Text :=
  calls.reverse.findSome? fun
    | .setOutputDirectory p => some p
    | _ => none

/-- A project whose files are given by absolute paths, with values that can be printed: every parameter has a printable value of its type;
every input file is empty or exists; the output directory `out` exists; the map file is a `Path` if there are polygon files. -/
structure Portable (ft : FloatText K) (disk : Disk) (c : Config K) (out : Text) : Prop where
  keys : keysOf c = keysOf (template (K := K))
  plain : PrintsPlain ft c
  parameters : ∀ k v, getParameter k c = .ok (some v) → ∀ e ∈ parameterTemplate (K := K) ++ debugTemplate, lower e.key = lower k →
    Printable ft e.type v
  inputs : ∀ k v, getInputFile k c = .ok v → v = .str [] ∨ ∃ p, (v = .path p ∨ v = .str p) ∧ p ∈ disk.files ∧
    p.head? = some '/' ∧ strip p = p ∧ '#' ∉ p
  map : (∃ p, getInputFile "2DMapOutput".toList c = .ok (.path p)) ∨ (getInputFile "RegionPolygonFile".toList c = .ok (.str []) ∧
    getInputFile "SectionPolygonFile".toList c = .ok (.str []))
  output : ∃ v, getValue "output".toList "OutputDirectory".toList c = .ok v ∧ valueText ft v = out
  absolute : out.head? = some '/' ∧ strip out = out ∧ '#' ∉ out
  exists' : out ∈ disk.dirs ∧ out ∉ disk.files
  real : [] ∉ disk.files

end Fm2prof.Spec
